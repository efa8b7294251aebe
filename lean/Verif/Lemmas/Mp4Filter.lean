import Verif.Mp4Filter
import Verif.Spec.BoxTree
import Verif.Lemmas.Bytes
/- Helper lemmas about the box filter. -/
namespace Verif

theorem strToUint32_ok {s : Bytes} {n : Nat} (h : strToUint32 s = .ok n) :
    s.length = 4 ∧ n = beVal s := by
  unfold strToUint32 at h
  split at h
  · cases h; exact ⟨by assumption, rfl⟩
  · cases h

theorem strToUint32_not_hang (s : Bytes) : strToUint32 s ≠ .error .hang := by
  unfold strToUint32; split <;> simp

theorem uint32ToStr_not_hang (v : Int) : uint32ToStr v ≠ .error .hang := by
  unfold uint32ToStr; split <;> simp

theorem take8_take4 (l : List α) : (l.take 8).take 4 = l.take 4 := by
  simp [List.take_take]

theorem filter_mono (r : FilterRules σ) : ∀ (n : Nat),
    (∀ ty data s, filterBox r n ty data s ≠ .error .hang →
      filterBox r (n + 1) ty data s = filterBox r n ty data s) ∧
    (∀ rest s, filterKids r n rest s ≠ .error .hang →
      filterKids r (n + 1) rest s = filterKids r n rest s) := by
  intro n
  induction n with
  | zero =>
    refine ⟨by intro ty data s h; simp [filterBox] at h, ?_⟩
    intro rest s h
    cases rest with
    | nil => simp [filterKids]
    | cons b rest => simp [filterKids] at h
  | succ n ih =>
    refine ⟨?_, ?_⟩
    · intro ty data s h
      rw [filterBox, filterBox]
      by_cases hc : ty ∈ r.composite
      · simp only [if_pos hc]
        have hk : filterKids r n (data.drop 8) s ≠ .error .hang := by
          intro e
          apply h
          rw [filterBox, if_pos hc, e]
        rw [ih.2 _ s hk]
      · simp only [if_neg hc]
    · intro rest s h
      cases rest with
      | nil => simp [filterKids]
      | cons b rest =>
        rw [filterKids] at h
        rw [filterKids, filterKids]
        cases hs : strToUint32 (((b :: rest).take 8).take 4) with
        | error e => rfl
        | ok size =>
          rw [hs] at h
          simp only at h ⊢
          have hb : filterBox r n (slice (b :: rest) 4 8) ((b :: rest).take size) s
              ≠ .error .hang := by
            intro e; rw [e] at h; exact h rfl
          rw [ih.1 _ _ s hb]
          cases hx : filterBox r n (slice (b :: rest) 4 8) ((b :: rest).take size) s with
          | error e => rfl
          | ok x =>
            obtain ⟨child, s'⟩ := x
            rw [hx] at h
            simp only at h ⊢
            have hk : filterKids r n ((b :: rest).drop size) s' ≠ .error .hang := by
              intro e; rw [e] at h; exact h rfl
            rw [ih.2 _ s' hk]

theorem filterBox_mono (r : FilterRules σ) (n : Nat) (ty : BoxType) (data : Bytes) (s : σ)
    (h : filterBox r n ty data s ≠ .error .hang) :
    filterBox r (n + 1) ty data s = filterBox r n ty data s := (filter_mono r n).1 ty data s h

theorem filterKids_mono (r : FilterRules σ) (n : Nat) (rest : Bytes) (s : σ)
    (h : filterKids r n rest s ≠ .error .hang) :
    filterKids r (n + 1) rest s = filterKids r n rest s := (filter_mono r n).2 rest s h

theorem filterBox_le (r : FilterRules σ) {n m : Nat} (hm : n ≤ m) (ty : BoxType) (data : Bytes)
    (s : σ) (h : filterBox r n ty data s ≠ .error .hang) :
    filterBox r m ty data s = filterBox r n ty data s := by
  induction hm with
  | refl => rfl
  | @step m _ ih => rw [filterBox_mono r m ty data s (by rw [ih]; exact h), ih]

theorem filterKids_le (r : FilterRules σ) {n m : Nat} (hm : n ≤ m) (rest : Bytes)
    (s : σ) (h : filterKids r n rest s ≠ .error .hang) :
    filterKids r m rest s = filterKids r n rest s := by
  induction hm with
  | refl => rfl
  | @step m _ ih => rw [filterKids_mono r m rest s (by rw [ih]; exact h), ih]

theorem filterTop_mono (r : FilterRules σ) : ∀ (n : Nat) (rest : Bytes) (s : σ),
    filterTop r n rest s ≠ .error .hang →
    filterTop r (n + 1) rest s = filterTop r n rest s
  | n, [], s => by intro _; cases n <;> simp [filterTop]
  | 0, b :: rest, s => by simp [filterTop]
  | n + 1, b :: rest, s => by
    intro h
    rw [filterTop] at h
    rw [filterTop, filterTop]
    cases hs : strToUint32 (((b :: rest).take 8).take 4) with
    | error e => rfl
    | ok size =>
      rw [hs] at h
      simp only at h ⊢
      have hb : (if slice (b :: rest) 4 8 ∈ r.top then
          filterBox r n (slice (b :: rest) 4 8) ((b :: rest).take size) s
          else .ok ((b :: rest).take size, s)) ≠ .error .hang := by
        intro e; rw [e] at h; exact h rfl
      have hbe : (if slice (b :: rest) 4 8 ∈ r.top then
          filterBox r (n + 1) (slice (b :: rest) 4 8) ((b :: rest).take size) s
          else .ok ((b :: rest).take size, s)) = (if slice (b :: rest) 4 8 ∈ r.top then
          filterBox r n (slice (b :: rest) 4 8) ((b :: rest).take size) s
          else .ok ((b :: rest).take size, s)) := by
        split
        · rename_i ht
          rw [if_pos ht] at hb
          exact filterBox_mono r n _ _ s hb
        · rfl
      rw [hbe]
      cases hx : (if slice (b :: rest) 4 8 ∈ r.top then
          filterBox r n (slice (b :: rest) 4 8) ((b :: rest).take size) s
          else .ok ((b :: rest).take size, s)) with
      | error e => rfl
      | ok x =>
        obtain ⟨child, s'⟩ := x
        rw [hx] at h
        simp only at h ⊢
        have hk : filterTop r n ((b :: rest).drop size) s' ≠ .error .hang := by
          intro e; rw [e] at h; exact h rfl
        rw [filterTop_mono r n _ s' hk]

theorem filterTop_le (r : FilterRules σ) {n m : Nat} (hm : n ≤ m) (rest : Bytes)
    (s : σ) (h : filterTop r n rest s ≠ .error .hang) :
    filterTop r m rest s = filterTop r n rest s := by
  induction hm with
  | refl => rfl
  | @step m _ ih => rw [filterTop_mono r m rest s (by rw [ih]; exact h), ih]

/-- A per-box method that itself always returns or raises. -/
def FilterRules.Total (r : FilterRules σ) : Prop :=
  ∀ ty data s, r.leaf ty data s ≠ .error .hang

theorem filter_total (r : FilterRules σ) (hr : r.Total) : ∀ (n : Nat),
    (∀ ty data s, data.length ≤ n → 0 < n →
      (ty ∈ r.composite → ¬ ZeroSize r.composite (data.drop 8)) →
      filterBox r n ty data s ≠ .error .hang) ∧
    (∀ rest s, (rest = [] ∨ rest.length < n) → ¬ ZeroSize r.composite rest →
      filterKids r n rest s ≠ .error .hang) := by
  intro n
  induction n with
  | zero =>
    refine ⟨by intros; omega, ?_⟩
    intro rest s hl _
    have : rest = [] := by rcases hl with h | h; exact h; omega
    subst this; simp [filterKids]
  | succ n ih =>
    refine ⟨?_, ?_⟩
    · intro ty data s hl _ hz
      rw [filterBox]
      by_cases hc : ty ∈ r.composite
      · simp only [if_pos hc]
        have hk := ih.2 (data.drop 8) s (by
          by_cases h8 : data.length ≤ 8
          · left; exact List.drop_of_length_le h8
          · right; simp only [List.length_drop]; omega) (hz hc)
        cases hx : filterKids r n (data.drop 8) s with
        | error e => intro h; apply hk; rw [hx]; simpa using h
        | ok x =>
          obtain ⟨kids, s'⟩ := x
          simp only
          split
          · cases hu : uint32ToStr ↑(List.take 8 data ++ kids).length with
            | error e =>
              intro h
              exact uint32ToStr_not_hang _ (by rw [hu]; simpa using h)
            | ok x => simp
          · simp
      · simp only [if_neg hc]; exact hr _ _ _
    · intro rest s hl hz
      cases rest with
      | nil => simp [filterKids]
      | cons b rest =>
        rw [filterKids]
        have hlen : (b :: rest).length < n + 1 := by
          rcases hl with h | h
          · cases h
          · exact h
        cases hs : strToUint32 (((b :: rest).take 8).take 4) with
        | error e =>
          intro h
          exact strToUint32_not_hang _ (by rw [hs]; simpa using h)
        | ok size =>
          simp only
          obtain ⟨h4, hv⟩ := strToUint32_ok hs
          rw [take8_take4] at h4 hv
          have h4' : 4 ≤ (b :: rest).length := by
            rw [List.length_take] at h4; omega
          have hpos : 0 < size := by
            rcases Nat.eq_zero_or_pos size with h | h
            · exact absurd (ZeroSize.here _ h4' (by rw [← hv]; exact h)) hz
            · exact h
          have hb := ih.1 (slice (b :: rest) 4 8) ((b :: rest).take size) s
            (by rw [List.length_take]; omega)
            (by simp only [List.length_cons] at hlen; simp only [List.length_cons] at h4'; omega)
            (by
              intro hc hzz
              exact hz (ZeroSize.inside _ h4' hc (by rw [← hv]; exact hzz)))
          cases hx : filterBox r n (slice (b :: rest) 4 8) ((b :: rest).take size) s with
          | error e => intro h; apply hb; rw [hx]; simpa using h
          | ok x =>
            obtain ⟨child, s'⟩ := x
            simp only
            have hk := ih.2 ((b :: rest).drop size) s'
              (by right; rw [List.length_drop]; omega)
              (by intro hzz; exact hz (ZeroSize.later _ h4' (by rw [← hv]; exact hzz)))
            cases hy : filterKids r n ((b :: rest).drop size) s' with
            | error e => intro h; apply hk; rw [hy]; simpa using h
            | ok y => simp

theorem filterTop_total (r : FilterRules σ) (hr : r.Total) : ∀ (n : Nat) (rest : Bytes) (s : σ),
    (rest = [] ∨ rest.length < n) → ¬ ZeroSizeTop r.top r.composite rest →
    filterTop r n rest s ≠ .error .hang := by
  intro n
  induction n with
  | zero =>
    intro rest s hl _
    have : rest = [] := by rcases hl with h | h; exact h; omega
    subst this; simp [filterTop]
  | succ n ih =>
    intro rest s hl hz
    cases rest with
    | nil => simp [filterTop]
    | cons b rest =>
      rw [filterTop]
      have hlen : (b :: rest).length < n + 1 := by
        rcases hl with h | h
        · cases h
        · exact h
      cases hs : strToUint32 (((b :: rest).take 8).take 4) with
      | error e =>
        intro h
        exact strToUint32_not_hang _ (by rw [hs]; simpa using h)
      | ok size =>
        simp only
        obtain ⟨h4, hv⟩ := strToUint32_ok hs
        rw [take8_take4] at h4 hv
        have h4' : 4 ≤ (b :: rest).length := by
          rw [List.length_take] at h4; omega
        have hpos : 0 < size := by
          rcases Nat.eq_zero_or_pos size with h | h
          · exact absurd (ZeroSizeTop.here _ h4' (by rw [← hv]; exact h)) hz
          · exact h
        have hb : (if slice (b :: rest) 4 8 ∈ r.top then
            filterBox r n (slice (b :: rest) 4 8) ((b :: rest).take size) s
            else .ok ((b :: rest).take size, s)) ≠ .error .hang := by
          split
          · rename_i ht
            exact (filter_total r hr n).1 (slice (b :: rest) 4 8) ((b :: rest).take size) s
              (by rw [List.length_take]; omega)
              (by simp only [List.length_cons] at hlen; simp only [List.length_cons] at h4'; omega)
              (by
                intro hc hzz
                exact hz (ZeroSizeTop.inside _ h4' ht hc (by rw [← hv]; exact hzz)))
          · simp
        cases hx : (if slice (b :: rest) 4 8 ∈ r.top then
            filterBox r n (slice (b :: rest) 4 8) ((b :: rest).take size) s
            else .ok ((b :: rest).take size, s)) with
        | error e => intro h; apply hb; rw [hx]; simpa using h
        | ok x =>
          obtain ⟨child, s'⟩ := x
          simp only
          have hk := ih ((b :: rest).drop size) s'
            (by right; rw [List.length_drop]; omega)
            (by intro hzz; exact hz (ZeroSizeTop.later _ h4' (by rw [← hv]; exact hzz)))
          cases hy : filterTop r n ((b :: rest).drop size) s' with
          | error e => intro h; apply hk; rw [hy]; simpa using h
          | ok y => simp

end Verif
