import Verif.Spec.SampleTables
import Verif.Lemmas.Bytes
import Mathlib.Tactic.Linarith
import Mathlib.Tactic.Ring
/-
The searches in the sample tables.
-/
namespace Verif

theorem searchLoop_spec (l : List Int) (x : Int) (hs : l.Pairwise (· ≤ ·)) (fuel lo hi : Nat)
    (hf : hi - lo ≤ fuel) (hle : lo ≤ hi) (hhi : hi ≤ l.length)
    (hlo : ∀ (i : Nat) (v : Int), i < lo → l[i]? = some v → v ≤ x)
    (hup : ∀ (i : Nat) (v : Int), hi ≤ i → l[i]? = some v → x < v) :
    searchLoop l x fuel lo hi ≤ l.length ∧
      (∀ (i : Nat) (v : Int), i < searchLoop l x fuel lo hi → l[i]? = some v → v ≤ x) ∧
      (∀ (i : Nat) (v : Int), searchLoop l x fuel lo hi ≤ i → l[i]? = some v → x < v) := by
  induction fuel generalizing lo hi with
  | zero =>
    have : lo = hi := by omega
    subst this
    exact ⟨hhi, hlo, hup⟩
  | succ fuel ih =>
    unfold searchLoop
    have hmono : ∀ (i j : Nat) (v w : Int), i ≤ j → l[i]? = some v → l[j]? = some w → v ≤ w := by
      intro i j v w hij hi hj
      rcases Nat.lt_or_eq_of_le hij with h | h
      · obtain ⟨h1, e1⟩ := List.getElem?_eq_some_iff.mp hi
        obtain ⟨h2, e2⟩ := List.getElem?_eq_some_iff.mp hj
        have := List.pairwise_iff_getElem.mp hs i j h1 h2 h
        rwa [e1, e2] at this
      · subst h
        rw [hi] at hj
        cases hj
        exact Int.le_refl _
    split
    · rename_i hlt
      have hm : (lo + hi) / 2 < l.length := by omega
      have hmv : l[(lo + hi) / 2]? = some l[(lo + hi) / 2] := List.getElem?_eq_getElem hm
      split
      · rename_i hx
        rw [hmv] at hx
        refine ih lo ((lo + hi) / 2) (by omega) (by omega) (by omega) hlo ?_
        intro i v hi' hv
        exact Int.lt_of_lt_of_le hx (hmono _ _ _ _ hi' hmv hv)
      · rename_i hx
        rw [hmv] at hx
        refine ih ((lo + hi) / 2 + 1) hi (by omega) (by omega) hhi ?_ hup
        intro i v hi' hv
        exact Int.le_trans (hmono _ _ _ _ (by omega) hv hmv) (Int.not_lt.mp hx)
    · have : lo = hi := by omega
      subst this
      exact ⟨hhi, hlo, hup⟩

/-- Where runs of the given lengths start. -/
def runStarts : Int → List Nat → List Int
  | _, [] => []
  | i, c :: cs => i :: runStarts (i + c) cs

theorem runStarts_get (i : Int) (cs : List Nat) (k : Nat) (v : Int) (h : (runStarts i cs)[k]? = some v) :
    v = i + ((cs.take k).sum : Nat) ∧ k < cs.length := by
  induction cs generalizing i k with
  | nil => simp [runStarts] at h
  | cons c cs ih =>
    unfold runStarts at h
    cases k with
    | zero => simp at h; simp [h]
    | succ k =>
      rw [List.getElem?_cons_succ] at h
      obtain ⟨h1, h2⟩ := ih _ _ h
      refine ⟨?_, by simpa using h2⟩
      rw [h1, List.take_succ_cons, List.sum_cons]
      push_cast
      ring

theorem runStarts_length (i : Int) (cs : List Nat) : (runStarts i cs).length = cs.length := by
  induction cs generalizing i with
  | nil => rfl
  | cons c cs ih => unfold runStarts; rw [List.length_cons, ih, List.length_cons]

theorem runStarts_at (i : Int) (cs : List Nat) (k : Nat) (h : k < cs.length) :
    (runStarts i cs)[k]? = some (i + ((cs.take k).sum : Nat)) := by
  have hl : k < (runStarts i cs).length := by rw [runStarts_length]; exact h
  rw [List.getElem?_eq_getElem hl]
  congr 1
  exact (runStarts_get i cs k _ (List.getElem?_eq_getElem hl)).1

theorem runs_take_sum_mono (cs : List Nat) {a b : Nat} (h : a ≤ b) : (cs.take a).sum ≤ (cs.take b).sum := by
  have : cs.take b = cs.take a ++ (cs.take b).drop a := by
    conv => lhs; rw [← List.take_append_drop a (cs.take b), List.take_take, Nat.min_eq_left h]
  rw [this, List.sum_append]
  omega

theorem runStarts_sorted (i : Int) (cs : List Nat) : (runStarts i cs).Pairwise (· ≤ ·) := by
  rw [List.pairwise_iff_getElem]
  intro a b ha hb hab
  rw [(runStarts_get i cs a _ (List.getElem?_eq_getElem ha)).1,
    (runStarts_get i cs b _ (List.getElem?_eq_getElem hb)).1]
  have := runs_take_sum_mono cs (Nat.le_of_lt hab)
  omega

/-- The search finds the run that the sample is in. -/
theorem tableIndex_run (cs : List Nat) (n : Nat) (h1 : 1 ≤ n) (h2 : n ≤ cs.sum) :
    ∃ (i c r : Nat), tableIndex (runStarts 1 cs) n = i ∧ cs[i]? = some c ∧ r < c ∧
      n = 1 + (cs.take i).sum + r := by
  obtain ⟨hlen, hle, hgt⟩ := searchLoop_spec (runStarts 1 cs) n (runStarts_sorted 1 cs)
    (runStarts 1 cs).length 0 (runStarts 1 cs).length (by omega) (by omega) (Nat.le_refl _)
    (fun i v h => by omega)
    (fun i v h hv => by obtain ⟨h1, _⟩ := List.getElem?_eq_some_iff.mp hv; omega)
  unfold tableIndex
  obtain ⟨b, hb⟩ : ∃ b, b = searchLoop (runStarts 1 cs) n (runStarts 1 cs).length 0 (runStarts 1 cs).length :=
    ⟨_, rfl⟩
  rw [← hb] at hlen hle hgt ⊢
  rw [runStarts_length] at hlen
  have hcs : 0 < cs.length := by
    cases cs with
    | nil => simp at h2; omega
    | cons c cs => simp
  have hb0 : 0 < b := by
    by_contra hc
    have := hgt 0 1 (by omega) (by rw [runStarts_at 1 cs 0 hcs]; rfl)
    omega
  have hbl : b - 1 < cs.length := by omega
  have hlo := hle (b - 1) _ (by omega) (runStarts_at 1 cs (b - 1) hbl)
  have hsum : (cs.take (b - 1 + 1)).sum = (cs.take (b - 1)).sum + cs[b - 1] := by
    rw [List.take_succ_eq_append_getElem hbl, List.sum_append, List.sum_singleton]
  have hup : n < 1 + (cs.take (b - 1 + 1)).sum := by
    rw [Nat.sub_add_cancel hb0]
    by_cases hlast : b < cs.length
    · have := hgt b _ (Nat.le_refl _) (runStarts_at 1 cs b hlast)
      omega
    · rw [List.take_of_length_le (by omega)]
      omega
  exact ⟨b - 1, cs[b - 1], n - (1 + (cs.take (b - 1)).sum), by omega, List.getElem?_eq_getElem hbl,
    by omega, by omega⟩

theorem pyGet_nat {l : List α} {i : Nat} {a : α} (h : l[i]? = some a) : pyGet l (i : Int) = .ok a := by
  unfold pyGet
  rw [if_neg (by omega), if_neg (by omega), Int.toNat_natCast, h]

/-! ### Runs -/

theorem expandRuns_append (a b : List (Nat × α)) : expandRuns (a ++ b) = expandRuns a ++ expandRuns b := by
  simp [expandRuns]

theorem expandRuns_length (l : List (Nat × α)) : (expandRuns l).length = (l.map Prod.fst).sum := by
  unfold expandRuns
  rw [List.length_flatMap]
  simp

theorem expandRuns_at (l : List (Nat × α)) (i r c : Nat) (a : α) (h : l[i]? = some (c, a)) (hr : r < c) :
    (expandRuns l)[((l.map Prod.fst).take i).sum + r]? = some a ∧
    (expandRuns l).take (((l.map Prod.fst).take i).sum + r) =
      expandRuns (l.take i) ++ List.replicate r a := by
  obtain ⟨hi, he⟩ := List.getElem?_eq_some_iff.mp h
  have hs : expandRuns l = expandRuns (l.take i) ++ (List.replicate c a ++ expandRuns (l.drop (i + 1))) := by
    conv => lhs; rw [← List.take_append_drop i l, ← List.getElem_cons_drop hi, he]
    rw [expandRuns_append]
    simp [expandRuns]
  have hlen : ((l.map Prod.fst).take i).sum = (expandRuns (l.take i)).length := by
    rw [expandRuns_length, List.map_take]
  rw [hlen]
  constructor
  · rw [hs, List.getElem?_append_right (by omega), Nat.add_sub_cancel_left,
      List.getElem?_append_left (by simp; omega), List.getElem?_replicate, if_pos hr]
  · conv => lhs; rw [hs]
    rw [List.take_length_add_append, List.take_append_of_le_length (by simp; omega),
      List.take_replicate, Nat.min_eq_left (by omega)]

theorem sum_replicate' (n a : Nat) : (List.replicate n a).sum = n * a := by
  induction n with
  | zero => simp
  | succ n ih => rw [List.replicate_succ, List.sum_cons, ih, Nat.succ_mul]; omega

/-! ### stts -/

theorem sttsLoop_lookup (l : List (Nat × Nat)) (last : Option SttsEntry) (i : Int) (cum : Nat) :
    (sttsLoop l last i cum).lookup =
      runStarts (match last with | none => i | some e => i + e.count) (l.map Prod.fst) := by
  induction l generalizing last i cum with
  | nil => rfl
  | cons p l ih =>
    obtain ⟨c, d⟩ := p
    unfold sttsLoop
    simp only [List.map_cons, runStarts]
    rw [ih]
    cases last <;> rfl

theorem sttsLoop_entries (l : List (Nat × Nat)) (last : Option SttsEntry) (i : Int) (cum k c d : Nat)
    (h : l[k]? = some (c, d)) :
    (sttsLoop l last i cum).entries[k]? = some ⟨c, d,
      (match last with | none => cum | some e => cum + e.count * e.delta) + (expandRuns (l.take k)).sum⟩ := by
  induction l generalizing last i cum k with
  | nil => simp at h
  | cons p l ih =>
    obtain ⟨c', d'⟩ := p
    unfold sttsLoop
    cases k with
    | zero =>
      simp at h
      obtain ⟨rfl, rfl⟩ := h
      cases last <;> simp [expandRuns]
    | succ k =>
      rw [List.getElem?_cons_succ] at h
      simp only
      rw [List.getElem?_cons_succ, ih _ _ _ _ h]
      simp only [List.take_succ_cons]
      rw [show (c', d') :: List.take k l = [(c', d')] ++ List.take k l from rfl, expandRuns_append,
        List.sum_append]
      congr 2
      have : (expandRuns [(c', d')]).sum = c' * d' := by simp [expandRuns]
      rw [this]
      cases last <;> simp only <;> omega

/-! ### ctts -/

theorem cttsLoop_lookup (l : List (Nat × Nat)) (last : Option Nat) (i : Int) :
    (cttsLoop l last i).lookup =
      runStarts (match last with | none => i | some n => i + n) (l.map Prod.fst) := by
  induction l generalizing last i with
  | nil => rfl
  | cons p l ih =>
    obtain ⟨c, d⟩ := p
    unfold cttsLoop
    simp only [List.map_cons, runStarts]
    rw [ih]
    cases last <;> rfl

theorem cttsLoop_entries (l : List (Nat × Nat)) (last : Option Nat) (i : Int) :
    (cttsLoop l last i).entries = l := by
  induction l generalizing last i with
  | nil => rfl
  | cons p l ih =>
    obtain ⟨c, d⟩ := p
    unfold cttsLoop
    simp only
    rw [ih]

/-! ### stsc -/

/-- Samples of each entry; the last has `last`. -/
def stscCounts (last : Nat) : List StscEntry → List Nat
  | [] => []
  | [_] => [last]
  | e :: f :: rest => (f.first - e.first) * e.samples :: stscCounts last (f :: rest)

theorem stscCounts_length (last : Nat) (l : List StscEntry) : (stscCounts last l).length = l.length := by
  induction l with
  | nil => rfl
  | cons e l ih =>
    cases l with
    | nil => rfl
    | cons f r => simp only [stscCounts, List.length_cons] at ih ⊢; omega

theorem stscLoop_entries (l : List StscEntry) (last : Option StscEntry) (i : Int) :
    (stscLoop l last i).entries = l := by
  induction l generalizing last i with
  | nil => rfl
  | cons p l ih => unfold stscLoop; simp only; rw [ih]

theorem stscLoop_lookup (n : Nat) (l : List StscEntry) (last : Option StscEntry) (i : Int)
    (hs : l.Pairwise fun a b => a.first < b.first) :
    (stscLoop l last i).lookup = runStarts (match last, l with
      | some e, f :: _ => i + ((f.first : Int) - e.first) * e.samples
      | _, _ => i) (stscCounts n l) := by
  induction l generalizing last i with
  | nil => rfl
  | cons e l ih =>
    unfold stscLoop
    simp only
    rw [ih _ _ (List.pairwise_cons.mp hs).2]
    cases l with
    | nil => cases last <;> rfl
    | cons f r =>
      have hlt := (List.pairwise_cons.mp hs).1 f (by simp)
      have e1 : ((f.first : Int) - e.first) * e.samples = (((f.first - e.first) * e.samples : Nat) : Int) := by
        rw [Nat.cast_mul, Nat.cast_sub (Nat.le_of_lt hlt)]
      cases last <;> simp only [stscCounts, runStarts, e1]

theorem stscCounts_at (n : Nat) (l : List StscEntry) (i : Nat) (e f : StscEntry) (h : l[i]? = some e)
    (h2 : l[i + 1]? = some f) : (stscCounts n l)[i]? = some ((f.first - e.first) * e.samples) := by
  induction l generalizing i with
  | nil => simp at h
  | cons a l ih =>
    cases l with
    | nil => simp at h2
    | cons b r =>
      unfold stscCounts
      cases i with
      | zero =>
        simp at h h2
        subst h; subst h2
        rfl
      | succ i =>
        rw [List.getElem?_cons_succ] at h h2 ⊢
        exact ih i h h2

theorem samplesIn_run (l : List StscEntry) (hs : l.Pairwise fun a b => a.first < b.first) (i : Nat)
    (e : StscEntry) (h : l[i]? = some e) (c : Nat) (h1 : e.first ≤ c)
    (h2 : ∀ f, l[i + 1]? = some f → c < f.first) : samplesIn l c = e.samples := by
  obtain ⟨hi, he⟩ := List.getElem?_eq_some_iff.mp h
  have hf : (l.filter fun e => decide (e.first ≤ c)) = l.take (i + 1) := by
    conv => lhs; rw [← List.take_append_drop (i + 1) l]
    rw [List.filter_append]
    have ha : (l.take (i + 1)).filter (fun e => decide (e.first ≤ c)) = l.take (i + 1) := by
      rw [List.filter_eq_self]
      intro a ha
      obtain ⟨k, hk, rfl⟩ := List.mem_iff_getElem.mp ha
      rw [List.length_take] at hk
      rw [List.getElem_take]
      have : l[k].first ≤ e.first := by
        rcases Nat.lt_or_eq_of_le (show k ≤ i by omega) with hlt | heq
        · have := List.pairwise_iff_getElem.mp hs k i (by omega) hi hlt
          rw [he] at this
          omega
        · subst heq; rw [he]
      simp only [decide_eq_true_eq]
      omega
    have hb : (l.drop (i + 1)).filter (fun e => decide (e.first ≤ c)) = [] := by
      rw [List.filter_eq_nil_iff]
      intro a ha
      obtain ⟨k, hk, rfl⟩ := List.mem_iff_getElem.mp ha
      rw [List.length_drop] at hk
      rw [List.getElem_drop]
      have hi1 : i + 1 < l.length := by omega
      have h3 := h2 l[i + 1] (List.getElem?_eq_getElem hi1)
      have : l[i + 1].first ≤ l[i + 1 + k].first := by
        rcases Nat.eq_zero_or_pos k with h0 | h0
        · subst h0; exact Nat.le_refl _
        · have := List.pairwise_iff_getElem.mp hs (i + 1) (i + 1 + k) hi1 (by omega) (by omega)
          omega
      simp only [decide_eq_true_eq]
      omega
    rw [ha, hb, List.append_nil]
  unfold samplesIn
  rw [hf, List.take_succ_eq_append_getElem hi, List.getLast?_append, he]
  simp

theorem samplesBefore_add (l : List StscEntry) (a k s : Nat) (ha : 1 ≤ a)
    (h : ∀ c, a ≤ c → c < a + k → samplesIn l c = s) :
    samplesBefore l (a + k) = samplesBefore l a + k * s := by
  induction k with
  | zero => simp
  | succ k ih =>
    have ih' := ih (fun c h1 h2 => h c h1 (by omega))
    have e1 : a + (k + 1) - 1 = (a + k - 1) + 1 := by omega
    have e2 : samplesBefore l (a + (k + 1)) = samplesBefore l (a + k) + samplesIn l (a + k) := by
      unfold samplesBefore
      rw [e1, List.range'_1_concat, List.map_append, List.sum_append, List.map_singleton, List.sum_singleton]
      congr 2
      omega
    rw [e2, ih', h (a + k) (by omega) (by omega)]
    ring

theorem samplesBefore_entry (n : Nat) (l : List StscEntry) (hv : StscValid l) (i : Nat) (e : StscEntry)
    (h : l[i]? = some e) : 1 ≤ e.first ∧ samplesBefore l e.first = ((stscCounts n l).take i).sum := by
  induction i generalizing e with
  | zero =>
    obtain ⟨e0, r, rfl, h1⟩ := hv.start
    simp at h
    subst h
    rw [h1]
    exact ⟨Nat.le_refl _, rfl⟩
  | succ i ih =>
    obtain ⟨hi1, he1⟩ := List.getElem?_eq_some_iff.mp h
    have hi : i < l.length := by omega
    have hg : l[i]? = some l[i] := List.getElem?_eq_getElem hi
    obtain ⟨hp, hb⟩ := ih l[i] hg
    have hlt : l[i].first < e.first := by
      have := List.pairwise_iff_getElem.mp hv.sorted i (i + 1) hi hi1 (by omega)
      rwa [he1] at this
    refine ⟨by omega, ?_⟩
    have hadd := samplesBefore_add l l[i].first (e.first - l[i].first) l[i].samples hp (by
      intro c h1 h2
      refine samplesIn_run l hv.sorted i l[i] hg c h1 ?_
      intro f hf
      rw [h] at hf
      cases hf
      omega)
    rw [show l[i].first + (e.first - l[i].first) = e.first by omega, hb] at hadd
    rw [hadd]
    have hc := stscCounts_at n l i l[i] e hg h
    obtain ⟨hci, hce⟩ := List.getElem?_eq_some_iff.mp hc
    rw [List.take_succ_eq_append_getElem hci, List.sum_append, hce, List.sum_singleton]

/-! ### stsz -/

theorem accumulate_at (total : Nat) (l : List Nat) (k : Nat) (h : k < l.length) :
    (accumulate total l)[k]? = some (total + (l.take k).sum) := by
  induction l generalizing total k with
  | nil => simp at h
  | cons x l ih =>
    unfold accumulate
    cases k with
    | zero => simp
    | succ k =>
      rw [List.getElem?_cons_succ, ih _ _ (by simpa using h), List.take_succ_cons, List.sum_cons]
      congr 1
      omega

/-! ### Reading the boxes -/

theorem wordsOf_bytes (w : Nat) (l : List Nat) (post : Bytes) (h : ∀ v ∈ l, v < 256 ^ w) :
    wordsOf w l.length (wordsBytes w l ++ post) = l := by
  induction l with
  | nil => rfl
  | cons v l ih =>
    have e : wordsBytes w (v :: l) ++ post = beBytes w v ++ (wordsBytes w l ++ post) := by
      simp [wordsBytes]
    rw [List.length_cons, wordsOf, e]
    have hw : (beBytes w v).length = w := beBytes_length _ _
    rw [List.take_left' hw, List.drop_left' hw, ih (fun x hx => h x (by simp [hx])),
      beVal_beBytes_of_lt (h v (by simp))]

theorem wordsBytes_length (w : Nat) (l : List Nat) : (wordsBytes w l).length = w * l.length := by
  induction l with
  | nil => rfl
  | cons v l ih =>
    have : wordsBytes w (v :: l) = beBytes w v ++ wordsBytes w l := by simp [wordsBytes]
    rw [this, List.length_append, ih, beBytes_length, List.length_cons]
    ring

theorem unpackWords_bytes (w : Nat) (pre post : Bytes) (l : List Nat) (pos n : Nat)
    (hp : pos = pre.length) (hn : n = l.length) (h : ∀ v ∈ l, v < 256 ^ w) :
    unpackWords (pre ++ wordsBytes w l ++ post) w pos n = .ok l := by
  subst hp; subst hn
  unfold unpackWords
  rw [slice_eq_of_append pre (wordsBytes w l) post rfl (by rw [wordsBytes_length]), wordsBytes_length,
    if_pos rfl]
  have := wordsOf_bytes w l [] h
  rw [List.append_nil] at this
  rw [this]

theorem wordAt_bytes (pre post : Bytes) (pos v : Nat) (hp : pos = pre.length) (h : v < 2 ^ 32) :
    wordAt (pre ++ beBytes 4 v ++ post) pos = .ok v := by
  subst hp
  unfold wordAt strToUint32
  rw [slice_eq_of_append pre (beBytes 4 v) post rfl (by rw [beBytes_length]), beBytes_length, if_pos rfl,
    beVal_beBytes_of_lt (by omega)]

theorem pairsOf_flat (l : List (Nat × Nat)) : pairsOf (l.flatMap fun p => [p.1, p.2]) = l := by
  induction l with
  | nil => rfl
  | cons p l ih => simp only [List.flatMap_cons, List.cons_append, List.nil_append, pairsOf, ih]

theorem triplesOf_flat (l : List StscEntry) :
    (triplesOf (l.flatMap fun e => [e.first, e.samples, e.desc])).map
      (fun x => (⟨x.1, x.2.1, x.2.2⟩ : StscEntry)) = l := by
  induction l with
  | nil => rfl
  | cons e l ih =>
    simp only [List.flatMap_cons, List.cons_append, List.nil_append, triplesOf, List.map_cons, ih]

end Verif
