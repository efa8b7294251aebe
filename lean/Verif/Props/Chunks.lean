import Verif.Spec.Samples
import Mathlib.Tactic.Linarith
import Mathlib.Tactic.Ring
/-
C16, C17: partition of the samples of a segment into chunks.
-/
namespace Verif

theorem partLoop_flatten (dur : Int) (l : List Sample) : ∀ (d0 d1 : Int) (part : List Sample),
    (partLoop dur l d0 d1 part).flatten = part ++ l := by
  induction l with
  | nil => intro d0 d1 part; unfold partLoop; split <;> simp_all
  | cons s l ih =>
    intro d0 d1 part
    unfold partLoop
    split
    · rw [List.flatten_cons, ih]; simp
    · rw [ih]; simp

theorem partLoop_ne (dur : Int) (l : List Sample) : ∀ (d0 d1 : Int) (part : List Sample),
    part ≠ [] → ∀ p ∈ partLoop dur l d0 d1 part, p ≠ [] := by
  induction l with
  | nil => intro d0 d1 part hp; unfold partLoop; simp [hp]
  | cons s l ih =>
    intro d0 d1 part hp
    unfold partLoop
    split
    · intro p hm
      rcases List.mem_cons.1 hm with rfl | hm
      · exact hp
      · exact ih _ _ [s] (by simp) p hm
    · exact ih _ _ _ (by simp)

/-- **C16 (lossless).** For every chunk duration, the chunks in order contain exactly the
samples of the segment in order. -/
theorem C16_lossless (samples : List Sample) (dur : Int) :
    (partition samples dur).flatten = samples := by
  rw [partition, partLoop_flatten]; rfl

/-- **C16 (no empty chunk).** For every positive chunk duration no chunk is empty. -/
theorem C16_nonempty (samples : List Sample) (dur : Int) (hd : 0 < dur) :
    ∀ p ∈ partition samples dur, p ≠ [] := by
  unfold partition
  cases samples with
  | nil => simp [partLoop]
  | cons s l =>
    unfold partLoop
    rw [if_neg (by omega)]
    exact partLoop_ne _ _ _ _ _ (by simp)

theorem contiguous_append (l1 l2 : List Sample) : ∀ t, ContiguousFrom t (l1 ++ l2) ↔
    ContiguousFrom t l1 ∧ ContiguousFrom (t + totalDuration l1) l2 := by
  induction l1 with
  | nil => intro t; simp [ContiguousFrom, totalDuration]
  | cons s l ih =>
    intro t
    simp only [List.cons_append, ContiguousFrom, ih, totalDuration, List.map_cons, List.sum_cons,
      and_assoc, Nat.add_assoc]

theorem chunksFrom_of_flatten (ps : List (List Sample)) : ∀ t, (∀ p ∈ ps, p ≠ []) →
    ContiguousFrom t ps.flatten → ChunksFrom t ps := by
  induction ps with
  | nil => intro t _ _; trivial
  | cons p ps ih =>
    intro t hne h
    rw [List.flatten_cons, contiguous_append] at h
    exact ⟨hne p (by simp), h.1, ih _ (fun q hq => hne q (by simp [hq])) h.2⟩

/-- **C16 (times).** If the samples of the segment follow each other without gap from decode
time `t`, then the first chunk starts at `t` and every chunk starts where the one before it
ends. -/
theorem C16_times (samples : List Sample) (dur : Int) (hd : 0 < dur) (t : Nat)
    (h : ContiguousFrom t samples) : ChunksFrom t (partition samples dur) :=
  chunksFrom_of_flatten _ _ (C16_nonempty samples dur hd) (by rw [C16_lossless]; exact h)

theorem contiguous_ge (l : List Sample) : ∀ t, ContiguousFrom t l → ∀ s ∈ l, t ≤ s.time := by
  induction l with
  | nil => intro t _ s hs; cases hs
  | cons x l ih =>
    intro t h s hs
    rcases List.mem_cons.1 hs with rfl | hs
    · exact h.1.ge
    · have := ih _ h.2 s hs; omega

theorem cell_lt {o step t k : Nat} (hs : 0 < step) (h : t < o + k * step) (hk : 0 < k) :
    (t - o) / step < k := by
  rw [Nat.div_lt_iff_lt_mul hs]
  have : 0 < k * step := Nat.mul_pos hk hs
  omega

theorem cell_ge {o step t k : Nat} (hs : 0 < step) (h : o + k * step ≤ t) :
    k ≤ (t - o) / step := by
  rw [Nat.le_div_iff_mul_le hs]; omega

/-- What the loop returns, cell by cell. -/
theorem partLoop_grid (o step : Nat) (hs : 0 < step) (l : List Sample) :
    ∀ (t k : Nat) (part : List Sample), part ≠ [] → (∀ s ∈ l, s.duration ≤ step) →
    ContiguousFrom t l → o + k * step ≤ t → t < o + (k + 2) * step →
    (∀ j, (partLoop step l ((t : Int) - o) ((k + 1) * step) part)[j]? =
      if j = 0 then some (part ++ l.filter (fun s => gridCell o step s = k))
      else if j + k ≤ (match l.getLast? with | some s => gridCell o step s | none => k) then
        some (l.filter (fun s => gridCell o step s = j + k))
      else none) := by
  induction l with
  | nil =>
    intro t k part hp _ _ _ _ j
    unfold partLoop
    rw [if_neg hp]
    cases j with
    | zero => simp
    | succ j => simp
  | cons s l ih =>
    intro t k part hp hdur hc h1 h2 j
    have hst : s.time = t := hc.1
    have hsd : s.duration ≤ step := hdur s (by simp)
    have hlast : ((s :: l).getLast?) = some (l.getLast?.getD s) := by
      cases l with
      | nil => rfl
      | cons y l => simp [List.getLast?_cons]
    have e2 : (k + 2) * step = k * step + 2 * step := Nat.add_mul _ _ _
    have e1 : (k + 1) * step = k * step + step := by rw [Nat.add_mul, Nat.one_mul]
    have ei : ((k : Int) + 1) * step = ((k * step + step : Nat) : Int) := by
      push_cast; ring
    have hlater : ∀ x ∈ l, t ≤ x.time := fun x hx => by
      have := contiguous_ge l _ hc.2 x hx; omega
    unfold partLoop
    by_cases hcut : o + (k + 1) * step ≤ t
    · rw [if_pos (by rw [ei]; omega)]
      have hcell : gridCell o step s = k + 1 := by
        unfold gridCell
        rw [hst]
        apply Nat.le_antisymm
        · exact Nat.lt_succ_iff.1 (cell_lt hs (by omega) (by omega))
        · exact cell_ge hs hcut
      have hcells : ∀ x ∈ l, k + 1 ≤ gridCell o step x := fun x hx =>
        cell_ge hs (Nat.le_trans hcut (hlater x hx))
      have e3 : (k + 1 + 2) * step = k * step + 3 * step := by rw [Nat.add_assoc, Nat.add_mul]
      have ih' := ih (t + s.duration) (k + 1) [s] (by simp) (fun x hx => hdur x (by simp [hx])) hc.2
        (by omega) (by omega)
      rw [show ((t + s.duration : Nat) : Int) - o = (t : Int) - o + s.duration by push_cast; ring,
        show (((k + 1 : Nat) : Int) + 1) * step = ((k : Int) + 1) * step + step by push_cast; ring]
        at ih'
      cases j with
      | zero =>
        simp only [List.getElem?_cons_zero, if_true]
        congr 1
        have : (s :: l).filter (fun s => decide (gridCell o step s = k)) = [] := by
          rw [List.filter_eq_nil_iff]
          intro x hx
          rcases List.mem_cons.1 hx with rfl | hx
          · simp [hcell]
          · have := hcells x hx; simp; omega
        rw [this]; simp
      | succ j =>
        rw [List.getElem?_cons_succ, ih' j, if_neg (Nat.succ_ne_zero j), hlast]
        have hl : (match l.getLast? with | some s => gridCell o step s | none => k + 1)
            = gridCell o step (l.getLast?.getD s) := by
          cases l.getLast? with
          | none => simp [hcell]
          | some y => rfl
        rw [hl]
        simp only
        have hge : k + 1 ≤ gridCell o step (l.getLast?.getD s) := by
          cases hy : l.getLast? with
          | none => simp [hcell]
          | some y => simpa using hcells y (List.mem_of_getLast? hy)
        by_cases hj : j = 0
        · subst hj
          rw [if_pos rfl, if_pos (by omega)]
          congr 1
          rw [List.filter_cons_of_pos (by simp [hcell]; omega)]
          simp [Nat.add_comm]
        · rw [if_neg hj]
          have : (j + (k + 1) ≤ gridCell o step (l.getLast?.getD s)) ↔
              (j + 1 + k ≤ gridCell o step (l.getLast?.getD s)) := by omega
          simp only [this]
          split
          · congr 1
            rw [List.filter_cons_of_neg (by simp [hcell]; omega),
              show j + (k + 1) = j + 1 + k by omega]
          · rfl
    · rw [if_neg (by rw [ei]; omega)]
      have hcell : gridCell o step s = k := by
        unfold gridCell
        rw [hst]
        apply Nat.le_antisymm
        · exact Nat.lt_succ_iff.1 (cell_lt (k := k + 1) hs (by omega) (by omega))
        · exact cell_ge hs h1
      have ih' := ih (t + s.duration) k (part ++ [s]) (by simp) (fun x hx => hdur x (by simp [hx]))
        hc.2 (by omega) (by omega)
      rw [show ((t + s.duration : Nat) : Int) - o = (t : Int) - o + s.duration by push_cast; ring]
        at ih'
      rw [ih' j, hlast]
      have hl : (match l.getLast? with | some s => gridCell o step s | none => k)
          = gridCell o step (l.getLast?.getD s) := by
        cases l.getLast? with
        | none => simp [hcell]
        | some y => rfl
      rw [hl]
      by_cases hj : j = 0
      · subst hj
        simp [hcell]
      · rw [if_neg hj, if_neg hj]
        rw [List.filter_cons_of_neg (by simp [hcell]; omega)]

/-- **C17.** For every positive chunk duration and every segment whose samples follow each
other without gap from decode time `o` and none of which is longer than the chunk duration:
chunk `k` consists of exactly the samples that start in the cell from `o + k*step` to
`o + (k+1)*step` of the grid, and the number of chunks is the cell of the last sample plus
one. -/
theorem C17_grid (o step : Nat) (hs : 0 < step) (samples : List Sample)
    (hdur : ∀ s ∈ samples, s.duration ≤ step) (hc : ContiguousFrom o samples) (k : Nat) :
    (partition samples step)[k]? =
      match samples.getLast? with
      | none => none
      | some last => if k ≤ gridCell o step last then
          some (samples.filter (fun s => gridCell o step s = k)) else none := by
  unfold partition
  cases samples with
  | nil => simp [partLoop]
  | cons s l =>
    have hst : s.time = o := hc.1
    have hsd : s.duration ≤ step := hdur s (by simp)
    have hcell : gridCell o step s = 0 := by
      unfold gridCell; rw [hst, Nat.sub_self, Nat.zero_div]
    unfold partLoop
    rw [if_neg (by omega)]
    have := partLoop_grid o step hs l (o + s.duration) 0 [s] (by simp)
      (fun x hx => hdur x (by simp [hx])) hc.2 (by omega) (by omega) k
    rw [show (((o + s.duration : Nat) : Int) - o) = 0 + s.duration by push_cast; ring,
      show (((0 : Nat) : Int) + 1) * step = step by simp] at this
    rw [show ([] ++ [s] : List Sample) = [s] from rfl, this]
    have hlast : ((s :: l).getLast?) = some (l.getLast?.getD s) := by
      cases l with
      | nil => rfl
      | cons y l => simp [List.getLast?_cons]
    have hl : (match l.getLast? with | some s => gridCell o step s | none => 0)
        = gridCell o step (l.getLast?.getD s) := by
      cases l.getLast? with
      | none => simp [hcell]
      | some y => rfl
    rw [hlast, hl]
    by_cases hk : k = 0
    · subst hk
      simp [hcell]
    · rw [if_neg hk]
      simp only [Nat.add_zero]
      rw [List.filter_cons_of_neg (by simp [hcell]; omega)]

/-- **C17 (boundaries).** Under the same hypotheses: when there is a chunk after chunk `k`, the
boundary between them (the start of chunk `k+1`) is not before `o + (k+1)*step`, and every
sample of chunk `k` starts before `o + (k+1)*step`.  So chunk `k` ends at the first sample
boundary not before that grid point. -/
theorem C17_boundaries (o step : Nat) (hs : 0 < step) (samples : List Sample)
    (hdur : ∀ s ∈ samples, s.duration ≤ step) (hc : ContiguousFrom o samples) (k : Nat)
    (p q : List Sample) (hp : (partition samples step)[k]? = some p)
    (hq : (partition samples step)[k + 1]? = some q) :
    (∀ s ∈ p, s.time < o + (k + 1) * step) ∧ ∃ s rest, q = s :: rest ∧ o + (k + 1) * step ≤ s.time := by
  have cells : ∀ j r, (partition samples step)[j]? = some r →
      ∀ s ∈ r, s ∈ samples ∧ gridCell o step s = j := by
    intro j r hr s hsr
    rw [C17_grid o step hs samples hdur hc j] at hr
    split at hr
    · cases hr
    · split at hr
      · simp only [Option.some.injEq] at hr
        rw [← hr, List.mem_filter] at hsr
        exact ⟨hsr.1, by simpa using hsr.2⟩
      · cases hr
  constructor
  · intro s hsp
    have h1 := (cells k p hp s hsp).2
    unfold gridCell at h1
    have : (s.time - o) / step < k + 1 := by omega
    rw [Nat.div_lt_iff_lt_mul hs] at this
    omega
  · have hne := C16_nonempty samples step (by omega) q (List.mem_of_getElem? hq)
    cases q with
    | nil => exact absurd rfl hne
    | cons s rest =>
      refine ⟨s, rest, rfl, ?_⟩
      obtain ⟨hm, h1⟩ := cells (k + 1) _ hq s (by simp)
      have hge := contiguous_ge _ _ hc s hm
      unfold gridCell at h1
      have : (k + 1) * step ≤ s.time - o := by
        rw [← h1]; exact Nat.div_mul_le_self _ _
      omega

/-- **C17 (length).** Under the same hypotheses a chunk without its last sample is shorter than
the chunk duration. -/
theorem C17_length (o step : Nat) (hs : 0 < step) (samples : List Sample)
    (hdur : ∀ s ∈ samples, s.duration ≤ step) (hc : ContiguousFrom o samples) (k : Nat)
    (p : List Sample) (last : Sample)
    (hp : (partition samples step)[k]? = some (p ++ [last])) : totalDuration p < step := by
  have hch := C16_times samples step (by omega) o hc
  have hcont : ∃ t, ContiguousFrom t (p ++ [last]) := by
    have : ∀ (ps : List (List Sample)) (t : Nat), ChunksFrom t ps → ∀ q ∈ ps, ∃ u,
        ContiguousFrom u q := by
      intro ps
      induction ps with
      | nil => intro t _ q hq; cases hq
      | cons r rs ih =>
        intro t h q hq
        rcases List.mem_cons.1 hq with rfl | hq
        · exact ⟨t, h.2.1⟩
        · exact ih _ h.2.2 q hq
    exact this _ _ hch _ (List.mem_of_getElem? hp)
  obtain ⟨t, ht⟩ := hcont
  have cells : ∀ s ∈ p ++ [last], o ≤ s.time ∧ (s.time - o) / step = k := by
    intro s hsr
    rw [C17_grid o step hs samples hdur hc k] at hp
    split at hp
    · cases hp
    · split at hp
      · simp only [Option.some.injEq] at hp
        rw [← hp, List.mem_filter] at hsr
        exact ⟨contiguous_ge _ _ hc s hsr.1, of_decide_eq_true hsr.2⟩
      · cases hp
  rw [contiguous_append] at ht
  have hlast : last.time = t + totalDuration p := ht.2.1
  have h1 := cells last (by simp)
  have hlt : (last.time - o) < (k + 1) * step := by
    rw [← Nat.div_lt_iff_lt_mul hs]; omega
  have hge : o + k * step ≤ t ∨ p = [] := by
    cases p with
    | nil => right; rfl
    | cons x p =>
      left
      have hx := cells x (by simp)
      have : k * step ≤ x.time - o := by rw [← hx.2]; exact Nat.div_mul_le_self _ _
      have hxt : x.time = t := ht.1.1
      omega
  rcases hge with hge | rfl
  · rw [Nat.add_mul, Nat.one_mul] at hlt
    omega
  · exact hs

/-- **C17 (number of chunks).** With total duration `T` and last sample of duration `d` the
number of chunks is the integer part of `(T - d) / step` plus one. -/
theorem C17_count (o step : Nat) (hs : 0 < step) (samples : List Sample) (last : Sample)
    (hdur : ∀ s ∈ samples ++ [last], s.duration ≤ step)
    (hc : ContiguousFrom o (samples ++ [last])) :
    (partition (samples ++ [last]) step).length = totalDuration samples / step + 1 := by
  have htime : last.time = o + totalDuration samples := by
    rw [contiguous_append] at hc; exact hc.2.1
  have hcell : gridCell o step last = totalDuration samples / step := by
    unfold gridCell; rw [htime]; congr 1; omega
  have h := C17_grid o step hs (samples ++ [last]) hdur hc
  simp only [List.getLast?_append, List.getLast?_singleton, Option.some_or, hcell] at h
  apply Nat.le_antisymm
  · by_contra hlt
    have h1 := h (totalDuration samples / step + 1)
    rw [if_neg (by omega)] at h1
    rw [List.getElem?_eq_none_iff] at h1
    omega
  · by_contra hlt
    have h1 := h (totalDuration samples / step)
    rw [if_pos (by omega)] at h1
    rw [List.getElem?_eq_none (by omega)] at h1
    cases h1

/-! ### cases -/

/-- Five samples of 400 ticks from decode time 1000, chunk duration 900. -/
def exampleSamples : List Sample :=
  [⟨[1], 1000, 400, true, 0⟩, ⟨[2, 3], 1400, 400, true, 0⟩, ⟨[4], 1800, 400, true, 100⟩,
   ⟨[5], 2200, 400, true, 0⟩, ⟨[6, 7], 2600, 400, true, 0⟩]

example : ContiguousFrom 1000 exampleSamples ∧ (∀ s ∈ exampleSamples, s.duration ≤ 900) ∧
    (partition exampleSamples 900).map (List.map Sample.data) =
      [[[1], [2, 3], [4]], [[5], [6, 7]]] ∧
    (partition exampleSamples 900).length = totalDuration exampleSamples.dropLast / 900 + 1 := by
  refine ⟨⟨rfl, rfl, rfl, rfl, rfl, trivial⟩, by decide, by decide, by decide⟩

end Verif
