import Verif.Xlink
import Verif.Lemmas.Replace
import Mathlib.Data.List.Infix
/-
Searching and replacing in texts.
-/
namespace Verif

/-- No occurrence of `sub` in `pre ++ rest` starts in `pre`. -/
def NoStart (sub pre rest : Text) : Prop := ∀ s, s ≠ [] → s <:+ pre → ¬sub <+: s ++ rest

theorem NoStart.tail {sub pre rest : Text} {c : Char} (h : NoStart sub (c :: pre) rest) : NoStart sub pre rest :=
  fun s h0 hs => h s h0 (hs.trans (List.suffix_cons c pre))

theorem NoStart.head {sub pre rest : Text} {c : Char} (h : NoStart sub (c :: pre) rest) :
    sub.isPrefixOf (c :: (pre ++ rest)) = false := by
  rw [Bool.eq_false_iff]
  intro hp
  exact h (c :: pre) (by simp) (List.suffix_refl _) (List.isPrefixOf_iff_prefix.mp hp)

/-- A text that does not occur in `pre` and does not contain its last character. -/
theorem noStart_last {sub pre : Text} {c : Char} (hc : c ∉ sub) (h : ¬sub <:+: pre) (rest : Text) :
    NoStart sub (pre ++ [c]) rest := by
  intro s h0 hs hp
  rcases List.eq_nil_or_concat s with rfl | ⟨s', d, rfl⟩
  · exact h0 rfl
  rw [List.concat_eq_append] at hs hp
  have hd : d = c ∧ s' <:+ pre := by
    obtain ⟨u, hu⟩ := hs
    rw [← List.append_assoc] at hu
    have := List.append_inj' hu rfl
    exact ⟨by simpa using this.2, ⟨u, this.1⟩⟩
  obtain ⟨rfl, hs'⟩ := hd
  rw [List.append_assoc] at hp
  by_cases hl : sub.length ≤ s'.length
  · exact h ((List.prefix_of_prefix_length_le hp (List.prefix_append s' _) hl).isInfix.trans hs'.isInfix)
  · have h2 : s' ++ [d] <+: sub := by
      refine List.prefix_of_prefix_length_le (l₃ := s' ++ ([d] ++ rest)) ?_ hp (by simp; omega)
      rw [← List.append_assoc]; exact List.prefix_append _ _
    exact hc (h2.subset (by simp))

/-- A text that does not occur in `pre`, before a character that is not after its first. -/
theorem noStart_next {f d : Char} {q pre : Text} (hd : d ∉ q) (h : ¬(f :: q) <:+: pre) (rest : Text) :
    NoStart (f :: q) pre (d :: rest) := by
  intro s h0 hs hp
  by_cases hl : (f :: q).length ≤ s.length
  · exact h ((List.prefix_of_prefix_length_le hp (List.prefix_append s _) hl).isInfix.trans hs.isInfix)
  · have h2 : s ++ [d] <+: f :: q := by
      refine List.prefix_of_prefix_length_le (l₃ := s ++ d :: rest) ?_ hp (by simp at hl ⊢; omega)
      rw [show s ++ d :: rest = (s ++ [d]) ++ rest by simp]; exact List.prefix_append _ _
    obtain ⟨c, s, rfl⟩ := List.exists_cons_of_ne_nil h0
    rw [List.cons_append, List.cons_prefix_cons] at h2
    exact hd (h2.2.subset (by simp))

theorem infix_next {f d : Char} {q pre rest : Text} (hd : d ∉ q) (h1 : ¬(f :: q) <:+: pre)
    (h2 : ¬(f :: q) <:+: d :: rest) : ¬(f :: q) <:+: pre ++ d :: rest := by
  rintro ⟨u, v, e⟩
  rw [List.append_assoc] at e
  rcases List.append_eq_append_iff.mp e with ⟨w, rfl, hw⟩ | ⟨w, rfl, hw⟩
  · by_cases h0 : w = []
    · rw [h0, List.nil_append] at hw
      exact h2 ⟨[], v, by simpa using hw⟩
    · exact noStart_next hd h1 rest w h0 (List.suffix_append _ _) ⟨v, by rw [← hw]⟩
  · exact h2 ⟨w, v, by rw [hw]; simp⟩

/-- A text that starts with `<` occurs in a text with only one `<` at its start. -/
theorem infix_piece {f : Char} {q w : Text} (hf : f ∉ w) (h : (f :: q) <:+: f :: w) : q <+: w := by
  obtain ⟨u, v, e⟩ := h
  cases u with
  | nil =>
    simp only [List.nil_append, List.cons_append, List.cons.injEq, true_and] at e
    exact ⟨v, e⟩
  | cons c u =>
    simp only [List.cons_append, List.cons.injEq] at e
    exact absurd (by rw [← e.2]; simp) hf

theorem findAt_at {sub : Text} (rest : Text) : ∀ {pre : Text}, NoStart sub pre (sub ++ rest) →
    findAt sub (pre ++ (sub ++ rest)) = some pre.length := by
  intro pre
  induction pre with
  | nil =>
    intro _
    have hp : ∀ t, sub.isPrefixOf (sub ++ t) = true := fun t => List.isPrefixOf_iff_prefix.mpr (List.prefix_append _ _)
    rw [List.nil_append]
    cases hs : sub ++ rest with
    | nil =>
      have : sub.isPrefixOf [] = true := by rw [← hs]; exact hp _
      rw [findAt, if_pos this]; rfl
    | cons c cs =>
      have : sub.isPrefixOf (c :: cs) = true := by rw [← hs]; exact hp _
      rw [findAt, if_pos this]; rfl
  | cons c pre ih =>
    intro h
    rw [List.cons_append, findAt, if_neg (by simp [h.head]), ih h.tail]
    rfl

theorem pyIndex_nat {n i : Nat} (h : i ≤ n) : pyIndex n (i : Int) = i := by
  unfold pyIndex
  rw [if_neg (by omega)]
  simp [h]

theorem pyFind_at {sub : Text} (a : Text) {pre : Text} (rest : Text) (h : NoStart sub pre (sub ++ rest)) :
    pyFind sub (a ++ (pre ++ (sub ++ rest))) (a.length : Int) = ((a.length + pre.length : Nat) : Int) := by
  unfold pyFind
  rw [pyIndex_nat (by simp), List.drop_left, findAt_at rest h]
  simp

theorem textSlice_mid (a b c : Text) : textSlice (a.length : Int) ((a.length + b.length : Nat) : Int) (a ++ (b ++ c)) = b := by
  unfold textSlice
  rw [pyIndex_nat (by simp), pyIndex_nat (by simp), ← List.append_assoc, ← List.length_append, List.take_left,
    List.drop_left]

theorem rep_self {old : Text} (ho : old ≠ []) (new : Text) {t : Text} (h : ¬old <:+: t) : rep old new t = t := by
  induction t with
  | nil => rfl
  | cons c t ih =>
    rw [rep_skip ho new (fun hp => h hp.isInfix), ih (fun hi => h (hi.trans (List.suffix_cons _ _).isInfix))]

theorem rep_at {old : Text} (ho : old ≠ []) (new : Text) {rest : Text} (hr : ¬old <:+: rest) :
    ∀ {pre : Text}, NoStart old pre (old ++ rest) → rep old new (pre ++ (old ++ rest)) = pre ++ (new ++ rest) := by
  intro pre
  induction pre with
  | nil => intro _; rw [List.nil_append, List.nil_append, rep_hit ho, rep_self ho new hr]
  | cons c pre ih =>
    intro h
    rw [List.cons_append, rep_skip ho new, ih h.tail]
    · rfl
    · intro hp
      have := h.head
      rw [List.isPrefixOf_iff_prefix.mpr hp] at this
      cases this

theorem replaceOnce_at {old : Text} (ho : old ≠ []) (new rest : Text) :
    ∀ {pre : Text}, NoStart old pre (old ++ rest) → replaceOnce old new (pre ++ (old ++ rest)) = pre ++ (new ++ rest) := by
  intro pre
  induction pre with
  | nil =>
    intro _
    obtain ⟨c, o, rfl⟩ := List.exists_cons_of_ne_nil ho
    have hp : (c :: o).isPrefixOf (c :: (o ++ rest)) = true := List.isPrefixOf_iff_prefix.mpr ⟨rest, rfl⟩
    rw [List.nil_append, List.nil_append, List.cons_append, replaceOnce, if_pos hp]
    simp
  | cons c pre ih =>
    intro h
    rw [List.cons_append, replaceOnce, if_neg (by simp [h.head]), ih h.tail]
    rfl

end Verif
