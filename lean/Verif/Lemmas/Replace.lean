import Verif.Xml
import Mathlib.Data.List.Infix
/-
Lemmas about `text.replace`.
-/
namespace Verif

/-- `text.replace(old, new)`. -/
def rep (old new t : Text) : Text := replaceText old new t.length t

theorem replaceText_fuel {old : Text} (ho : old ≠ []) (new : Text) : ∀ (n : Nat) (t : Text), t.length ≤ n →
    replaceText old new n t = rep old new t := by
  unfold rep
  intro n
  induction n using Nat.strong_induction_on with
  | _ n ih =>
    intro t ht
    cases t with
    | nil => cases n <;> simp [replaceText]
    | cons c cs =>
      cases n with
      | zero => simp at ht
      | succ n =>
        simp only [List.length_cons] at ht ⊢
        unfold replaceText
        have hl : 0 < old.length := List.length_pos_of_ne_nil ho
        split
        · have hd : ((c :: cs).drop old.length).length ≤ cs.length := by
            simp only [List.length_drop, List.length_cons]; omega
          rw [ih n (by omega) _ (by omega), ← ih cs.length (by omega) _ hd]
        · rw [ih n (by omega) cs (by omega)]

theorem rep_nil (old new : Text) : rep old new [] = [] := rfl

theorem rep_skip {old : Text} (ho : old ≠ []) (new : Text) {c : Char} {cs : Text} (h : ¬old <+: c :: cs) :
    rep old new (c :: cs) = c :: rep old new cs := by
  unfold rep
  simp only [List.length_cons]
  rw [replaceText, if_neg (by rwa [List.isPrefixOf_iff_prefix])]

theorem rep_hit {old : Text} (ho : old ≠ []) (new r : Text) :
    rep old new (old ++ r) = new ++ rep old new r := by
  obtain ⟨c, cs, rfl⟩ := List.exists_cons_of_ne_nil ho
  conv_lhs => unfold rep
  rw [List.cons_append, List.length_cons, replaceText,
    if_pos (by rw [List.isPrefixOf_iff_prefix, ← List.cons_append]; exact List.prefix_append _ _),
    ← List.cons_append, List.drop_left]
  rw [replaceText_fuel ho new _ r (by simp)]

/-- The text begins with a character that does not occur in `old`, or is empty. -/
def HeadOut (old r : Text) : Prop := ∀ c ∈ r.head?, c ∉ old

theorem rep_free {f : Char} {o : Text} (new : Text) {a : Text} (h : f ∉ a) (r : Text) :
    rep (f :: o) new (a ++ r) = a ++ rep (f :: o) new r := by
  induction a with
  | nil => rfl
  | cons c cs ih =>
    rw [List.cons_append, rep_skip (by simp) new (by
      rw [List.cons_prefix_cons]; rintro ⟨rfl, _⟩; exact h (by simp)), ih (fun hm => h (by simp [hm]))]
    rfl

/-- A way to write characters in which special characters begin with an ampersand and do not contain
the character `f`. -/
def EscapeOk (f : Char) (esc : Char → Text) : Prop :=
  ∀ c, esc c = [c] ∨ ∃ w, esc c = '&' :: w ∧ f ∉ '&' :: w

theorem prefix_escape {f : Char} {esc : Char → Text} (he : EscapeOk f esc) {r : Text} :
    ∀ (o t : Text), '&' ∉ o → HeadOut o r → o <+: t.flatMap esc ++ r → o <+: t := by
  intro o
  induction o with
  | nil => intro t _ _ _; exact List.nil_prefix
  | cons c o ih =>
    intro t ha hr h
    cases t with
    | nil =>
      exfalso
      cases r with
      | nil => simp at h
      | cons d r =>
        rw [List.flatMap_nil, List.nil_append, List.cons_prefix_cons] at h
        exact hr d (by simp) (by simp [h.1])
    | cons d t =>
      rw [List.flatMap_cons] at h
      rcases he d with e | ⟨w, e, _⟩
      · rw [e, List.singleton_append, List.cons_append, List.cons_prefix_cons] at h
        rw [List.cons_prefix_cons]
        refine ⟨h.1, ih t (fun hm => ha (by simp [hm])) (fun x hx hm => hr x hx (by simp [hm])) h.2⟩
      · rw [e, List.cons_append, List.cons_append, List.cons_prefix_cons] at h
        exact absurd (by simp [h.1]) ha

/-- Text without `old` passes unchanged. -/
theorem rep_escaped {f : Char} {o : Text} (new : Text) {esc : Char → Text} (he : EscapeOk f esc)
    (ha : '&' ∉ f :: o) {t : Text} (ht : ¬(f :: o) <:+: t) {r : Text} (hr : HeadOut (f :: o) r) :
    rep (f :: o) new (t.flatMap esc ++ r) = t.flatMap esc ++ rep (f :: o) new r := by
  induction t with
  | nil => rfl
  | cons c t ih =>
    have ht' : ¬(f :: o) <:+: t := fun h => ht (h.trans (List.suffix_cons c t).isInfix)
    rw [List.flatMap_cons]
    rcases he c with e | ⟨w, e, hw⟩
    · rw [e, List.singleton_append, List.cons_append, rep_skip (by simp) new, ih ht']
      · rfl
      · rw [List.cons_prefix_cons]
        rintro ⟨rfl, hp⟩
        have := prefix_escape he o t (fun hm => ha (by simp [hm])) (fun x hx hm => hr x hx (by simp [hm])) hp
        exact ht ((List.cons_prefix_cons.mpr ⟨rfl, this⟩).isInfix)
    · rw [e, List.append_assoc, rep_free new hw, ih ht', List.append_assoc]

theorem escapeOk_pure (f : Char) : EscapeOk f (fun c => [c]) := fun _ => .inl rfl

theorem rep_clean {f : Char} {o : Text} (new : Text) (ha : '&' ∉ f :: o) {t : Text} (ht : ¬(f :: o) <:+: t)
    {r : Text} (hr : HeadOut (f :: o) r) : rep (f :: o) new (t ++ r) = t ++ rep (f :: o) new r := by
  have := rep_escaped new (escapeOk_pure f) ha ht hr
  simpa using this

end Verif
