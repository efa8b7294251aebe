import Verif.Lemmas.Find
import Verif.Lemmas.XmlRead
/-
The places of tags in the text of a tree.
-/
namespace Verif
open Spec

theorem not_mem_attrText {c : Char} (hc : c = '<' ∨ c = '>') {n : Text} (hn : isName n = true) (v : Text) :
    c ∉ attrText n v := by
  have hn' : c ∉ n := isName_not_mem hn (by rcases hc with rfl | rfl <;> decide)
  have hv : c ∉ v.flatMap escAttr := by
    rw [List.mem_flatMap]
    rintro ⟨d, _, hd⟩
    unfold escAttr at hd
    have key : ∀ s ∈ ["&amp;", "&lt;", "&gt;", "&quot;", "&#13;", "&#10;", "&#09;"], c ∉ s.toList := by
      rcases hc with rfl | rfl <;> decide +kernel
    split at hd
    · exact key "&amp;" (by simp) hd
    split at hd
    · exact key "&lt;" (by simp) hd
    split at hd
    · exact key "&gt;" (by simp) hd
    split at hd
    · exact key "&quot;" (by simp) hd
    split at hd
    · exact key "&#13;" (by simp) hd
    split at hd
    · exact key "&#10;" (by simp) hd
    split at hd
    · exact key "&#09;" (by simp) hd
    · simp only [List.mem_singleton] at hd
      rcases hc with rfl | rfl <;> exact absurd hd.symm (by assumption)
  unfold attrText
  have h1 : c ≠ ' ' := by rcases hc with rfl | rfl <;> decide
  have h2 : c ≠ '=' := by rcases hc with rfl | rfl <;> decide
  have h3 : c ≠ '"' := by rcases hc with rfl | rfl <;> decide
  simp only [List.cons_append, List.mem_cons, List.mem_append, List.not_mem_nil, or_false, not_or]
  exact ⟨h1, ⟨hn', h2, h3, hv⟩, h3⟩

theorem not_mem_attrsText {c : Char} (hc : c = '<' ∨ c = '>') {qk : Text → Text} {a : List (Text × Text)}
    (h : ∀ p ∈ a, isName (qk p.1) = true) : c ∉ attrsText qk a := by
  unfold attrsText
  rw [List.mem_flatMap]
  rintro ⟨p, hp, hm⟩
  exact not_mem_attrText hc (h p hp) p.2 hm

theorem head_attrsText {qk : Text → Text} (a : List (Text × Text)) {c : Char} (r : Text)
    (hc : isNameChar c = false) : ∃ d s, attrsText qk a ++ c :: r = d :: s ∧ isNameChar d = false := by
  rw [← attrsText_map]; exact headOut_name r hc

/-- No tag of an element with this name looks like `<q`. -/
def Avoids (qt : Text → Text) (q : Text) (t : Text) : Prop :=
  (∀ d s, isNameChar d = false → ¬q <+: qt t ++ d :: s) ∧ ∀ s, ¬q <+: '/' :: (qt t ++ '>' :: s)

/-- A tag does not occur in a tree whose names avoid it. -/
theorem elem_avoids {qt qk : Text → Text} {q : Text} (hq : '<' ∉ q) (x : Xml) :
    Everywhere (fun t a x => LexAt qt qk t a x ∧ Avoids qt q t) x → ¬('<' :: q) <:+: elemText qt qk [] x := by
  refine Xml.rec
    (motive_1 := fun x => Everywhere (fun t a x => LexAt qt qk t a x ∧ Avoids qt q t) x →
      ¬('<' :: q) <:+: elemText qt qk [] x)
    (motive_2 := fun xs => EverywhereAll (fun t a x => LexAt qt qk t a x ∧ Avoids qt q t) xs →
      ¬('<' :: q) <:+: elemsText qt qk xs) ?_ ?_ ?_ x
  · intro t a x ks ih hE
    rw [Everywhere] at hE
    obtain ⟨⟨⟨ht, ha, hx⟩, hav⟩, hks⟩ := hE
    have hlt : '<' ∉ qt t := isName_not_mem ht (by decide)
    have hla : '<' ∉ attrsText qk a := not_mem_attrsText (.inl rfl) (fun p hp => (ha p hp).1)
    have hlx : '<' ∉ x.flatMap escText := not_mem_escText x
    rw [elemText, List.append_nil]
    by_cases hc : x = [] ∧ ks = []
    · rw [if_pos hc]
      have e : " />".toList = [' ', '/', '>'] := by decide +kernel
      rw [e, List.cons_append, List.cons_append, List.append_assoc]
      obtain ⟨d, s, hd, hn⟩ := head_attrsText (qk := qk) a (c := ' ') ['/', '>'] (by decide)
      intro hi
      have := infix_piece (by simp [hlt, hla]) hi
      rw [hd] at this
      exact hav.1 d s hn this
    · rw [if_neg hc]
      have h1 : ¬('<' :: q) <:+: '<' :: (qt t ++ (attrsText qk a ++ '>' :: x.flatMap escText)) := by
        obtain ⟨d, s, hd, hn⟩ := head_attrsText (qk := qk) a (c := '>') (x.flatMap escText) (by decide)
        intro hi
        have := infix_piece (by simp [hlt, hla, hlx]) hi
        rw [hd] at this
        exact hav.1 d s hn this
      have h2 : ¬('<' :: q) <:+: '<' :: '/' :: (qt t ++ ['>']) := by
        intro hi
        exact hav.2 [] (infix_piece (by simp [hlt]) hi)
      have h3 := ih hks
      have h4 : ¬('<' :: q) <:+: elemsText qt qk ks ++ '<' :: '/' :: (qt t ++ ['>']) := infix_next hq h3 h2
      obtain ⟨s, hs⟩ := elemsText_head qt qk ks ('/' :: (qt t ++ ['>']))
      rw [hs] at h4
      have h5 := infix_next hq h1 h4
      rw [← hs] at h5
      simpa using h5
  · intro _
    rw [elemsText]
    rintro ⟨u, v, e⟩
    simp at e
  · intro k ks ih1 ih2 hE
    rw [EverywhereAll] at hE
    rw [elemsText]
    have h2 := ih2 hE.2
    cases ks with
    | nil => rw [elemsText, List.append_nil]; exact ih1 hE.1
    | cons k' ks =>
      obtain ⟨t', a', x', l'⟩ := k'
      obtain ⟨s, hs⟩ : ∃ s, elemsText qt qk (Xml.elem t' a' x' l' :: ks) = '<' :: s := by
        rw [elemsText, elemText]; exact ⟨_, rfl⟩
      rw [hs] at h2 ⊢
      exact infix_next hq (ih1 hE.1) h2

theorem elems_avoid {qt qk : Text → Text} {q : Text} (hq : '<' ∉ q) {ks : List Xml}
    (h : EverywhereAll (fun t a x => LexAt qt qk t a x ∧ Avoids qt q t) ks) : ¬('<' :: q) <:+: elemsText qt qk ks := by
  induction ks with
  | nil =>
    rw [elemsText]
    rintro ⟨u, v, e⟩
    simp at e
  | cons k ks ih =>
    rw [EverywhereAll] at h
    have h2 := ih h.2
    rw [elemsText]
    cases ks with
    | nil => rw [elemsText, List.append_nil]; exact elem_avoids hq k h.1
    | cons k' ks =>
      obtain ⟨t', a', x', l'⟩ := k'
      obtain ⟨s, hs⟩ : ∃ s, elemsText qt qk (Xml.elem t' a' x' l' :: ks) = '<' :: s := by
        rw [elemsText, elemText]; exact ⟨_, rfl⟩
      rw [hs] at h2 ⊢
      exact infix_next hq (elem_avoids hq k h.1) h2

theorem prefix_name {n m : Text} (hn : isName n = true) (hm : isName m = true) {d : Char} {s : Text}
    (hd : isNameChar d = false) (h : n ++ ['>'] <+: m ++ d :: s) : n = m := by
  obtain ⟨r, e⟩ := h
  have h1 := takeWhile_name hn (c := '>') (by decide) r
  have h2 := takeWhile_name hm hd s
  rw [List.append_assoc, List.singleton_append] at e
  rw [e, h2] at h1
  exact h1.symm

theorem avoids_start {qt : Text → Text} {n t : Text} (hn : isName n = true) (ht : isName (qt t) = true)
    (hne : qt t ≠ n) : Avoids qt (n ++ ['>']) t := by
  refine ⟨fun d s hd h => hne (prefix_name hn ht hd h).symm, fun s h => ?_⟩
  obtain ⟨c, cs, rfl, hc⟩ := isName_cons hn
  rw [List.cons_append, List.cons_prefix_cons] at h
  exact nameStart_ne hc (by decide) h.1

theorem avoids_stop {qt : Text → Text} {n t : Text} (hn : isName n = true) (ht : isName (qt t) = true)
    (hne : qt t ≠ n) : Avoids qt ('/' :: (n ++ ['>'])) t := by
  refine ⟨fun d s _ h => ?_, fun s h => ?_⟩
  · obtain ⟨c, cs, e, hc⟩ := isName_cons ht
    rw [e, List.cons_append, List.cons_prefix_cons] at h
    exact nameStart_ne hc (by decide) h.1.symm
  · rw [List.cons_prefix_cons] at h
    exact hne (prefix_name hn ht (by decide) h.2).symm

end Verif
