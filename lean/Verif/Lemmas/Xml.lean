import Verif.Xml
import Verif.MpdTree
import Mathlib.Data.List.Forall2
/-
Lemmas about the element tree.
-/
namespace Verif

theorem find_setAttr_same (k v : Text) (l : List (Text × Text)) :
    ((setAttr k v l).find? (fun p => p.1 = k)).map (·.2) = some v := by
  induction l with
  | nil => simp [setAttr]
  | cons a r ih =>
    obtain ⟨k', v'⟩ := a
    unfold setAttr
    split
    · rename_i h; simp [h]
    · rename_i h; simp only [List.find?_cons, h, decide_false]; exact ih

theorem find_setAttr_ne {k k' : Text} (h : k' ≠ k) (v : Text) (l : List (Text × Text)) :
    (setAttr k v l).find? (fun p => p.1 = k') = l.find? (fun p => p.1 = k') := by
  induction l with
  | nil => simp [setAttr, Ne.symm h]
  | cons a r ih =>
    obtain ⟨k'', v'⟩ := a
    unfold setAttr
    split
    · rename_i e; subst e; simp [Ne.symm h]
    · simp only [List.find?_cons, ih]

theorem find_filter_ne {k k' : Text} (h : k' ≠ k) (l : List (Text × Text)) :
    (l.filter (fun p => p.1 ≠ k)).find? (fun p => p.1 = k') = l.find? (fun p => p.1 = k') := by
  induction l with
  | nil => rfl
  | cons a r ih =>
    simp only [List.filter_cons]
    split
    · simp only [List.find?_cons, ih]
    · rename_i e
      simp only [ne_eq, decide_not, Bool.not_eq_true', decide_eq_false_iff_not, Classical.not_not] at e
      have : ¬ a.1 = k' := fun e' => h (e'.symm.trans e)
      simp only [List.find?_cons, this, decide_false]
      exact ih

namespace Xml

@[simp] theorem get_set_same (k v : Text) (x : Xml) : (x.set k v).get k = some v := by
  cases x; exact find_setAttr_same k v _

theorem get_set_ne {k k' : Text} (h : k' ≠ k) (v : Text) (x : Xml) : (x.set k v).get k' = x.get k' := by
  cases x; unfold get Xml.set attrs; rw [find_setAttr_ne h]

@[simp] theorem get_del_same (k : Text) (x : Xml) : (x.del k).get k = none := by
  cases x; unfold get Xml.del attrs
  rw [Option.map_eq_none_iff, List.find?_eq_none]
  intro p hp
  simp only [ne_eq, decide_not, List.mem_filter, Bool.not_eq_true', decide_eq_false_iff_not] at hp
  simp [hp.2]

theorem get_del_ne {k k' : Text} (h : k' ≠ k) (x : Xml) : (x.del k).get k' = x.get k' := by
  cases x; unfold get Xml.del attrs; rw [find_filter_ne h]

@[simp] theorem get_setText (t : Text) (x : Xml) (k : Text) : (x.setText t).get k = x.get k := by
  cases x; rfl
@[simp] theorem get_setKids (ks : List Xml) (x : Xml) (k : Text) : (x.setKids ks).get k = x.get k := by
  cases x; rfl
@[simp] theorem get_insert (n : Nat) (c : Xml) (x : Xml) (k : Text) : (x.insert n c).get k = x.get k := by
  cases x; rfl
@[simp] theorem tag_set (k v : Text) (x : Xml) : (x.set k v).tag = x.tag := by cases x; rfl
@[simp] theorem tag_del (k : Text) (x : Xml) : (x.del k).tag = x.tag := by cases x; rfl
@[simp] theorem tag_setText (t : Text) (x : Xml) : (x.setText t).tag = x.tag := by cases x; rfl
@[simp] theorem tag_setKids (ks : List Xml) (x : Xml) : (x.setKids ks).tag = x.tag := by cases x; rfl
@[simp] theorem tag_insert (n : Nat) (c : Xml) (x : Xml) : (x.insert n c).tag = x.tag := by cases x; rfl
@[simp] theorem kids_set (k v : Text) (x : Xml) : (x.set k v).kids = x.kids := by cases x; rfl
@[simp] theorem kids_del (k : Text) (x : Xml) : (x.del k).kids = x.kids := by cases x; rfl
@[simp] theorem kids_setText (t : Text) (x : Xml) : (x.setText t).kids = x.kids := by cases x; rfl
@[simp] theorem kids_setKids (ks : List Xml) (x : Xml) : (x.setKids ks).kids = ks := by cases x; rfl
@[simp] theorem kids_insert (n : Nat) (c : Xml) (x : Xml) :
    (x.insert n c).kids = x.kids.take n ++ c :: x.kids.drop n := by cases x; rfl
@[simp] theorem text_set (k v : Text) (x : Xml) : (x.set k v).text = x.text := by cases x; rfl
@[simp] theorem text_del (k : Text) (x : Xml) : (x.del k).text = x.text := by cases x; rfl
@[simp] theorem text_setKids (ks : List Xml) (x : Xml) : (x.setKids ks).text = x.text := by cases x; rfl
@[simp] theorem text_insert (n : Nat) (c : Xml) (x : Xml) : (x.insert n c).text = x.text := by cases x; rfl
@[simp] theorem text_setText (t : Text) (x : Xml) : (x.setText t).text = t := by cases x; rfl

end Xml

/-- What `set_values_from_dict` leaves for an attribute. -/
theorem get_setFromDict (keys : List Text) (d : List (Text × Text)) (x : Xml) (k : Text) :
    (setFromDict keys d x).get k = if k ∈ keys then (dictGet d k).or (x.get k) else x.get k := by
  unfold setFromDict
  induction keys generalizing x with
  | nil => simp
  | cons a r ih =>
    rw [List.foldl_cons, ih]
    by_cases h : k = a
    · subst h
      cases hd : dictGet d k <;> simp
    · cases ha : dictGet d a with
      | none => simp [h]
      | some v => simp only [Xml.get_set_ne h]; simp [h]

@[simp] theorem tag_setFromDict (keys : List Text) (d : List (Text × Text)) (x : Xml) :
    (setFromDict keys d x).tag = x.tag := by
  unfold setFromDict
  induction keys generalizing x with
  | nil => rfl
  | cons a r ih => rw [List.foldl_cons, ih]; cases dictGet d a <;> simp

@[simp] theorem kids_setFromDict (keys : List Text) (d : List (Text × Text)) (x : Xml) :
    (setFromDict keys d x).kids = x.kids := by
  unfold setFromDict
  induction keys generalizing x with
  | nil => rfl
  | cons a r ih => rw [List.foldl_cons, ih]; cases dictGet d a <;> simp

/-- The elements of a loop over the elements with a tag: one after the other, with the state. -/
inductive MapTag {σ : Type} (tag : Text) (f : σ → Xml → Py (Xml × σ)) : σ → List Xml → List Xml → σ → Prop
  | nil (s : σ) : MapTag tag f s [] [] s
  | hit {s s' s'' : σ} {x x' : Xml} {xs xs' : List Xml} : x.tag = tag → f s x = .ok (x', s') →
      MapTag tag f s' xs xs' s'' → MapTag tag f s (x :: xs) (x' :: xs') s''
  | skip {s s' : σ} {x : Xml} {xs xs' : List Xml} : x.tag ≠ tag →
      MapTag tag f s xs xs' s' → MapTag tag f s (x :: xs) (x :: xs') s'

theorem mapTag_rel {σ : Type} {tag : Text} {f : σ → Xml → Py (Xml × σ)} {s s' : σ} {xs ys : List Xml}
    (h : mapTag tag f s xs = .ok (ys, s')) : MapTag tag f s xs ys s' := by
  induction xs generalizing s ys with
  | nil =>
    simp only [mapTag, Except.ok.injEq, Prod.mk.injEq] at h
    rw [← h.1, ← h.2]; exact .nil s
  | cons x r ih =>
    unfold mapTag at h
    split at h
    · rename_i ht
      split at h
      · exact absurd h (by simp)
      · rename_i x' s1 hf
        split at h
        · exact absurd h (by simp)
        · rename_i xs' s2 hm
          simp only [Except.ok.injEq, Prod.mk.injEq] at h
          obtain ⟨rfl, rfl⟩ := h
          exact .hit ht hf (ih hm)
    · rename_i ht
      split at h
      · exact absurd h (by simp)
      · rename_i xs' s2 hm
        simp only [Except.ok.injEq, Prod.mk.injEq] at h
        obtain ⟨rfl, rfl⟩ := h
        exact .skip ht (ih hm)

/-- Elements without the tag are left alone. -/
theorem MapTag.skips {σ : Type} {tag : Text} {f : σ → Xml → Py (Xml × σ)} {s s' : σ} {xs ys : List Xml}
    (h : MapTag tag f s xs ys s') (hn : ∀ x ∈ xs, x.tag ≠ tag) : ys = xs ∧ s' = s := by
  induction h with
  | nil => exact ⟨rfl, rfl⟩
  | hit ht => exact absurd ht (hn _ (by simp))
  | skip _ _ ih => obtain ⟨rfl, rfl⟩ := ih (fun x hx => hn x (by simp [hx])); exact ⟨rfl, rfl⟩

/-- A loop over two lists. -/
theorem MapTag.split {σ : Type} {tag : Text} {f : σ → Xml → Py (Xml × σ)} {s s' : σ} {xs xs' ys : List Xml}
    (h : MapTag tag f s (xs ++ xs') ys s') :
    ∃ as bs s1, ys = as ++ bs ∧ MapTag tag f s xs as s1 ∧ MapTag tag f s1 xs' bs s' := by
  induction xs generalizing s ys with
  | nil => exact ⟨[], ys, s, rfl, .nil s, h⟩
  | cons x r ih =>
    cases h with
    | hit ht hf h =>
      obtain ⟨as, bs, s1, rfl, h1, h2⟩ := ih h
      exact ⟨_ :: as, bs, s1, rfl, .hit ht hf h1, h2⟩
    | skip ht h =>
      obtain ⟨as, bs, s1, rfl, h1, h2⟩ := ih h
      exact ⟨_ :: as, bs, s1, rfl, .skip ht h1, h2⟩

theorem MapTag.length {σ : Type} {tag : Text} {f : σ → Xml → Py (Xml × σ)} {s s' : σ} {xs ys : List Xml}
    (h : MapTag tag f s xs ys s') : ys.length = xs.length := by
  induction h with
  | nil => rfl
  | hit _ _ _ ih => simp [ih]
  | skip _ _ ih => simp [ih]

theorem insertAt_length {α : Type} (a : List α) (c : α) (b : List α) : insertAt a.length c (a ++ b) = a ++ c :: b := by
  unfold insertAt; simp

/-- The copies of the period follow each other. -/
theorem insertCopies_eq (c : Xml) (n : Nat) : ∀ (a b : List Xml),
    insertCopies c a.length n (a ++ b) = a ++ (List.replicate n c ++ b) := by
  induction n with
  | zero => intro a b; simp [insertCopies]
  | succ n ih =>
    intro a b
    unfold insertCopies
    rw [insertAt_length]
    have := ih (a ++ [c]) b
    rw [List.length_append, List.length_singleton, List.append_assoc, List.singleton_append] at this
    rw [this, List.replicate_succ']
    simp [← List.replicate_succ', List.replicate_succ]

/-- The UTCTiming elements follow each other in the order of the methods. -/
theorem insertUtc_eq (p : ProcCfg) (ms : List Text) : ∀ {a b out : List Xml},
    insertUtc p ms a.length (a ++ b) = .ok out →
    ∃ us, List.Forall₂ (fun m u => utcElem p m = .ok u) ms us ∧ out = a ++ (us ++ b) := by
  induction ms with
  | nil =>
    intro a b out h
    simp only [insertUtc, Except.ok.injEq] at h
    exact ⟨[], .nil, by simp [h]⟩
  | cons m ms ih =>
    intro a b out h
    unfold insertUtc at h
    split at h
    · exact absurd h (by simp)
    · rename_i x hx
      rw [insertAt_length] at h
      have e : a ++ x :: b = (a ++ [x]) ++ b := by simp
      have el : a.length + 1 = (a ++ [x]).length := by simp
      rw [e, el] at h
      obtain ⟨us, h1, h2⟩ := ih h
      exact ⟨x :: us, .cons hx h1, by simp [h2]⟩

theorem infoCount_eq (infos : List Xml) (h : ∀ x ∈ infos, x.tag = "ProgramInformation".toList) (y : Xml)
    (hy : y.tag ≠ "ProgramInformation".toList) (r : List Xml) : infoCount (infos ++ y :: r) = infos.length := by
  induction infos with
  | nil => rw [List.nil_append, infoCount, if_neg hy]; rfl
  | cons x xs ih =>
    rw [List.cons_append, infoCount, if_pos (h x (List.mem_cons_self ..)),
      ih (fun z hz => h z (List.mem_cons_of_mem _ hz)), List.length_cons]

end Verif
