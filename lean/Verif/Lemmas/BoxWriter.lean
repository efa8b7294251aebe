import Verif.BoxWriter
import Verif.Spec.BoxTree
import Verif.Lemmas.BoxTree
import Verif.Props.ChunkFormat
/-
Lengths of what the box classes write.
-/
namespace Verif

/-- What is written, if anything, is `n` bytes long. -/
def Len (x : Py Bytes) (n : Nat) : Prop := ∀ b, x = .ok b → b.length = n

theorem len_ok (b : Bytes) : Len (.ok b) b.length := by intro c h; cases h; rfl

theorem len_error (e : PyErr) (n : Nat) : Len (.error e) n := by intro c h; cases h

theorem len32 (x : Int) : Len (y32 x) 4 := by
  intro b h; cases h; simp [serializeU32]

theorem len16 (x : Int) : Len (y16 x) 2 := by
  intro b h
  unfold y16 serializeU16 at h
  simp only at h
  split at h
  · cases h; simp
  · cases h

theorem len8 (x : Int) : Len (y8 x) 1 := by
  intro b h; cases h; simp [serializeU8]

theorem len64 (x : Int) : Len (serializeU64 x) 8 := by
  intro b h
  unfold serializeU64 uint64ToStr at h
  split at h
  · cases h; simp
  · cases h

theorem serializeName_length (x : Bytes) : (serializeName x).length = 4 := by
  unfold serializeName
  simp only [List.length_append, List.length_take, List.length_replicate]
  omega

theorem serializeName_four {x : Bytes} (h : x.length = 4) : serializeName x = x := by
  unfold serializeName
  rw [h, ← h, List.take_length]
  simp

theorem len_name (x : Bytes) : Len (.ok (serializeName x)) 4 := by
  intro b h; cases h; exact serializeName_length x

theorem len_bytes (x : Int) (n : Nat) : Len (.ok (serializeBytes x n)) n := by
  intro b h
  cases h
  unfold serializeBytes
  induction n with
  | zero => rfl
  | succ n ih => rw [List.replicate_succ, List.flatten_cons, List.length_append, ih]; simp [serializeU8]; omega

theorem lens_nil : Len (joinPy []) 0 := by intro b h; cases h; rfl

theorem joinPy_cons {x : Py Bytes} {l : List (Py Bytes)} {b : Bytes} (h : joinPy (x :: l) = .ok b) :
    ∃ p q, x = .ok p ∧ joinPy l = .ok q ∧ b = p ++ q := by
  cases x with
  | error e => cases h
  | ok p =>
    unfold joinPy at h
    cases hl : joinPy l with
    | error e => rw [hl] at h; cases h
    | ok q => rw [hl] at h; cases h; exact ⟨p, q, rfl, rfl, rfl⟩

theorem joinPy_cons_ok {x : Py Bytes} {l : List (Py Bytes)} {p q : Bytes} (hx : x = .ok p)
    (hl : joinPy l = .ok q) : joinPy (x :: l) = .ok (p ++ q) := by
  subst hx
  rw [joinPy, hl]

theorem lens_cons {x : Py Bytes} {l : List (Py Bytes)} {n m : Nat} (hx : Len x n)
    (hl : Len (joinPy l) m) : Len (joinPy (x :: l)) (n + m) := by
  intro b h
  obtain ⟨p, q, h1, h2, rfl⟩ := joinPy_cons h
  rw [List.length_append, hx p h1, hl q h2]

theorem joinPy_append {l1 l2 : List (Py Bytes)} {b : Bytes} (h : joinPy (l1 ++ l2) = .ok b) :
    ∃ p q, joinPy l1 = .ok p ∧ joinPy l2 = .ok q ∧ b = p ++ q := by
  induction l1 generalizing b with
  | nil => exact ⟨[], b, rfl, h, rfl⟩
  | cons x l ih =>
    obtain ⟨p, q, h1, h2, rfl⟩ := joinPy_cons h
    obtain ⟨p', q', h3, h4, rfl⟩ := ih h2
    exact ⟨p ++ p', q', joinPy_cons_ok h1 h3, h4, by simp⟩

theorem lens_append {l1 l2 : List (Py Bytes)} {n m : Nat} (h1 : Len (joinPy l1) n)
    (h2 : Len (joinPy l2) m) : Len (joinPy (l1 ++ l2)) (n + m) := by
  intro b h
  obtain ⟨p, q, h3, h4, rfl⟩ := joinPy_append h
  rw [List.length_append, h1 p h3, h2 q h4]

theorem lens_map {α : Type} (f : α → Py Bytes) (k : Nat) (l : List α) (h : ∀ x ∈ l, Len (f x) k) :
    Len (joinPy (l.map f)) (k * l.length) := by
  induction l with
  | nil => exact lens_nil
  | cons x l ih =>
    rw [List.map_cons, List.length_cons, Nat.mul_succ, Nat.add_comm]
    exact lens_cons (h x (by simp)) (ih (fun z hz => h z (by simp [hz])))

theorem lens_flatMap {α : Type} (f : α → List (Py Bytes)) (k : α → Nat) (l : List α)
    (h : ∀ x ∈ l, Len (joinPy (f x)) (k x)) :
    Len (joinPy (l.flatMap f)) (l.map k).sum := by
  induction l with
  | nil => exact lens_nil
  | cons x l ih =>
    rw [List.flatMap_cons, List.map_cons, List.sum_cons]
    exact lens_append (h x (by simp)) (ih (fun z hz => h z (by simp [hz])))

theorem boxObj_iter {size : Nat} {name : Bytes} {rest : List (Py Bytes)} {bs : Bytes}
    (h : (boxObj size name rest).iter = .ok bs) :
    ∃ r, joinPy rest = .ok r ∧ bs = serializeU32 size ++ serializeName name ++ r := by
  obtain ⟨p, q, h1, h2, rfl⟩ := joinPy_cons h
  obtain ⟨p', q', h3, h4, rfl⟩ := joinPy_cons h2
  cases h1
  cases h3
  exact ⟨q', h4, by simp⟩

/-! ### Sequences of boxes -/

/-- The box types written by `BoxContainer` (boxes.py 173-179, 228-273, 599-603, 888-901). -/
def writerContainers : List Bytes :=
  [[109, 111, 111, 118], [109, 118, 101, 120], [116, 114, 97, 107], [109, 100, 105, 97],
   [109, 105, 110, 102], [100, 105, 110, 102], [115, 116, 98, 108], [118, 116, 116, 99],
   [109, 111, 111, 102], [116, 114, 97, 102]]

/-- What a box object should do: write as many bytes as it says, and these are one box whose
containers hold sequences of boxes. -/
structure Good (b : BoxObj) : Prop where
  exact : Len b.iter b.size
  box : ∀ bs, b.iter = .ok bs → b.size < 2 ^ 32 → ∃ ty p, ty.length = 4 ∧ bs = boxBytes ty p
  seq : ∀ bs, b.iter = .ok bs → b.size < 2 ^ 32 → BoxSeq writerContainers bs

theorem good_leaf {size m : Nat} {name : Bytes} {rest : List (Py Bytes)}
    (hl : Len (joinPy rest) m) (hs : size = 8 + m) (hn : serializeName name ∉ writerContainers) :
    Good (boxObj size name rest) := by
  have hex : Len (boxObj size name rest).iter size := by
    intro bs h
    obtain ⟨r, hr, rfl⟩ := boxObj_iter h
    have := hl r hr
    simp only [List.length_append, serializeName_length, serializeU32, beBytes_length]
    omega
  refine ⟨hex, ?_, ?_⟩
  · intro bs h hlt
    obtain ⟨r, hr, rfl⟩ := boxObj_iter h
    have hm := hl r hr
    have hsz : size < 2 ^ 32 := hlt
    exact ⟨serializeName name, r, serializeName_length name, by
      rw [boxBytes, serializeU32_nat hsz, hs, hm]⟩
  · intro bs h hlt
    obtain ⟨r, hr, rfl⟩ := boxObj_iter h
    have hm := hl r hr
    have hsz : size < 2 ^ 32 := hlt
    have h4 : serializeU32 (size : Int) = beBytes 4 size := serializeU32_nat hsz
    have := BoxSeq.plain (comp := writerContainers) (serializeU32 size) (serializeName name) r []
      (by rw [h4]; simp) (serializeName_length name)
      (by rw [h4, beVal_beBytes]; rw [Nat.mod_eq_of_lt (by simpa using hsz), hs, hm]) hn .nil
    rwa [List.append_nil] at this

theorem good_kids (boxes : List BoxObj) (h : ∀ b ∈ boxes, Good b) :
    Len (joinPy (boxes.map BoxObj.iter)) (boxes.map BoxObj.size).sum ∧
    ∀ r, joinPy (boxes.map BoxObj.iter) = .ok r → (boxes.map BoxObj.size).sum < 2 ^ 32 →
      BoxSeq writerContainers r := by
  induction boxes with
  | nil => exact ⟨lens_nil, fun r hr _ => by cases hr; exact .nil⟩
  | cons b l ih =>
    obtain ⟨h1, h2⟩ := ih (fun z hz => h z (by simp [hz]))
    have hb := h b (by simp)
    refine ⟨lens_cons hb.exact h1, ?_⟩
    intro r hr hlt
    simp only [List.map_cons, List.sum_cons] at hr hlt
    obtain ⟨p, q, h3, h4, rfl⟩ := joinPy_cons hr
    exact boxSeq_append (hb.seq p h3 (by omega)) (h2 q h4 (by omega))

theorem good_container {name : Bytes} (boxes : List BoxObj) (hn : name ∈ writerContainers)
    (h : ∀ b ∈ boxes, Good b) : Good (boxContainer name boxes) := by
  obtain ⟨h1, h2⟩ := good_kids boxes h
  have h4 : name.length = 4 := by
    unfold writerContainers at hn
    simp only [List.mem_cons, List.not_mem_nil, or_false] at hn
    rcases hn with h | h | h | h | h | h | h | h | h | h <;> rw [h] <;> rfl
  have hname : serializeName name = name := serializeName_four h4
  have hex : Len (boxContainer name boxes).iter (boxContainer name boxes).size := by
    intro bs h
    obtain ⟨r, hr, rfl⟩ := boxObj_iter h
    have := h1 r hr
    simp only [List.length_append, serializeName_length, serializeU32, beBytes_length,
      boxContainer, boxObj]
    omega
  refine ⟨hex, ?_, ?_⟩
  · intro bs h hlt
    obtain ⟨r, hr, rfl⟩ := boxObj_iter h
    have hm := h1 r hr
    have hsz : 8 + (boxes.map BoxObj.size).sum < 2 ^ 32 := hlt
    exact ⟨name, r, h4, by rw [boxBytes, serializeU32_nat hsz, hname, hm]⟩
  · intro bs h hlt
    obtain ⟨r, hr, rfl⟩ := boxObj_iter h
    have hm := h1 r hr
    have hsz : 8 + (boxes.map BoxObj.size).sum < 2 ^ 32 := hlt
    have e4 : serializeU32 ((8 + (boxes.map BoxObj.size).sum : Nat) : Int)
      = beBytes 4 (8 + (boxes.map BoxObj.size).sum) := serializeU32_nat hsz
    have := BoxSeq.container (comp := writerContainers)
      (serializeU32 (8 + (boxes.map BoxObj.size).sum : Nat)) name r []
      (by rw [e4]; simp) h4
      (by rw [e4, beVal_beBytes]; rw [Nat.mod_eq_of_lt (by simpa using hsz), hm]) hn
      (h2 r hr (by omega)) .nil
    rw [List.append_nil] at this
    rwa [hname]

end Verif
