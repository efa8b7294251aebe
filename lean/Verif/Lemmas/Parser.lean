import Verif.Spec.Fragment
import Verif.Chunker
import Verif.Lemmas.Bytes
/-
Lemmas on the box parser: the fuel suffices, well-formed files are parsed as their forest,
lookups.
-/
namespace Verif

/-! ### fuel -/

theorem boxHead_ok {fmap : Bytes} {pos : Nat} {x : Nat × BoxType}
    (h : boxHead fmap pos = .ok x) : pos + 8 ≤ fmap.length := by
  unfold boxHead at h
  cases h1 : strToUint32 (slice fmap pos (pos + 4)) with
  | error e => rw [h1] at h; cases h
  | ok size =>
    rw [h1] at h
    simp only at h
    split at h
    · cases h
    · rename_i hl
      simp only [ne_eq, Decidable.not_not, slice_length] at hl
      omega

theorem boxHead_not_hang (fmap : Bytes) (pos : Nat) : boxHead fmap pos ≠ .error .hang := by
  unfold boxHead strToUint32 strToUint64
  split
  · rename_i e he
    split at he
    · cases he
    · cases he; simp
  · split
    · simp
    · split
      · split
        · rename_i e he
          split at he
          · cases he
          · cases he; simp
        · simp
      · simp

/-- The parser always terminates: the fuel of `parseFile` is never used up. -/
theorem parseKids_fuel (fmap : Bytes) : ∀ (n psize next stop : Nat), fmap.length < next + 8 * n →
    0 < n → parseKids fmap n psize next stop ≠ .error .hang := by
  intro n
  induction n with
  | zero => intro _ _ _ _ h; exact absurd h (by omega)
  | succ n ih =>
    intro psize next stop hf _
    unfold parseKids
    cases hh : boxHead fmap next with
    | error e =>
      simp only
      intro hc
      cases hc
      exact boxHead_not_hang fmap next hh
    | ok x =>
      obtain ⟨size, ty⟩ := x
      have hpos := boxHead_ok hh
      have hn : 0 < n := by omega
      simp only
      split
      · simp
      · rename_i hsize
        split
        · simp
        · have k1 := ih size (next + 8) (next + size) (by omega) hn
          have k2 := ih psize (next + size) stop (by omega) hn
          split
          · rename_i e he
            split at he
            · intro hc; cases hc; exact k1 he
            · cases he
          · split
            · simp
            · cases h2 : parseKids fmap n psize (next + size) stop with
              | error e => simp only; intro hc; cases hc; exact k2 h2
              | ok rest => simp

/-! ### well-formed files -/

/-- A type that the parser takes as a plain box under its own name. -/
def PlainType (ty : Bytes) : Prop :=
  ty.length = 4 ∧ utf8Valid ty = true ∧ ty ∉ containerBoxes ∧ normType ty = ty

/-- A forest that the parser reads as it is: containers are known containers and not empty. -/
def Forest.Parsed : Forest → Prop
  | .nil => True
  | .leaf ty p rest => PlainType ty ∧ 8 + p.length < 2 ^ 32 ∧ rest.Parsed
  | .node ty kids rest =>
    ty.length = 4 ∧ utf8Valid ty = true ∧ ty ∈ containerBoxes ∧ normType ty = ty ∧
    kids ≠ .nil ∧ 8 + kids.bytes.length < 2 ^ 32 ∧ kids.Parsed ∧ rest.Parsed

/-- The box objects of a forest that starts at position `off`. -/
def Forest.tree : Forest → Nat → BoxTree
  | .nil, _ => .nil
  | .leaf ty p rest, off => .cons ty (8 + p.length) off .nil (rest.tree (off + (8 + p.length)))
  | .node ty kids rest, off =>
    .cons ty (8 + kids.bytes.length) off (kids.tree (off + 8))
      (rest.tree (off + (8 + kids.bytes.length)))

theorem boxBytes_len {ty : Bytes} (ht : ty.length = 4) (p : Bytes) :
    (boxBytes ty p).length = 8 + p.length := by
  simp [boxBytes, ht]; omega

theorem boxHead_box {ty : Bytes} (ht : ty.length = 4) (hn : normType ty = ty) (p pre post : Bytes)
    (hs : 8 + p.length < 2 ^ 32) :
    boxHead (pre ++ (boxBytes ty p ++ post)) pre.length = .ok (8 + p.length, ty) := by
  have s1 : slice (pre ++ (boxBytes ty p ++ post)) pre.length (pre.length + 4)
      = beBytes 4 (8 + p.length) := by
    have := slice_eq_of_append pre (beBytes 4 (8 + p.length)) (ty ++ p ++ post)
      (a := pre.length) (b := pre.length + 4) rfl (by simp)
    simpa [boxBytes] using this
  have s2 : slice (pre ++ (boxBytes ty p ++ post)) (pre.length + 4) (pre.length + 8) = ty := by
    have := slice_eq_of_append (pre ++ beBytes 4 (8 + p.length)) ty (p ++ post)
      (a := pre.length + 4) (b := pre.length + 8) (by simp) (by simp [ht])
    simpa [boxBytes] using this
  unfold boxHead
  rw [s1, s2, strToUint32, if_pos (by simp), beVal_beBytes_of_lt (by omega)]
  simp only
  rw [if_neg (by simp [ht]), if_neg (by omega), hn]

theorem forest_bytes_ge (f : Forest) (h : f ≠ .nil) (hp : f.Parsed) : 8 ≤ f.bytes.length := by
  cases f with
  | nil => exact absurd rfl h
  | leaf ty p rest =>
    rw [Forest.bytes, List.length_append, boxBytes_len hp.1.1]; omega
  | node ty kids rest =>
    rw [Forest.bytes, List.length_append, boxBytes_len hp.1]; omega

theorem parseKids_forest (f : Forest) : ∀ (pre post : Bytes) (n psize : Nat), f ≠ .nil → f.Parsed →
    f.bytes.length ≤ psize → f.bytes.length < n →
    parseKids (pre ++ (f.bytes ++ post)) n psize pre.length (pre.length + f.bytes.length)
      = .ok (f.tree pre.length) := by
  induction f with
  | nil => intro _ _ _ _ h; exact absurd rfl h
  | leaf ty p rest ih =>
    intro pre post n psize _ hp hps hn
    obtain ⟨⟨ht, hu, hc, hnt⟩, hs, hr⟩ := hp
    cases n with
    | zero => omega
    | succ n =>
    have hbl : (boxBytes ty p).length = 8 + p.length := boxBytes_len ht p
    have hlen : (Forest.leaf ty p rest).bytes.length = 8 + p.length + rest.bytes.length := by
      rw [Forest.bytes, List.length_append, hbl]
    unfold parseKids
    rw [Forest.bytes, List.append_assoc, boxHead_box ht hnt p pre (rest.bytes ++ post) hs]
    simp only
    rw [if_neg (by omega), if_neg (by rw [hu]; simp), if_neg hc]
    simp only
    cases hrest : rest with
    | nil =>
      rw [if_pos (by simp [Forest.bytes, hbl])]
      rfl
    | leaf _ _ _ =>
      have hne : rest ≠ .nil := by rw [hrest]; simp
      have := forest_bytes_ge rest hne hr
      rw [← hrest, if_neg (by rw [List.length_append, hbl]; omega)]
      have ih' := ih (pre ++ boxBytes ty p) post n psize hne hr (by omega) (by omega)
      rw [List.length_append, hbl, List.append_assoc, Nat.add_assoc] at ih'
      rw [List.length_append, hbl, ih']
      rfl
    | node _ _ _ =>
      have hne : rest ≠ .nil := by rw [hrest]; simp
      have := forest_bytes_ge rest hne hr
      rw [← hrest, if_neg (by rw [List.length_append, hbl]; omega)]
      have ih' := ih (pre ++ boxBytes ty p) post n psize hne hr (by omega) (by omega)
      rw [List.length_append, hbl, List.append_assoc, Nat.add_assoc] at ih'
      rw [List.length_append, hbl, ih']
      rfl
  | node ty kids rest ihk ih =>
    intro pre post n psize _ hp hps hn
    obtain ⟨ht, hu, hc, hnt, hkn, hs, hk, hr⟩ := hp
    cases n with
    | zero => omega
    | succ n =>
    have hbl : (boxBytes ty kids.bytes).length = 8 + kids.bytes.length := boxBytes_len ht _
    have hlen : (Forest.node ty kids rest).bytes.length
        = 8 + kids.bytes.length + rest.bytes.length := by
      rw [Forest.bytes, List.length_append, hbl]
    unfold parseKids
    rw [Forest.bytes, List.append_assoc, boxHead_box ht hnt kids.bytes pre (rest.bytes ++ post) hs]
    simp only
    rw [if_neg (by omega), if_neg (by rw [hu]; simp), if_pos hc]
    have hk' := ihk (pre ++ beBytes 4 (8 + kids.bytes.length) ++ ty) (rest.bytes ++ post) n
      (8 + kids.bytes.length) hkn hk (by omega) (by omega)
    have hpl : (pre ++ beBytes 4 (8 + kids.bytes.length) ++ ty).length = pre.length + 8 := by
      simp [ht]
    have hcat : pre ++ beBytes 4 (8 + kids.bytes.length) ++ ty ++ (kids.bytes ++ (rest.bytes ++ post))
        = pre ++ (boxBytes ty kids.bytes ++ (rest.bytes ++ post)) := by
      simp [boxBytes]
    rw [hpl, hcat, Nat.add_assoc] at hk'
    rw [hk']
    simp only
    cases hrest : rest with
    | nil =>
      rw [if_pos (by simp [Forest.bytes, hbl])]
      rfl
    | leaf _ _ _ =>
      have hne : rest ≠ .nil := by rw [hrest]; simp
      have := forest_bytes_ge rest hne hr
      rw [← hrest, if_neg (by rw [List.length_append, hbl]; omega)]
      have ih' := ih (pre ++ boxBytes ty kids.bytes) post n psize hne hr (by omega) (by omega)
      rw [List.length_append, hbl, List.append_assoc, Nat.add_assoc] at ih'
      rw [List.length_append, hbl, ih']
      rfl
    | node _ _ _ =>
      have hne : rest ≠ .nil := by rw [hrest]; simp
      have := forest_bytes_ge rest hne hr
      rw [← hrest, if_neg (by rw [List.length_append, hbl]; omega)]
      have ih' := ih (pre ++ boxBytes ty kids.bytes) post n psize hne hr (by omega) (by omega)
      rw [List.length_append, hbl, List.append_assoc, Nat.add_assoc] at ih'
      rw [List.length_append, hbl, ih']
      rfl

/-- A well-formed file is parsed as its forest. -/
theorem parseFile_forest (f : Forest) (hn : f ≠ .nil) (hp : f.Parsed) :
    parseFile f.bytes = .ok (f.tree 0) := by
  have := parseKids_forest f [] [] (f.bytes.length + 1) f.bytes.length hn hp (by omega) (by omega)
  simpa [parseFile] using this

/-! ### lookups -/

theorem find_skip_leaf {ty p : Bytes} {rest : Forest} {off : Nat} {t : Bytes} {us : List Bytes}
    (h : ty ≠ t) : ((Forest.leaf ty p rest).tree off).find (t :: us)
      = (rest.tree (off + (8 + p.length))).find (t :: us) := by
  cases us with
  | nil => simp [Forest.tree, BoxTree.find, h]
  | cons u us => simp [Forest.tree, BoxTree.find, h]

theorem find_skip_node {ty : Bytes} {kids rest : Forest} {off : Nat} {t : Bytes} {us : List Bytes}
    (h : ty ≠ t) : ((Forest.node ty kids rest).tree off).find (t :: us)
      = (rest.tree (off + (8 + kids.bytes.length))).find (t :: us) := by
  cases us with
  | nil => simp [Forest.tree, BoxTree.find, h]
  | cons u us => simp [Forest.tree, BoxTree.find, h]

theorem find_hit_leaf {ty p : Bytes} {rest : Forest} {off : Nat} :
    ((Forest.leaf ty p rest).tree off).find [ty] = some ⟨off, 8 + p.length, .nil⟩ := by
  simp [Forest.tree, BoxTree.find]

theorem find_hit_node {ty : Bytes} {kids rest : Forest} {off : Nat} :
    ((Forest.node ty kids rest).tree off).find [ty]
      = some ⟨off, 8 + kids.bytes.length, kids.tree (off + 8)⟩ := by
  simp [Forest.tree, BoxTree.find]

theorem find_into_node {ty : Bytes} {kids rest : Forest} {off : Nat} {u : Bytes} {us : List Bytes}
    {x : Found} (h : (kids.tree (off + 8)).find (u :: us) = some x) :
    ((Forest.node ty kids rest).tree off).find (ty :: u :: us) = some x := by
  simp [Forest.tree, BoxTree.find, h]

theorem find_withBoxes (l : List (Bytes × Bytes)) (rest : Forest) (t : Bytes) (us : List Bytes)
    (h : ∀ x ∈ l, x.1.length = 4 ∧ x.1 ≠ t) : ∀ off,
    ((Forest.withBoxes l rest).tree off).find (t :: us)
      = (rest.tree (off + (boxesBytes l).length)).find (t :: us) := by
  induction l with
  | nil => intro off; simp [Forest.withBoxes, boxesBytes]
  | cons b bs ih =>
    intro off
    rw [Forest.withBoxes, find_skip_leaf (h b (by simp)).2, ih (fun x hx => h x (by simp [hx]))]
    congr 2
    simp only [boxesBytes, List.flatMap_cons, List.length_append, boxBytes_len (h b (by simp)).1]
    omega

theorem find_withLeaves (l : List FragBox) (rest : Forest) (t : Bytes) (us : List Bytes)
    (h : ∀ x ∈ l, x.parts.1.length = 4 ∧ x.parts.1 ≠ t) : ∀ off,
    ((Forest.withLeaves l rest).tree off).find (t :: us)
      = (rest.tree (off + (l.flatMap FragBox.bytes).length)).find (t :: us) := by
  induction l with
  | nil => intro off; simp [Forest.withLeaves]
  | cons b bs ih =>
    intro off
    rw [Forest.withLeaves, find_skip_leaf (h b (by simp)).2, ih (fun x hx => h x (by simp [hx]))]
    congr 2
    simp only [List.flatMap_cons, List.length_append, FragBox.bytes,
      boxBytes_len (h b (by simp)).1]
    omega

end Verif
