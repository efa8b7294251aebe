import Verif.Mp4Find
import Verif.Spec.BoxPaths
import Verif.Lemmas.Parser
import Verif.Lemmas.Utf8
/-
C69: the lookup of boxes.
-/
namespace Verif
open Spec

/-! ### The queue -/

/-- What a search yields, depth first. -/
def BoxTree.collect : BoxTree → List BoxType → List Found
  | .nil, _ => []
  | .cons _ _ _ _ _, [] => []
  | .cons ty size offset kids rest, [t] =>
    (if ty = t then [⟨offset, size, kids⟩] else []) ++ rest.collect [t]
  | .cons ty _ _ kids rest, t :: u :: us =>
    (if ty = t then kids.collect (u :: us) else []) ++ rest.collect (t :: u :: us)

theorem collect_one (x : BoxTree) (t : BoxType) : x.collect [t] = x.matching t := by
  induction x with
  | nil => rfl
  | cons ty size offset kids rest _ ih =>
    unfold BoxTree.collect BoxTree.matching
    rw [ih]
    split <;> rfl

theorem collect_more (x : BoxTree) (t u : BoxType) (us : List BoxType) :
    x.collect (t :: u :: us) = (x.matching t).flatMap (fun c => c.kids.collect (u :: us)) := by
  induction x with
  | nil => rfl
  | cons ty size offset kids rest _ ih =>
    unfold BoxTree.matching
    rw [BoxTree.collect, ih]
    split <;> rfl

theorem collect_nil (x : BoxTree) : x.collect [] = [] := by cases x <;> rfl

theorem findAllLoop_eq (q : List (BoxTree × List BoxType)) (found : List Found) :
    findAllLoop q found = found ++ q.flatMap (fun x => x.1.collect x.2) := by
  induction q, found using findAllLoop.induct with
  | case1 found => rw [findAllLoop]; simp
  | case2 obj q found ih => rw [findAllLoop, ih, List.flatMap_cons, collect_nil, List.nil_append]
  | case3 obj t q found ih =>
    rw [findAllLoop, ih, List.flatMap_cons, collect_one, List.append_assoc]
  | case4 obj t u us q found ih =>
    rw [findAllLoop, ih, List.flatMap_cons, collect_more, List.flatMap_append, List.flatMap_map]

theorem findAll_eq (x : BoxTree) (path : List BoxType) : x.findAll path = x.collect path := by
  unfold BoxTree.findAll
  split
  · exact (collect_one x _).symm
  · rw [findAllLoop_eq]; simp

theorem findLoop_eq (q : List (BoxTree × List BoxType)) :
    findLoop q = (q.flatMap (fun x => x.1.collect x.2)).head? := by
  induction q using findLoop.induct with
  | case1 => rw [findLoop]; rfl
  | case2 obj q ih => rw [findLoop, ih, List.flatMap_cons, collect_nil, List.nil_append]
  | case3 obj t q c cs h => rw [findLoop, h, List.flatMap_cons, collect_one, h]; rfl
  | case4 obj t q h ih => rw [findLoop, h, List.flatMap_cons, collect_one, h]; exact ih
  | case5 obj t u us q ih => rw [findLoop, ih, List.flatMap_cons, collect_more, List.flatMap_append, List.flatMap_map]

theorem findFirst_eq (x : BoxTree) (path : List BoxType) : x.findFirst path = (x.collect path).head? := by
  unfold BoxTree.findFirst
  split
  · rw [collect_one]
  · rw [findLoop_eq]; simp

/-- The recursive lookup used in the other models is the one with the queue. -/
theorem find_eq_findFirst (x : BoxTree) (path : List BoxType) : x.find path = x.findFirst path := by
  rw [findFirst_eq]
  induction x generalizing path with
  | nil => rfl
  | cons ty size offset kids rest ihk ih =>
    match path with
    | [] => rfl
    | [t] =>
      unfold BoxTree.find BoxTree.collect
      rw [ih]
      split <;> rfl
    | t :: u :: us =>
      unfold BoxTree.find BoxTree.collect
      rw [ih, ihk]
      split
      · rw [List.head?_append]
        cases (kids.collect (u :: us)).head? <;> rfl
      · rfl

/-! ### The parser -/

/-- Files that the parser reads as they are: known containers, not empty. -/
def Parsable : Boxes → Prop
  | .nil => True
  | .leaf wide ty p rest =>
    PlainType ty ∧ headerSize wide + p.length < 256 ^ (if wide then 8 else 4) ∧ Parsable rest
  | .node ty kids rest =>
    ty.length = 4 ∧ utf8Valid ty = true ∧ ty ∈ containerBoxes ∧ normType ty = ty ∧
    kids ≠ .nil ∧ 8 + kids.bytes.length < 2 ^ 32 ∧ Parsable kids ∧ Parsable rest

instance (ty : Bytes) : Decidable (PlainType ty) := by unfold PlainType; infer_instance

instance instParsable : (f : Boxes) → Decidable (Parsable f)
  | .nil => .isTrue trivial
  | .leaf wide ty p rest =>
    let _ := instParsable rest
    inferInstanceAs (Decidable (PlainType ty ∧ headerSize wide + p.length < 256 ^ (if wide then 8 else 4) ∧ Parsable rest))
  | .node ty kids rest =>
    let _ := instParsable rest
    let _ := instParsable kids
    inferInstanceAs (Decidable (ty.length = 4 ∧ utf8Valid ty = true ∧ ty ∈ containerBoxes ∧ normType ty = ty ∧
      kids ≠ .nil ∧ 8 + kids.bytes.length < 2 ^ 32 ∧ Parsable kids ∧ Parsable rest))

/-- The box objects of a file. -/
def objects : Boxes → Nat → BoxTree
  | .nil, _ => .nil
  | .leaf wide ty p rest, pos =>
    .cons ty (headerSize wide + p.length) pos .nil (objects rest (pos + (headerSize wide + p.length)))
  | .node ty kids rest, pos =>
    .cons ty (8 + kids.bytes.length) pos (objects kids (pos + 8)) (objects rest (pos + (8 + kids.bytes.length)))

theorem header_length {wide : Bool} {ty : Bytes} (n : Nat) (ht : ty.length = 4) :
    (header wide ty n).length = headerSize wide := by
  unfold header headerSize
  cases wide <;> simp [ht]

theorem boxHead_header {wide : Bool} {ty : Bytes} (ht : ty.length = 4) (hn : normType ty = ty) (n : Nat)
    (pre post : Bytes) (hs : headerSize wide + n < 256 ^ (if wide then 8 else 4)) :
    boxHead (pre ++ (header wide ty n ++ post)) pre.length = .ok (headerSize wide + n, ty) := by
  cases wide with
  | false =>
    have s1 : slice (pre ++ (header false ty n ++ post)) pre.length (pre.length + 4) = beBytes 4 (8 + n) := by
      have := slice_eq_of_append pre (beBytes 4 (8 + n)) (ty ++ post) (a := pre.length) (b := pre.length + 4) rfl
        (by simp)
      simpa [header] using this
    have s2 : slice (pre ++ (header false ty n ++ post)) (pre.length + 4) (pre.length + 8) = ty := by
      have := slice_eq_of_append (pre ++ beBytes 4 (8 + n)) ty post (a := pre.length + 4) (b := pre.length + 8)
        (by simp) (by simp [ht])
      simpa [header] using this
    simp only [headerSize, Bool.false_eq_true, if_false] at hs ⊢
    unfold boxHead
    rw [s1, s2, strToUint32, if_pos (by simp), beVal_beBytes_of_lt (by omega)]
    simp only
    rw [if_neg (by simp [ht]), if_neg (by omega), hn]
  | true =>
    have s1 : slice (pre ++ (header true ty n ++ post)) pre.length (pre.length + 4) = beBytes 4 1 := by
      have := slice_eq_of_append pre (beBytes 4 1) (ty ++ beBytes 8 (16 + n) ++ post) (a := pre.length)
        (b := pre.length + 4) rfl (by simp)
      simpa [header] using this
    have s2 : slice (pre ++ (header true ty n ++ post)) (pre.length + 4) (pre.length + 8) = ty := by
      have := slice_eq_of_append (pre ++ beBytes 4 1) ty (beBytes 8 (16 + n) ++ post) (a := pre.length + 4)
        (b := pre.length + 8) (by simp) (by simp [ht])
      simpa [header] using this
    have s3 : slice (pre ++ (header true ty n ++ post)) (pre.length + 8) (pre.length + 16) = beBytes 8 (16 + n) := by
      have := slice_eq_of_append (pre ++ beBytes 4 1 ++ ty) (beBytes 8 (16 + n)) post (a := pre.length + 8)
        (b := pre.length + 16) (by simp [ht]) (by simp [ht])
      simpa [header] using this
    simp only [headerSize, if_true] at hs ⊢
    unfold boxHead
    rw [s1, s2, s3, strToUint32, if_pos (by simp), beVal_beBytes_of_lt (by omega)]
    simp only
    rw [if_neg (by simp [ht]), if_true, strToUint64, if_pos (by simp), beVal_beBytes_of_lt hs, hn]

theorem headerSize_ge (wide : Bool) : 8 ≤ headerSize wide := by cases wide <;> decide

theorem boxes_ge {f : Boxes} (h : f ≠ .nil) (hp : Parsable f) : 8 ≤ f.bytes.length := by
  cases f with
  | nil => exact absurd rfl h
  | leaf wide ty p rest =>
    have := headerSize_ge wide
    rw [Boxes.bytes, List.length_append, List.length_append, header_length _ hp.1.1]; omega
  | node ty kids rest =>
    have := headerSize_ge false
    rw [Boxes.bytes, List.length_append, List.length_append, header_length _ hp.1]; omega

theorem parseKids_boxes (f : Boxes) : ∀ (pre post : Bytes) (n psize : Nat), f ≠ .nil → Parsable f →
    f.bytes.length ≤ psize → f.bytes.length < n →
    parseKids (pre ++ (f.bytes ++ post)) n psize pre.length (pre.length + f.bytes.length)
      = .ok (objects f pre.length) := by
  induction f with
  | nil => intro _ _ _ _ h; exact absurd rfl h
  | leaf wide ty p rest ih =>
    intro pre post n psize _ hp hps hn
    obtain ⟨⟨ht, hu, hc, hnt⟩, hs, hr⟩ := hp
    cases n with
    | zero => omega
    | succ n =>
    have h8 := headerSize_ge wide
    have hbl : (header wide ty p.length ++ p).length = headerSize wide + p.length := by
      rw [List.length_append, header_length _ ht]
    have hlen : (Boxes.leaf wide ty p rest).bytes.length = headerSize wide + p.length + rest.bytes.length := by
      rw [Boxes.bytes, List.length_append, hbl]
    unfold parseKids
    have e1 : pre ++ ((Boxes.leaf wide ty p rest).bytes ++ post) =
        pre ++ (header wide ty p.length ++ (p ++ (rest.bytes ++ post))) := by
      rw [Boxes.bytes]; simp only [List.append_assoc]
    have e2 : pre ++ ((Boxes.leaf wide ty p rest).bytes ++ post) =
        (pre ++ (header wide ty p.length ++ p)) ++ (rest.bytes ++ post) := by
      rw [Boxes.bytes]; simp only [List.append_assoc]
    have hh : boxHead (pre ++ ((Boxes.leaf wide ty p rest).bytes ++ post)) pre.length =
        .ok (headerSize wide + p.length, ty) := by
      rw [e1]; exact boxHead_header ht hnt p.length pre _ hs
    rw [hh]
    simp only
    rw [if_neg (by omega), if_neg (by rw [hu]; simp), if_neg hc]
    simp only
    by_cases hne : rest = .nil
    · subst hne
      rw [if_pos (by rw [hlen]; simp [Boxes.bytes])]
      rfl
    · have := boxes_ge hne hr
      rw [if_neg (by rw [hlen]; omega)]
      have ih' := ih (pre ++ (header wide ty p.length ++ p)) post n psize hne hr (by omega) (by omega)
      rw [← e2, List.length_append, hbl] at ih'
      rw [Nat.add_assoc, ← hlen] at ih'
      rw [ih']
      rfl
  | node ty kids rest ihk ih =>
    intro pre post n psize _ hp hps hn
    obtain ⟨ht, hu, hc, hnt, hkn, hs, hk, hr⟩ := hp
    cases n with
    | zero => omega
    | succ n =>
    have hbl : (header false ty kids.bytes.length ++ kids.bytes).length = 8 + kids.bytes.length := by
      rw [List.length_append, header_length _ ht]; rfl
    have hlen : (Boxes.node ty kids rest).bytes.length = 8 + kids.bytes.length + rest.bytes.length := by
      rw [Boxes.bytes, List.length_append, hbl]
    unfold parseKids
    have e1 : pre ++ ((Boxes.node ty kids rest).bytes ++ post) =
        pre ++ (header false ty kids.bytes.length ++ (kids.bytes ++ (rest.bytes ++ post))) := by
      rw [Boxes.bytes]; simp only [List.append_assoc]
    have e2 : pre ++ ((Boxes.node ty kids rest).bytes ++ post) =
        (pre ++ (header false ty kids.bytes.length ++ kids.bytes)) ++ (rest.bytes ++ post) := by
      rw [Boxes.bytes]; simp only [List.append_assoc]
    have e3 : pre ++ ((Boxes.node ty kids rest).bytes ++ post) =
        (pre ++ header false ty kids.bytes.length) ++ (kids.bytes ++ (rest.bytes ++ post)) := by
      rw [Boxes.bytes]; simp only [List.append_assoc]
    have hh : boxHead (pre ++ ((Boxes.node ty kids rest).bytes ++ post)) pre.length =
        .ok (8 + kids.bytes.length, ty) := by
      rw [e1]; exact boxHead_header (wide := false) ht hnt kids.bytes.length pre _ hs
    rw [hh]
    simp only
    rw [if_neg (by omega), if_neg (by rw [hu]; simp), if_pos hc]
    have hk' := ihk (pre ++ header false ty kids.bytes.length) (rest.bytes ++ post) n
      (8 + kids.bytes.length) hkn hk (by omega) (by omega)
    rw [← e3, List.length_append, header_length _ ht, show headerSize false = 8 from rfl, Nat.add_assoc] at hk'
    rw [hk']
    simp only
    by_cases hne : rest = .nil
    · subst hne
      rw [if_pos (by rw [hlen]; simp [Boxes.bytes])]
      rfl
    · have := boxes_ge hne hr
      rw [if_neg (by rw [hlen]; omega)]
      have ih' := ih (pre ++ (header false ty kids.bytes.length ++ kids.bytes)) post n psize hne hr (by omega) (by omega)
      rw [← e2, List.length_append, hbl] at ih'
      rw [Nat.add_assoc, ← hlen] at ih'
      rw [ih']
      rfl

theorem parseFile_boxes {f : Boxes} (hn : f ≠ .nil) (hp : Parsable f) : parseFile f.bytes = .ok (objects f 0) := by
  have := parseKids_boxes f [] [] (f.bytes.length + 1) f.bytes.length hn hp (by omega) (by omega)
  simpa [parseFile] using this

/-! ### Paths -/

theorem list_prefix {f : Boxes} {pre : List Bytes} {pos : Nat} {x : List Bytes × Nat × Nat} (h : x ∈ f.list pre pos) :
    ∃ s, s ≠ [] ∧ x.1 = pre ++ s := by
  induction f generalizing pre pos with
  | nil => cases h
  | leaf wide ty p rest ih =>
    rcases List.mem_cons.1 h with rfl | h
    · exact ⟨[ty], by simp, rfl⟩
    · exact ih h
  | node ty kids rest ihk ih =>
    rcases List.mem_cons.1 h with rfl | h
    · exact ⟨[ty], by simp, rfl⟩
    · rcases List.mem_append.1 h with h | h
      · obtain ⟨s, -, hs⟩ := ihk h
        exact ⟨ty :: s, by simp, by rw [hs]; simp⟩
      · exact ih h

theorem collect_objects (f : Boxes) : ∀ (pre path : List Bytes) (pos : Nat), path ≠ [] →
    ((objects f pos).collect path).map (fun x => (x.offset, x.size)) =
      ((f.list pre pos).filter (fun x => x.1 = pre ++ path)).map (·.2) := by
  induction f with
  | nil => intros; rfl
  | leaf wide ty p rest ih =>
    intro pre path pos hp
    match path with
    | [t] =>
      unfold objects BoxTree.collect Boxes.list
      rw [List.map_append, ih pre [t] _ hp, List.filter_cons]
      by_cases h : ty = t
      · subst h; simp
      · rw [if_neg h, if_neg (by simpa using h)]; rfl
    | t :: u :: us =>
      unfold objects BoxTree.collect Boxes.list
      have hd : ¬decide ((pre ++ [ty], pos, headerSize wide + p.length).1 = pre ++ t :: u :: us) = true := by simp
      rw [List.map_append, ih pre _ _ hp, List.filter_cons, if_neg hd]
      split <;> rfl
  | node ty kids rest ihk ih =>
    intro pre path pos hp
    match path with
    | [t] =>
      unfold objects BoxTree.collect Boxes.list
      rw [List.map_append, ih pre [t] _ hp, List.filter_cons, List.filter_append]
      have hk : (kids.list (pre ++ [ty]) (pos + 8)).filter (fun x => x.1 = pre ++ [t]) = [] := by
        rw [List.filter_eq_nil_iff]
        intro x hx
        obtain ⟨s, hs, he⟩ := list_prefix hx
        cases s with
        | nil => exact absurd rfl hs
        | cons a s => simp [he]
      rw [hk]
      by_cases h : ty = t
      · subst h; simp
      · rw [if_neg h, if_neg (by simpa using h)]; rfl
    | t :: u :: us =>
      unfold objects BoxTree.collect Boxes.list
      have hd : ¬decide ((pre ++ [ty], pos, 8 + kids.bytes.length).1 = pre ++ t :: u :: us) = true := by simp
      rw [List.map_append, ih pre _ _ hp, List.filter_cons, if_neg hd, List.filter_append, List.map_append]
      congr 1
      by_cases h : ty = t
      · subst h
        rw [if_pos rfl, ihk (pre ++ [ty]) (u :: us) _ (by simp)]
        simp
      · rw [if_neg h]
        symm
        rw [List.map_nil, List.map_eq_nil_iff, List.filter_eq_nil_iff]
        intro x hx
        obtain ⟨s, hs, he⟩ := list_prefix hx
        simp [he, h]

/-- **C69.** Looking for all boxes with a path in a well-formed file gives the boxes of the file whose
types from the outermost box on are the path, in the order of the file, each with its position and
size; looking for one gives the first of them.
Missing: containers with 64-bit sizes (`C69_wide_container_violation`) and empty containers
(`C69_empty_container_violation`), paths with empty parts or attributes, and sample entries, the boxes in
which start later. -/
theorem C69_find_partial {f : Boxes} (hn : f ≠ .nil) (hp : Parsable f) :
    ∃ t, parseFile f.bytes = .ok t ∧ ∀ path, path ≠ [] →
      (t.findAll path).map (fun x => (x.offset, x.size)) = f.places path ∧
      (t.findFirst path).map (fun x => (x.offset, x.size)) = (f.places path).head? ∧
      t.find path = t.findFirst path := by
  refine ⟨_, parseFile_boxes hn hp, fun path hpath => ?_⟩
  have h := collect_objects f [] path 0 hpath
  rw [List.nil_append] at h
  refine ⟨by rw [findAll_eq]; exact h, ?_, find_eq_findFirst _ _⟩
  rw [findFirst_eq, ← List.head?_map, h]
  rfl

/-- **C69 (types).** The parser and the filters raise for the types that are not the UTF-8 code of any
text, and for no others. -/
theorem C69_types (ty : Bytes) : utf8Valid ty = true ↔ ∃ cs : List Char, ty = cs.flatMap String.utf8EncodeChar :=
  utf8Valid_iff ty

/-- The bytes of a text. -/
def asciiBytes (s : String) : Bytes := s.toList.map (fun c => UInt8.ofNat c.toNat)

/-- A file with two tracks, and media data with a 64-bit size before them. -/
def twoTracks : Boxes :=
  .leaf true (asciiBytes "mdat") [1, 2, 3] <|
  .node (asciiBytes "moov")
    (.node (asciiBytes "trak") (.leaf false (asciiBytes "tkhd") [7] .nil) <|
     .node (asciiBytes "trak") (.leaf false (asciiBytes "free") [] <|
        .node (asciiBytes "mdia") (.leaf false (asciiBytes "mdhd") [9] .nil) .nil) .nil) .nil

/-- C69: the first `moov.trak.mdia.mdhd` is in the second track. -/
example : twoTracks ≠ .nil ∧ Parsable twoTracks ∧
    twoTracks.places [asciiBytes "moov", asciiBytes "trak"] = [(27, 17), (44, 33)] ∧
    twoTracks.places [asciiBytes "moov", asciiBytes "trak", asciiBytes "mdia", asciiBytes "mdhd"] = [(68, 9)] := by
  refine ⟨by decide, ?_, by decide +kernel, by decide +kernel⟩
  decide +kernel

/-- Types: `©nam` is not UTF-8, as its first byte is 169. -/
example : utf8Valid [169, 110, 97, 109] = false ∧ utf8Valid [0xC2, 0xA9, 110, 109] = true := by decide

/-- **C69 fails** for a container with a 64-bit size: its children are read 8 bytes too early, at the size,
and none is found. -/
theorem C69_wide_container_violation :
    (parseFile (header true (asciiBytes "moov") 9 ++ (Boxes.leaf false (asciiBytes "mvhd") [1] .nil).bytes)).toOption.map
      (fun t => ((t.find [asciiBytes "moov"]).isSome, (t.find [asciiBytes "moov", asciiBytes "mvhd"]).isSome)) =
      some (true, false) := by
  decide +kernel

/-- **C69 fails** for an empty container: the box after it is read as its child as well, if its size is not
too large for that. -/
theorem C69_empty_container_violation :
    (parseFile ((Boxes.node (asciiBytes "udta") .nil (.leaf false (asciiBytes "free") [] .nil)).bytes)).toOption.map
      (fun t => ((t.find [asciiBytes "udta", asciiBytes "free"]).map (·.offset))) = some (some 8) := by
  decide +kernel

end Verif
