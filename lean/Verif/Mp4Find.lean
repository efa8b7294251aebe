import Verif.Mp4Parser
/-
Model of the lookup of boxes in dashlib/mp4.py as it is written, with a queue.
-/
namespace Verif

/-- mp4.py 184-185 and 198-200: the children of a box with a type. -/
def BoxTree.matching (t : BoxType) : BoxTree → List Found
  | .nil => []
  | .cons ty size offset kids rest =>
    if ty = t then ⟨offset, size, kids⟩ :: rest.matching t else rest.matching t

/-- Number of boxes. -/
def BoxTree.count : BoxTree → Nat
  | .nil => 0
  | .cons _ _ _ kids rest => 1 + kids.count + rest.count

/-- Boxes in a list of boxes, with the boxes themselves. -/
def foundCount (l : List Found) : Nat := (l.map fun c => 1 + c.kids.count).sum

theorem matching_count (t : BoxType) (x : BoxTree) : foundCount (x.matching t) ≤ x.count := by
  induction x with
  | nil => simp [BoxTree.matching, foundCount, BoxTree.count]
  | cons ty size offset kids rest _ ih =>
    unfold BoxTree.matching
    split
    · simp only [foundCount, List.map_cons, List.sum_cons, BoxTree.count] at ih ⊢
      omega
    · simp only [BoxTree.count]
      omega

/-- A bound for the steps of a queue. -/
def queueCount (q : List (BoxTree × List BoxType)) : Nat := (q.map fun x => 1 + x.1.count).sum

theorem queueCount_found (l : List Found) (p : List BoxType) (q : List (BoxTree × List BoxType)) :
    queueCount (l.map (fun c => (c.kids, p)) ++ q) = foundCount l + queueCount q := by
  unfold queueCount foundCount
  rw [List.map_append, List.map_map, List.sum_append]
  rfl

/-- mp4.py 188-220, the queue with `return_first=False`; an item is the list of children of a box
and the rest of the path.  A path from `split` has at least one part. -/
def findAllLoop : List (BoxTree × List BoxType) → List Found → List Found
  | [], found => found
  | (_, []) :: q, found => findAllLoop q found
  | (obj, [t]) :: q, found => findAllLoop q (found ++ obj.matching t)
  | (obj, t :: u :: us) :: q, found =>
    findAllLoop ((obj.matching t).map (fun c => (c.kids, u :: us)) ++ q) found
termination_by q _ => queueCount q
decreasing_by
  · simp only [queueCount, List.map_cons, List.sum_cons]; omega
  · simp only [queueCount, List.map_cons, List.sum_cons]; omega
  · rw [queueCount_found]
    have := matching_count t obj
    simp only [queueCount, List.map_cons, List.sum_cons]
    omega

/-- mp4.py 169-220 `find_all` for a path of four-character types. -/
def BoxTree.findAll (x : BoxTree) (path : List BoxType) : List Found :=
  match path with
  | [t] => x.matching t
  | _ => findAllLoop [(x, path)] []

/-- mp4.py 188-220, the queue with `return_first=True`. -/
def findLoop : List (BoxTree × List BoxType) → Option Found
  | [] => none
  | (_, []) :: q => findLoop q
  | (obj, [t]) :: q =>
    match obj.matching t with
    | c :: _ => some c
    | [] => findLoop q
  | (obj, t :: u :: us) :: q => findLoop ((obj.matching t).map (fun c => (c.kids, u :: us)) ++ q)
termination_by q => queueCount q
decreasing_by
  · simp only [queueCount, List.map_cons, List.sum_cons]; omega
  · simp only [queueCount, List.map_cons, List.sum_cons]; omega
  · rw [queueCount_found]
    have := matching_count t obj
    simp only [queueCount, List.map_cons, List.sum_cons]
    omega

/-- mp4.py 172-220 `find`; `none` stands for the empty list that the code returns. -/
def BoxTree.findFirst (x : BoxTree) (path : List BoxType) : Option Found :=
  match path with
  | [t] => (x.matching t).head?
  | _ => findLoop [(x, path)]

end Verif
