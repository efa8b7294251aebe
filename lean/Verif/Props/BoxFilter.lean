import Verif.Lemmas.BoxTree
/- C08 and C09: the generic box filter. -/
namespace Verif

/-! ### C08 -/

/-- C08: filtering a well-formed file is rewriting its box tree: boxes keep their order, every
top-level box of another type is copied, every container is written with the size of its new
content, every plain box is replaced by what its rule returns, and the rules see the boxes in
file order (state, errors and `output_top_level_boxes` included). -/
theorem C08_refines (r : FilterRules σ) (f : Forest) (s : σ) (hf : f.Ok r.composite) :
    filterFile r f.bytes s =
      (f.rewriteTop r.leaf r.top s).map (fun x =>
        (((x.1.map Prod.snd).flatten,
          (x.1.filter (fun b => decide (0 < b.2.length))).map (fun b => (b.2.length, b.1))),
         x.2)) := by
  rw [filterFile, filterTop_forest r f _ s hf (by omega)]
  cases f.rewriteTop r.leaf r.top s with
  | error e => rfl
  | ok x => rfl

/-- C08: the output of filtering a well-formed file is well-formed, whatever the rules do, as
long as each rule turns a well-formed box into zero or more well-formed boxes. -/
theorem C08_wellformed (r : FilterRules σ) (d : Bytes) (s s' : σ) (out : Bytes)
    (boxes : List (Nat × BoxType)) (hd : BoxSeq r.composite d)
    (hleaf : ∀ ty p s o s', ty.length = 4 → ty ∉ r.composite → 8 + p.length < 2 ^ 32 →
      r.leaf ty (beBytes 4 (8 + p.length) ++ ty ++ p) s = .ok (o, s') → BoxSeq r.composite o)
    (h : filterFile r d s = .ok ((out, boxes), s')) : BoxSeq r.composite out := by
  obtain ⟨f, hf, rfl⟩ := (boxSeq_iff_forest _ _).1 hd
  rw [C08_refines r f s hf] at h
  cases hx : f.rewriteTop r.leaf r.top s with
  | error e => rw [hx] at h; cases h
  | ok x =>
    obtain ⟨l, s1⟩ := x
    rw [hx] at h
    simp only [Except.map, Except.ok.injEq, Prod.mk.injEq] at h
    rw [← h.1.1]
    exact rewriteTop_boxSeq hleaf r.top f s l s1 hf hx

/-- C08: if the rules leave every box alone the file is copied byte for byte. -/
theorem C08_copy (r : FilterRules σ) (d : Bytes) (s : σ) (hd : BoxSeq r.composite d)
    (hleaf : ∀ ty p s, ∃ s', r.leaf ty (beBytes 4 (8 + p.length) ++ ty ++ p) s
      = .ok (beBytes 4 (8 + p.length) ++ ty ++ p, s')) :
    ∃ boxes s', filterFile r d s = .ok ((d, boxes), s') := by
  obtain ⟨f, hf, rfl⟩ := (boxSeq_iff_forest _ _).1 hd
  rw [C08_refines r f s hf]
  have key : ∀ (t : Forest) (s : σ), t.Ok r.composite →
      ∃ l s', t.rewriteTop r.leaf r.top s = .ok (l, s') ∧ (l.map Prod.snd).flatten = t.bytes := by
    intro t
    induction t with
    | nil => intro s _; exact ⟨[], s, rfl, rfl⟩
    | leaf ty p rest ih =>
      intro s ok
      have h1 : ∃ s1, (if ty ∈ r.top then (Forest.leaf ty p .nil).rewrite r.leaf s
          else .ok (boxBytes ty p, s)) = .ok (boxBytes ty p, s1) := by
        split
        · obtain ⟨s1, e⟩ := rewrite_id hleaf (Forest.leaf ty p .nil) s
            (⟨ok.1, ok.2.1, ok.2.2.1, trivial⟩ : (Forest.leaf ty p .nil).Ok r.composite)
          exact ⟨s1, by rw [e]; simp [Forest.bytes]⟩
        · exact ⟨s, rfl⟩
      obtain ⟨s1, h1⟩ := h1
      obtain ⟨l, s2, h2, h3⟩ := ih s1 ok.2.2.2
      exact ⟨(ty, boxBytes ty p) :: l, s2, by rw [Forest.rewriteTop, h1]; simp only [h2],
        by simp [Forest.bytes, h3]⟩
    | node ty kids rest _ ih =>
      intro s ok
      have h1 : ∃ s1, (if ty ∈ r.top then (Forest.node ty kids .nil).rewrite r.leaf s
          else .ok (boxBytes ty kids.bytes, s)) = .ok (boxBytes ty kids.bytes, s1) := by
        split
        · obtain ⟨s1, e⟩ := rewrite_id hleaf (Forest.node ty kids .nil) s
            (⟨ok.1, ok.2.1, ok.2.2.1, ok.2.2.2.1, trivial⟩ :
              (Forest.node ty kids .nil).Ok r.composite)
          exact ⟨s1, by rw [e]; simp [Forest.bytes]⟩
        · exact ⟨s, rfl⟩
      obtain ⟨s1, h1⟩ := h1
      obtain ⟨l, s2, h2, h3⟩ := ih s1 ok.2.2.2.2
      exact ⟨(ty, boxBytes ty kids.bytes) :: l, s2,
        by rw [Forest.rewriteTop, h1]; simp only [h2], by simp [Forest.bytes, h3]⟩
  obtain ⟨l, s', h1, h2⟩ := key f s hf
  exact ⟨_, s', by rw [h1]; simp only [Except.map, h2]; rfl⟩

/-- The case in view: a container `m` holding `a` and `b`, then an opaque `d`; the rule makes
`a` longer and removes `b`. -/
private def exRules : FilterRules Nat where
  top := [[109, 109, 109, 109]]
  composite := [[109, 109, 109, 109]]
  leaf := fun ty d s =>
    if ty = [97, 97, 97, 97] then .ok (boxBytes ty [1, 2, 3], s + 1)
    else if ty = [98, 98, 98, 98] then .ok ([], s + 1)
    else .ok (d, s)

private def exForest : Forest :=
  .node [109, 109, 109, 109]
    (.leaf [97, 97, 97, 97] [] (.leaf [98, 98, 98, 98] [9, 9] .nil))
    (.leaf [100, 100, 100, 100] [7] .nil)

example : exForest.Ok exRules.composite := by
  refine ⟨rfl, by decide, by decide, ⟨rfl, by decide, by decide, rfl, by decide, by decide, trivial⟩,
    rfl, by decide, by decide, trivial⟩

example : filterFile exRules exForest.bytes 0 = .ok ((
    [0, 0, 0, 19, 109, 109, 109, 109, 0, 0, 0, 11, 97, 97, 97, 97, 1, 2, 3,
     0, 0, 0, 9, 100, 100, 100, 100, 7],
    [(19, [109, 109, 109, 109]), (9, [100, 100, 100, 100])]), 2) := by decide +kernel

/-! ### C09 -/

/-- C09: the filter terminates on every byte string in which following the size fields never
meets a size 0 (rules being total): some number of steps suffices and every larger number
gives the same outcome, which is an output or a Python exception. -/
theorem C09_terminates (r : FilterRules σ) (d : Bytes) (s : σ)
    (hr : ∀ ty data s, r.leaf ty data s ≠ .error .hang)
    (hz : ¬ ZeroSizeTop r.top r.composite d) :
    filterFile r d s ≠ .error .hang ∧
    ∀ n, 2 * d.length + 1 ≤ n → filterTop r n d s = filterFile r d s := by
  have h := filterTop_total r hr (2 * d.length + 1) d s (by right; omega) hz
  exact ⟨h, fun n hn => filterTop_le r hn d s h⟩

private theorem zeroSize_len {comp : List Bytes} {d : Bytes} (h : ZeroSize comp d) :
    4 ≤ d.length := by
  cases h <;> assumption

private theorem zeroSizeTop_len {top comp : List Bytes} {d : Bytes}
    (h : ZeroSizeTop top comp d) : 4 ≤ d.length := by
  cases h <;> assumption

private theorem zero_kids (r : FilterRules σ) : ∀ (n : Nat),
    (∀ ty data s, ty ∈ r.composite → ZeroSize r.composite (data.drop 8) →
      ∀ x, filterBox r n ty data s ≠ .ok x) ∧
    (∀ rest s, ZeroSize r.composite rest → ∀ x, filterKids r n rest s ≠ .ok x) := by
  intro n
  induction n with
  | zero =>
    refine ⟨by intro ty data s _ _ x; simp [filterBox], ?_⟩
    intro rest s hz x
    cases rest with
    | nil => exact absurd (zeroSize_len hz) (by simp)
    | cons b rest => simp [filterKids]
  | succ n ih =>
    refine ⟨?_, ?_⟩
    · intro ty data s hc hz x h
      rw [filterBox, if_pos hc] at h
      cases hk : filterKids r n (data.drop 8) s with
      | error e => rw [hk] at h; cases h
      | ok y => exact ih.2 _ s hz y hk
    · intro rest s hz x h
      cases rest with
      | nil => exact absurd (zeroSize_len hz) (by simp)
      | cons b rest =>
        rw [filterKids, take8_take4] at h
        cases hs : strToUint32 ((b :: rest).take 4) with
        | error e => rw [hs] at h; cases h
        | ok size =>
          rw [hs] at h
          simp only at h
          obtain ⟨_, hv⟩ := strToUint32_ok hs
          cases hb : filterBox r n (slice (b :: rest) 4 8) ((b :: rest).take size) s with
          | error e => rw [hb] at h; cases h
          | ok y =>
            obtain ⟨o, s'⟩ := y
            rw [hb] at h
            simp only at h
            cases hk : filterKids r n ((b :: rest).drop size) s' with
            | error e => rw [hk] at h; cases h
            | ok z =>
              cases hz with
              | here _ h4 hzero =>
                rw [hv, hzero] at hk
                exact ih.2 _ s' (ZeroSize.here _ h4 hzero) z hk
              | inside _ h4 ht hzz =>
                rw [hv] at hb
                exact ih.1 _ _ s ht hzz _ hb
              | later _ h4 hzz =>
                rw [hv] at hk
                exact ih.2 _ s' hzz z hk

/-- C09: if following the size fields does meet a size 0 the filter never returns an output:
with any number of steps it is still running or a rule has raised an exception. -/
theorem C09_zero_size (r : FilterRules σ) (d : Bytes)
    (hz : ZeroSizeTop r.top r.composite d) :
    ∀ (n : Nat) (s : σ) x, filterTop r n d s ≠ .ok x := by
  intro n
  induction n generalizing d with
  | zero =>
    intro s x h
    cases d with
    | nil => exact absurd (zeroSizeTop_len hz) (by simp)
    | cons b rest => simp [filterTop] at h
  | succ n ih =>
    intro s x h
    cases d with
    | nil => exact absurd (zeroSizeTop_len hz) (by simp)
    | cons b rest =>
      rw [filterTop, take8_take4] at h
      cases hs : strToUint32 ((b :: rest).take 4) with
      | error e => rw [hs] at h; cases h
      | ok size =>
        rw [hs] at h
        simp only at h
        obtain ⟨_, hv⟩ := strToUint32_ok hs
        cases hb : (if slice (b :: rest) 4 8 ∈ r.top then
            filterBox r n (slice (b :: rest) 4 8) ((b :: rest).take size) s
            else .ok ((b :: rest).take size, s)) with
        | error e => rw [hb] at h; cases h
        | ok y =>
          obtain ⟨o, s'⟩ := y
          rw [hb] at h
          simp only at h
          cases hk : filterTop r n ((b :: rest).drop size) s' with
          | error e => rw [hk] at h; cases h
          | ok z =>
            cases hz with
            | here _ h4 hzero =>
              rw [hv, hzero] at hk
              exact ih _ (ZeroSizeTop.here _ h4 hzero) s' z hk
            | inside _ h4 ht hc hzz =>
              rw [hv, if_pos ht] at hb
              exact (zero_kids r n).1 _ _ s hc hzz _ hb
            | later _ h4 hzz =>
              rw [hv] at hk
              exact ih _ hzz s' z hk

/-- C09: the code does hang on such a file: an untouched box with size field 0 makes the
top-level loop run for ever. -/
theorem C09_hang (r : FilterRules σ) (ty rest : Bytes) (ht : ty.length = 4) (htop : ty ∉ r.top)
    (n : Nat) (s : σ) : filterTop r n ([0, 0, 0, 0] ++ ty ++ rest) s = .error .hang := by
  induction n generalizing s with
  | zero => simp [filterTop]
  | succ n ih =>
    have h2 : slice ([0, 0, 0, 0] ++ ty ++ rest) 4 8 = ty :=
      slice_eq_of_append [0, 0, 0, 0] ty rest rfl (by simp [ht])
    simp only [List.cons_append, List.nil_append] at h2 ih ⊢
    rw [filterTop, take8_take4, h2]
    simp [strToUint32, beVal, htop, ih]

/-- Every step consumes the declared size: the loop continues after exactly `size` bytes. -/
theorem C09_consumes (r : FilterRules σ) (n : Nat) (d : Bytes) (s : σ) (size : Nat)
    (h4 : 4 ≤ d.length) (hs : beVal (d.take 4) = size) (x : (Bytes × List (Nat × BoxType)) × σ)
    (h : filterTop r (n + 1) d s = .ok x) :
    ∃ first s' y, filterTop r n (d.drop size) s' = .ok y ∧ x.1.1 = first ++ y.1.1 ∧
      (slice d 4 8 ∉ r.top → first = d.take size ∧ s' = s) := by
  cases d with
  | nil => simp at h4
  | cons b rest =>
    rw [filterTop, take8_take4, strToUint32, if_pos (by rw [List.length_take]; omega), hs] at h
    simp only at h
    cases hb : (if slice (b :: rest) 4 8 ∈ r.top then
        filterBox r n (slice (b :: rest) 4 8) ((b :: rest).take size) s
        else .ok ((b :: rest).take size, s)) with
    | error e => rw [hb] at h; cases h
    | ok y =>
      obtain ⟨o, s'⟩ := y
      rw [hb] at h
      simp only at h
      cases hk : filterTop r n ((b :: rest).drop size) s' with
      | error e => rw [hk] at h; cases h
      | ok z =>
        obtain ⟨⟨os, bs⟩, s''⟩ := z
        rw [hk] at h
        simp only [Except.ok.injEq] at h
        refine ⟨o, s', _, hk, by rw [← h], ?_⟩
        intro hn
        rw [if_neg hn] at hb
        simp only [Except.ok.injEq, Prod.mk.injEq] at hb
        exact ⟨hb.1.symm, hb.2.symm⟩

example : ¬ ZeroSizeTop [] [] [0, 0, 0, 6, 9, 9, 9, 9, 1] ∧
    filterFile (σ := Unit) ⟨[], [], fun _ d s => .ok (d, s)⟩ [0, 0, 0, 6, 9, 9, 9, 9, 1] ()
      = .error .structError := by
  refine ⟨?_, by decide +kernel⟩
  intro h
  cases h with
  | here _ _ hz => exact absurd hz (by decide)
  | inside _ _ ht => cases ht
  | later _ _ hz => exact absurd (zeroSizeTop_len hz) (by decide)

end Verif
