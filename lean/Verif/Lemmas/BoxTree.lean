import Verif.Lemmas.Mp4Filter
/- The box filter on well-formed files: refinement to rewriting box trees. -/
namespace Verif

theorem boxBytes_length (ty c : Bytes) : (boxBytes ty c).length = 4 + ty.length + c.length := by
  simp [boxBytes]; omega

theorem boxBytes_take4 (ty c rest : Bytes) :
    (boxBytes ty c ++ rest).take 4 = beBytes 4 (8 + c.length) := by
  simp only [boxBytes, List.append_assoc]
  exact List.take_left' (by simp)

theorem boxBytes_type {ty : Bytes} (c rest : Bytes) (ht : ty.length = 4) :
    slice (boxBytes ty c ++ rest) 4 8 = ty := by
  have : boxBytes ty c ++ rest = beBytes 4 (8 + c.length) ++ ty ++ (c ++ rest) := by
    simp [boxBytes]
  rw [this]
  exact slice_eq_of_append _ _ _ (by simp) (by simp [ht])

theorem boxBytes_size {c : Bytes} (hl : 8 + c.length < 2 ^ 32) (ty rest : Bytes) :
    strToUint32 (((boxBytes ty c ++ rest).take 8).take 4) = .ok (8 + c.length) := by
  rw [take8_take4, boxBytes_take4, strToUint32, if_pos (by simp),
    beVal_beBytes_of_lt (by simpa using hl)]

theorem boxBytes_take {ty : Bytes} (c rest : Bytes) (ht : ty.length = 4) :
    (boxBytes ty c ++ rest).take (8 + c.length) = boxBytes ty c :=
  List.take_left' (by rw [boxBytes_length, ht])

theorem boxBytes_drop {ty : Bytes} (c rest : Bytes) (ht : ty.length = 4) :
    (boxBytes ty c ++ rest).drop (8 + c.length) = rest :=
  List.drop_left' (by rw [boxBytes_length, ht])

theorem boxBytes_drop8 {ty : Bytes} (c : Bytes) (ht : ty.length = 4) :
    (boxBytes ty c).drop 8 = c := by
  rw [boxBytes]
  exact List.drop_left' (by simp [ht])

theorem boxBytes_take8 {ty : Bytes} (c : Bytes) (ht : ty.length = 4) :
    (boxBytes ty c).take 8 = beBytes 4 (8 + c.length) ++ ty := by
  rw [boxBytes]
  exact List.take_left' (by simp [ht])

theorem boxBytes_drop4 (ty c : Bytes) : (boxBytes ty c).drop 4 = ty ++ c := by
  rw [boxBytes, List.append_assoc]
  exact List.drop_left' (by simp)

theorem boxBytes_ne_nil (ty c rest : Bytes) : ∃ b l, boxBytes ty c ++ rest = b :: l := by
  cases h : boxBytes ty c ++ rest with
  | nil =>
    have := congrArg List.length h
    simp [boxBytes_length] at this
  | cons b l => exact ⟨b, l, rfl⟩

/-- One step of the children loop at a well-formed box. -/
theorem filterKids_box (r : FilterRules σ) (n : Nat) {ty : Bytes} (c rest : Bytes) (s : σ)
    (ht : ty.length = 4) (hl : 8 + c.length < 2 ^ 32) :
    filterKids r (n + 1) (boxBytes ty c ++ rest) s =
      match filterBox r n ty (boxBytes ty c) s with
      | .error e => .error e
      | .ok (o, s') =>
        match filterKids r n rest s' with
        | .error e => .error e
        | .ok (os, s'') => .ok (o ++ os, s'') := by
  obtain ⟨b, l, hb⟩ := boxBytes_ne_nil ty c rest
  have h1 := boxBytes_size hl ty rest
  have h2 := boxBytes_type c rest ht
  have h3 := boxBytes_take c rest ht
  have h4 := boxBytes_drop c rest ht
  rw [hb] at h1 h2 h3 h4 ⊢
  rw [filterKids, h1]
  simp only [h2, h3, h4]
  rfl

/-- One step of the top-level loop at a well-formed box. -/
theorem filterTop_box (r : FilterRules σ) (n : Nat) {ty : Bytes} (c rest : Bytes) (s : σ)
    (ht : ty.length = 4) (hl : 8 + c.length < 2 ^ 32) :
    filterTop r (n + 1) (boxBytes ty c ++ rest) s =
      match (if ty ∈ r.top then filterBox r n ty (boxBytes ty c) s
        else .ok (boxBytes ty c, s)) with
      | .error e => .error e
      | .ok (o, s') =>
        match filterTop r n rest s' with
        | .error e => .error e
        | .ok ((os, bs), s'') =>
          .ok ((o ++ os, if 0 < o.length then (o.length, ty) :: bs else bs), s'') := by
  obtain ⟨b, l, hb⟩ := boxBytes_ne_nil ty c rest
  have h1 := boxBytes_size hl ty rest
  have h2 := boxBytes_type c rest ht
  have h3 := boxBytes_take c rest ht
  have h4 := boxBytes_drop c rest ht
  rw [hb] at h1 h2 h3 h4 ⊢
  rw [filterTop, h1]
  simp only [h2, h3, h4]
  rfl

/-- A container box is rebuilt with the filtered content and a fitting size. -/
theorem filterBox_node (r : FilterRules σ) (n : Nat) {ty : Bytes} (c : Bytes) (s : σ)
    (ht : ty.length = 4) (hc : ty ∈ r.composite) (hl : 8 + c.length < 2 ^ 32) :
    filterBox r (n + 1) ty (boxBytes ty c) s =
      match filterKids r n c s with
      | .error e => .error e
      | .ok (k, s') =>
        if 8 + k.length < 2 ^ 32 then .ok (boxBytes ty k, s') else .error .structError := by
  rw [filterBox, if_pos hc, boxBytes_drop8 c ht]
  cases hk : filterKids r n c s with
  | error e => rfl
  | ok x =>
    obtain ⟨k, s'⟩ := x
    simp only [boxBytes_take8 c ht, boxBytes_length, ht, List.length_append, beBytes_length]
    by_cases heq : k.length = c.length
    · rw [if_neg (by omega), if_pos (by omega)]
      rw [boxBytes, heq]
    · rw [if_pos (by omega)]
      by_cases hk' : 8 + k.length < 2 ^ 32
      · rw [if_pos hk']
        have : uint32ToStr ((4 + 4 + k.length : Nat) : Int) = .ok (beBytes 4 (8 + k.length)) := by
          rw [uint32ToStr, if_pos (by omega)]
          congr 2
        rw [this]
        simp only [List.append_assoc]
        rw [List.drop_left' (by simp)]
        simp [boxBytes]
      · rw [if_neg hk']
        have : uint32ToStr ((4 + 4 + k.length : Nat) : Int) = .error .structError := by
          rw [uint32ToStr, if_neg (by omega)]
        rw [this]

/-- Filtering the bytes of a well-formed forest is rewriting the forest. -/
theorem filterKids_forest (r : FilterRules σ) (f : Forest) : ∀ (n : Nat) (s : σ),
    f.Ok r.composite → f.bytes.length < n →
    filterKids r n f.bytes s = f.rewrite r.leaf s := by
  induction f with
  | nil => intro n s _ _; cases n <;> simp [Forest.bytes, Forest.rewrite, filterKids]
  | leaf ty p rest ih =>
    intro n s ok hn
    obtain ⟨ht, hc, hl, hr⟩ := ok
    simp only [Forest.bytes, List.length_append, boxBytes_length] at hn
    obtain ⟨m, rfl⟩ : ∃ m, n = m + 1 := ⟨n - 1, by omega⟩
    obtain ⟨k, rfl⟩ : ∃ k, m = k + 1 := ⟨m - 1, by omega⟩
    rw [Forest.bytes, filterKids_box r (k + 1) p rest.bytes s ht hl, Forest.rewrite]
    have : filterBox r (k + 1) ty (boxBytes ty p) s = r.leaf ty (boxBytes ty p) s := by
      rw [filterBox, if_neg hc]
    rw [this]
    cases r.leaf ty (boxBytes ty p) s with
    | error e => rfl
    | ok x =>
      obtain ⟨o, s'⟩ := x
      simp only
      rw [ih (k + 1) s' hr (by omega)]
      rfl
  | node ty kids rest ihk ihr =>
    intro n s ok hn
    obtain ⟨ht, hc, hl, hk, hr⟩ := ok
    simp only [Forest.bytes, List.length_append, boxBytes_length] at hn
    obtain ⟨m, rfl⟩ : ∃ m, n = m + 1 := ⟨n - 1, by omega⟩
    obtain ⟨k, rfl⟩ : ∃ k, m = k + 1 := ⟨m - 1, by omega⟩
    rw [Forest.bytes, filterKids_box r (k + 1) kids.bytes rest.bytes s ht hl, Forest.rewrite,
      filterBox_node r k kids.bytes s ht hc hl, ihk k s hk (by omega)]
    cases kids.rewrite r.leaf s with
    | error e => rfl
    | ok x =>
      obtain ⟨o, s'⟩ := x
      simp only
      by_cases h32 : 8 + o.length < 2 ^ 32
      · simp only [if_pos h32]
        rw [ihr (k + 1) s' hr (by omega)]
        rfl
      · simp only [if_neg h32]

/-- What `filter` returns for a list of rewritten boxes: the bytes and the list of
`output_top_level_boxes`. -/
def topResult (l : List (Bytes × Bytes)) : Bytes × List (Nat × Bytes) :=
  ((l.map Prod.snd).flatten,
    (l.filter (fun x => decide (0 < x.2.length))).map (fun x => (x.2.length, x.1)))

theorem topResult_cons (ty o : Bytes) (l : List (Bytes × Bytes)) :
    topResult ((ty, o) :: l) = (o ++ (topResult l).1,
      if 0 < o.length then (o.length, ty) :: (topResult l).2 else (topResult l).2) := by
  simp only [topResult, List.map_cons, List.flatten_cons, List.filter_cons]
  by_cases h : 0 < o.length <;> simp [h]

theorem filterTop_forest (r : FilterRules σ) (f : Forest) : ∀ (n : Nat) (s : σ),
    f.Ok r.composite → f.bytes.length < n →
    filterTop r n f.bytes s =
      match f.rewriteTop r.leaf r.top s with
      | .error e => .error e
      | .ok (l, s') => .ok (topResult l, s') := by
  induction f with
  | nil =>
    intro n s _ _
    cases n <;> simp [Forest.bytes, Forest.rewriteTop, filterTop, topResult]
  | leaf ty p rest ih =>
    intro n s ok hn
    obtain ⟨ht, hc, hl, hr⟩ := ok
    simp only [Forest.bytes, List.length_append, boxBytes_length] at hn
    obtain ⟨m, rfl⟩ : ∃ m, n = m + 1 := ⟨n - 1, by omega⟩
    obtain ⟨k, rfl⟩ : ∃ k, m = k + 1 := ⟨m - 1, by omega⟩
    rw [Forest.bytes, filterTop_box r (k + 1) p rest.bytes s ht hl, Forest.rewriteTop]
    have hb : filterBox r (k + 1) ty (boxBytes ty p) s
        = (Forest.leaf ty p .nil).rewrite r.leaf s := by
      rw [filterBox, if_neg hc, Forest.rewrite]
      cases r.leaf ty (boxBytes ty p) s with
      | error e => rfl
      | ok x => obtain ⟨o, s'⟩ := x; simp [Forest.rewrite]
    rw [hb]
    cases hx : (if ty ∈ r.top then (Forest.leaf ty p .nil).rewrite r.leaf s
        else .ok (boxBytes ty p, s)) with
    | error e => rfl
    | ok x =>
      obtain ⟨o, s'⟩ := x
      simp only
      rw [ih (k + 1) s' hr (by omega)]
      cases rest.rewriteTop r.leaf r.top s' with
      | error e => rfl
      | ok y =>
        obtain ⟨l, s''⟩ := y
        simp only [topResult_cons]
  | node ty kids rest ihk ihr =>
    intro n s ok hn
    obtain ⟨ht, hc, hl, hk, hr⟩ := ok
    simp only [Forest.bytes, List.length_append, boxBytes_length] at hn
    obtain ⟨m, rfl⟩ : ∃ m, n = m + 1 := ⟨n - 1, by omega⟩
    obtain ⟨k, rfl⟩ : ∃ k, m = k + 1 := ⟨m - 1, by omega⟩
    rw [Forest.bytes, filterTop_box r (k + 1) kids.bytes rest.bytes s ht hl, Forest.rewriteTop]
    have hb : filterBox r (k + 1) ty (boxBytes ty kids.bytes) s
        = (Forest.node ty kids .nil).rewrite r.leaf s := by
      rw [filterBox_node r k kids.bytes s ht hc hl, Forest.rewrite,
        filterKids_forest r kids k s hk (by omega)]
      cases kids.rewrite r.leaf s with
      | error e => rfl
      | ok x =>
        obtain ⟨o, s'⟩ := x
        simp [Forest.rewrite]
    rw [hb]
    cases hx : (if ty ∈ r.top then (Forest.node ty kids .nil).rewrite r.leaf s
        else .ok (boxBytes ty kids.bytes, s)) with
    | error e => rfl
    | ok x =>
      obtain ⟨o, s'⟩ := x
      simp only
      rw [ihr (k + 1) s' hr (by omega)]
      cases rest.rewriteTop r.leaf r.top s' with
      | error e => rfl
      | ok y =>
        obtain ⟨l, s''⟩ := y
        simp only [topResult_cons]

/-- Well-formed byte strings are exactly the serialisations of forests. -/
theorem boxSeq_iff_forest (comp : List Bytes) (d : Bytes) :
    BoxSeq comp d ↔ ∃ f : Forest, f.Ok comp ∧ f.bytes = d := by
  constructor
  · intro h
    have hsize : ∀ {size : Bytes} {n : Nat}, size.length = 4 → beVal size = n →
        n < 2 ^ 32 ∧ size = beBytes 4 n := by
      intro size n h4 hv
      have hlt := beVal_lt size
      rw [h4, hv] at hlt
      refine ⟨by simpa using hlt, ?_⟩
      rw [← hv, ← h4, beBytes_beVal]
    induction h with
    | nil => exact ⟨.nil, trivial, rfl⟩
    | plain size ty payload rest hs ht hv hc _ ih =>
      obtain ⟨f, hf, hb⟩ := ih
      obtain ⟨h32, he⟩ := hsize hs hv
      refine ⟨.leaf ty payload f, ⟨ht, hc, h32, hf⟩, ?_⟩
      rw [Forest.bytes, hb, he, boxBytes]
    | container size ty kids rest hs ht hv hc _ _ ihk ihr =>
      obtain ⟨fk, hfk, hbk⟩ := ihk
      obtain ⟨f, hf, hb⟩ := ihr
      obtain ⟨h32, he⟩ := hsize hs hv
      refine ⟨.node ty fk f, ⟨ht, hc, by rw [hbk]; exact h32, hfk, hf⟩, ?_⟩
      rw [Forest.bytes, hb, he, boxBytes, hbk]
  · rintro ⟨f, hf, rfl⟩
    induction f with
    | nil => exact .nil
    | leaf ty p rest ih =>
      obtain ⟨ht, hc, hl, hr⟩ := hf
      exact BoxSeq.plain (beBytes 4 (8 + p.length)) ty p _ (by simp) ht
        (beVal_beBytes_of_lt (by simpa using hl)) hc (ih hr)
    | node ty kids rest ihk ihr =>
      obtain ⟨ht, hc, hl, hk, hr⟩ := hf
      exact BoxSeq.container (beBytes 4 (8 + kids.bytes.length)) ty kids.bytes _ (by simp) ht
        (beVal_beBytes_of_lt (by simpa using hl)) hc (ihk hk) (ihr hr)

theorem boxSeq_append {comp : List Bytes} {d e : Bytes} (hd : BoxSeq comp d)
    (he : BoxSeq comp e) : BoxSeq comp (d ++ e) := by
  induction hd with
  | nil => exact he
  | plain size ty payload rest hs ht hv hc _ ih =>
    rw [List.append_assoc]
    exact BoxSeq.plain size ty payload _ hs ht hv hc ih
  | container size ty kids rest hs ht hv hc hk _ _ ihr =>
    rw [List.append_assoc]
    exact BoxSeq.container size ty kids _ hs ht hv hc hk ihr

/-- Rewriting keeps well-formedness when every rewritten plain box is a box sequence. -/
theorem rewrite_boxSeq {comp : List Bytes} {f : Bytes → Bytes → σ → Py (Bytes × σ)}
    (hf : ∀ ty p s o s', ty.length = 4 → ty ∉ comp → 8 + p.length < 2 ^ 32 →
      f ty (boxBytes ty p) s = .ok (o, s') → BoxSeq comp o) (t : Forest) :
    ∀ s o s', t.Ok comp → t.rewrite f s = .ok (o, s') → BoxSeq comp o := by
  induction t with
  | nil =>
    intro s o s' _ h
    simp only [Forest.rewrite, Except.ok.injEq, Prod.mk.injEq] at h
    rw [← h.1]; exact .nil
  | leaf ty p rest ih =>
    intro s o s' ok h
    obtain ⟨ht, hc, hl, hr⟩ := ok
    rw [Forest.rewrite] at h
    cases h1 : f ty (boxBytes ty p) s with
    | error e => rw [h1] at h; cases h
    | ok x =>
      obtain ⟨o1, s1⟩ := x
      rw [h1] at h
      simp only at h
      cases h2 : rest.rewrite f s1 with
      | error e => rw [h2] at h; cases h
      | ok y =>
        obtain ⟨o2, s2⟩ := y
        rw [h2] at h
        simp only [Except.ok.injEq, Prod.mk.injEq] at h
        rw [← h.1]
        exact boxSeq_append (hf ty p s o1 s1 ht hc hl h1) (ih s1 o2 s2 hr h2)
  | node ty kids rest ihk ihr =>
    intro s o s' ok h
    obtain ⟨ht, hc, hl, hk, hr⟩ := ok
    rw [Forest.rewrite] at h
    cases h1 : kids.rewrite f s with
    | error e => rw [h1] at h; cases h
    | ok x =>
      obtain ⟨o1, s1⟩ := x
      rw [h1] at h
      simp only at h
      by_cases h32 : 8 + o1.length < 2 ^ 32
      · rw [if_pos h32] at h
        cases h2 : rest.rewrite f s1 with
        | error e => rw [h2] at h; cases h
        | ok y =>
          obtain ⟨o2, s2⟩ := y
          rw [h2] at h
          simp only [Except.ok.injEq, Prod.mk.injEq] at h
          rw [← h.1]
          exact BoxSeq.container (beBytes 4 (8 + o1.length)) ty o1 _ (by simp) ht
            (beVal_beBytes_of_lt (by simpa using h32)) hc (ihk s o1 s1 hk h1)
            (ihr s1 o2 s2 hr h2)
      · rw [if_neg h32] at h; cases h

theorem rewriteTop_boxSeq {comp : List Bytes} {f : Bytes → Bytes → σ → Py (Bytes × σ)}
    (hf : ∀ ty p s o s', ty.length = 4 → ty ∉ comp → 8 + p.length < 2 ^ 32 →
      f ty (boxBytes ty p) s = .ok (o, s') → BoxSeq comp o) (top : List Bytes) (t : Forest) :
    ∀ s l s', t.Ok comp → t.rewriteTop f top s = .ok (l, s') →
      BoxSeq comp (l.map Prod.snd).flatten := by
  induction t with
  | nil =>
    intro s l s' _ h
    simp only [Forest.rewriteTop, Except.ok.injEq, Prod.mk.injEq] at h
    rw [← h.1]; exact .nil
  | leaf ty p rest ih =>
    intro s l s' ok h
    have hself : (Forest.leaf ty p .nil).Ok comp := ⟨ok.1, ok.2.1, ok.2.2.1, trivial⟩
    obtain ⟨ht, hc, hl, hr⟩ := ok
    rw [Forest.rewriteTop] at h
    cases h1 : (if ty ∈ top then (Forest.leaf ty p .nil).rewrite f s
        else .ok (boxBytes ty p, s)) with
    | error e => rw [h1] at h; cases h
    | ok x =>
      obtain ⟨o1, s1⟩ := x
      rw [h1] at h
      simp only at h
      have hb : BoxSeq comp o1 := by
        split at h1
        · exact rewrite_boxSeq hf _ s o1 s1 hself h1
        · simp only [Except.ok.injEq, Prod.mk.injEq] at h1
          rw [← h1.1, boxSeq_iff_forest]
          exact ⟨_, hself, by simp [Forest.bytes]⟩
      cases h2 : rest.rewriteTop f top s1 with
      | error e => rw [h2] at h; cases h
      | ok y =>
        obtain ⟨l2, s2⟩ := y
        rw [h2] at h
        simp only [Except.ok.injEq, Prod.mk.injEq] at h
        rw [← h.1]
        simp only [List.map_cons, List.flatten_cons]
        exact boxSeq_append hb (ih s1 l2 s2 hr h2)
  | node ty kids rest ihk ih =>
    intro s l s' ok h
    have hself : (Forest.node ty kids .nil).Ok comp := ⟨ok.1, ok.2.1, ok.2.2.1, ok.2.2.2.1, trivial⟩
    obtain ⟨ht, hc, hl, hk, hr⟩ := ok
    rw [Forest.rewriteTop] at h
    cases h1 : (if ty ∈ top then (Forest.node ty kids .nil).rewrite f s
        else .ok (boxBytes ty kids.bytes, s)) with
    | error e => rw [h1] at h; cases h
    | ok x =>
      obtain ⟨o1, s1⟩ := x
      rw [h1] at h
      simp only at h
      have hb : BoxSeq comp o1 := by
        split at h1
        · exact rewrite_boxSeq hf _ s o1 s1 hself h1
        · simp only [Except.ok.injEq, Prod.mk.injEq] at h1
          rw [← h1.1, boxSeq_iff_forest]
          exact ⟨_, hself, by simp [Forest.bytes]⟩
      cases h2 : rest.rewriteTop f top s1 with
      | error e => rw [h2] at h; cases h
      | ok y =>
        obtain ⟨l2, s2⟩ := y
        rw [h2] at h
        simp only [Except.ok.injEq, Prod.mk.injEq] at h
        rw [← h.1]
        simp only [List.map_cons, List.flatten_cons]
        exact boxSeq_append hb (ih s1 l2 s2 hr h2)

/-- A rule that never changes a box copies the forest. -/
theorem rewrite_id {f : Bytes → Bytes → σ → Py (Bytes × σ)} {comp : List Bytes}
    (hf : ∀ ty p s, ∃ s', f ty (boxBytes ty p) s = .ok (boxBytes ty p, s')) (t : Forest) :
    ∀ s, t.Ok comp → ∃ s', t.rewrite f s = .ok (t.bytes, s') := by
  induction t with
  | nil => intro s _; exact ⟨s, rfl⟩
  | leaf ty p rest ih =>
    intro s ok
    obtain ⟨s1, h1⟩ := hf ty p s
    obtain ⟨s2, h2⟩ := ih s1 ok.2.2.2
    exact ⟨s2, by rw [Forest.rewrite, h1]; simp only [h2]; rfl⟩
  | node ty kids rest ihk ihr =>
    intro s ok
    obtain ⟨s1, h1⟩ := ihk s ok.2.2.2.1
    obtain ⟨s2, h2⟩ := ihr s1 ok.2.2.2.2
    exact ⟨s2, by rw [Forest.rewrite, h1]; simp only [if_pos ok.2.2.1, h2]; rfl⟩

end Verif
