import Verif.Props.XmlText
import Verif.Lemmas.Find
import Verif.Lemmas.XlinkIds
/-
Texts and elements that can be written in a manifest, and what keeps them so.
-/
namespace Verif
open Spec

/-! ### Texts -/

instance (t : Text) : Decidable (GoodText t) := inferInstanceAs (Decidable (_ ∧ _))

/-- `GoodText` for values of attributes, which may contain carriage returns. -/
def GoodValue (t : Text) : Prop := (∀ c ∈ t, isXmlChar c = true ∨ c = '\r') ∧ Untouched t

instance (t : Text) : Decidable (GoodValue t) := inferInstanceAs (Decidable (_ ∧ _))

theorem Spec.GoodText.value {t : Text} (h : GoodText t) : GoodValue t := ⟨fun c hc => .inl (h.1 c hc), h.2⟩

/-- Characters of the texts that the code makes from numbers. -/
def calm (c : Char) : Bool := decide (32 ≤ c.toNat) && decide (c.toNat < 127) && c ≠ 'n' && c ≠ 'x'

theorem calm_good {t : Text} (h : t.all calm = true) : GoodText t := by
  rw [List.all_eq_true] at h
  refine ⟨fun c hc => ?_, fun hi => ?_, fun hi => ?_⟩
  · have := h c hc
    simp only [calm, Bool.and_eq_true, decide_eq_true_eq] at this
    unfold isXmlChar
    have h1 := this.1.1.1
    have h2 := this.1.1.2
    simp only [Bool.or_eq_true, Bool.and_eq_true, decide_eq_true_eq]
    right
    exact ⟨⟨h1, by omega⟩, by omega⟩
  · have := h 'n' (hi.subset (by decide +kernel))
    exact absurd this (by decide)
  · have := h 'x' (hi.subset (by decide +kernel))
    exact absurd this (by decide)

theorem untouched_infix {a b : Text} (h : a <:+: b) (hb : Untouched b) : Untouched a :=
  ⟨fun hi => hb.1 (hi.trans h), fun hi => hb.2 (hi.trans h)⟩

/-- A character that is in none of the replaced pieces. -/
def Divides (d : Char) : Prop := d ∉ "ns0:".toList ∧ d ∉ "xmlns:ns0=".toList

instance (d : Char) : Decidable (Divides d) := inferInstanceAs (Decidable (_ ∧ _))

theorem not_infix_cons {f d : Char} {q r : Text} (hd : d ≠ f) (h : ¬(f :: q) <:+: r) : ¬(f :: q) <:+: d :: r := by
  intro hi
  rw [List.infix_cons_iff] at hi
  rcases hi with hp | hi
  · rw [List.cons_prefix_cons] at hp
    exact hd hp.1.symm
  · exact h hi

theorem untouched_join {d : Char} (hd : Divides d) {a b : Text} (ha : Untouched a) (hb : Untouched b) :
    Untouched (a ++ d :: b) := by
  obtain ⟨d1, d2⟩ := hd
  unfold Untouched at *
  rw [str_ns0, str_xmlns] at *
  rw [List.mem_cons, not_or] at d1 d2
  exact ⟨infix_next d1.2 ha.1 (not_infix_cons d1.1 hb.1), infix_next d2.2 ha.2 (not_infix_cons d2.1 hb.2)⟩

/-- Something that starts with a divider and has none of the letters at which the pieces start. -/
theorem untouched_put {d : Char} (hd : Divides d) {a w b : Text} (ha : Untouched a) (h1 : 'n' ∉ w) (h2 : 'x' ∉ w)
    (hb : Untouched b) : Untouched (a ++ d :: (w ++ b)) := by
  refine untouched_join hd ha ?_
  unfold Untouched at *
  rw [str_ns0, str_xmlns] at *
  exact ⟨infix_skip h1 hb.1, infix_skip h2 hb.2⟩

theorem untouched_nil : Untouched [] := by decide +kernel

theorem Spec.GoodText.join {d : Char} (hd : Divides d) (hx : isXmlChar d = true) {a b : Text} (ha : GoodText a)
    (hb : GoodText b) : GoodText (a ++ d :: b) := by
  refine ⟨?_, untouched_join hd ha.2 hb.2⟩
  intro c hc
  rcases List.mem_append.mp hc with h | h
  · exact ha.1 c h
  · rcases List.mem_cons.mp h with rfl | h
    · exact hx
    · exact hb.1 c h

theorem GoodValue.join {d : Char} (hd : Divides d) (hx : isXmlChar d = true) {a b : Text} (ha : GoodValue a)
    (hb : GoodValue b) : GoodValue (a ++ d :: b) := by
  refine ⟨?_, untouched_join hd ha.2 hb.2⟩
  intro c hc
  rcases List.mem_append.mp hc with h | h
  · exact ha.1 c h
  · rcases List.mem_cons.mp h with rfl | h
    · exact .inl hx
    · exact hb.1 c h

theorem Spec.GoodText.infix {a b : Text} (h : a <:+: b) (hb : GoodText b) : GoodText a :=
  ⟨fun c hc => hb.1 c (h.subset hc), untouched_infix h hb.2⟩

theorem GoodValue.infix {a b : Text} (h : a <:+: b) (hb : GoodValue b) : GoodValue a :=
  ⟨fun c hc => hb.1 c (h.subset hc), untouched_infix h hb.2⟩

theorem goodText_nil : GoodText [] := ⟨by simp, untouched_nil⟩

theorem divides_slash : Divides '/' := by decide +kernel
theorem divides_comma : Divides ',' := by decide +kernel

theorem Spec.GoodText.slash {a b : Text} (ha : GoodText a) (hb : GoodText b) : GoodText (a ++ '/' :: b) :=
  ha.join divides_slash (by decide +kernel) hb

theorem goodText_joinSlash : ∀ {l : List Text}, (∀ p ∈ l, GoodText p) → GoodText (joinSlash l)
  | [], _ => goodText_nil
  | [p], h => h p (by simp)
  | p :: q :: ps, h => by
    rw [joinSlash]
    · exact (h p (by simp)).slash (goodText_joinSlash (fun x hx => h x (List.mem_cons_of_mem _ hx)))
    · simp

theorem goodText_joinWith : ∀ {l : List Text}, (∀ p ∈ l, GoodText p) → GoodText (joinWith '/' l)
  | [], _ => goodText_nil
  | [p], h => h p (by simp)
  | p :: q :: ps, h => by
    rw [joinWith]
    exact (h p (by simp)).slash (goodText_joinWith (fun x hx => h x (List.mem_cons_of_mem _ hx)))

theorem goodValue_joinWith : ∀ {l : List Text}, (∀ p ∈ l, GoodValue p) → GoodValue (joinWith ',' l)
  | [], _ => goodText_nil.value
  | [p], h => h p (by simp)
  | p :: q :: ps, h => by
    rw [joinWith]
    exact (h p (by simp)).join divides_comma (by decide +kernel)
      (goodValue_joinWith (fun x hx => h x (List.mem_cons_of_mem _ hx)))

/-- The parts of a text. -/
theorem splitChar_infix (c : Char) (t : Text) : ∀ p ∈ splitChar c t, p <:+: t := by
  have key : ∀ t : Text, ∃ y ys, splitChar c t = y :: ys ∧ y <+: t ∧ ∀ p ∈ ys, p <:+: t := by
    intro t
    induction t with
    | nil => exact ⟨[], [], rfl, List.nil_prefix, by simp⟩
    | cons x xs ih =>
      obtain ⟨y, ys, e, h1, h2⟩ := ih
      unfold splitChar
      split
      · refine ⟨[], splitChar c xs, rfl, List.nil_prefix, ?_⟩
        rw [e]
        intro p hp
        rcases List.mem_cons.mp hp with rfl | hp
        · exact h1.isInfix.trans (List.suffix_cons _ _).isInfix
        · exact (h2 p hp).trans (List.suffix_cons _ _).isInfix
      · rw [e]
        exact ⟨x :: y, ys, rfl, by rw [List.cons_prefix_cons]; exact ⟨rfl, h1⟩,
          fun p hp => (h2 p hp).trans (List.suffix_cons _ _).isInfix⟩
  obtain ⟨y, ys, e, h1, h2⟩ := key t
  rw [e]
  intro p hp
  rcases List.mem_cons.mp hp with rfl | hp
  · exact h1.isInfix
  · exact h2 p hp

theorem splitSlashes_infix (t : Text) : ∀ p ∈ splitSlashes t, p <:+: t := by
  have key : ∀ t : Text, ∃ y ys, splitSlashes t = y :: ys ∧ y <+: t ∧ ∀ p ∈ ys, p <:+: t := by
    intro t
    fun_induction splitSlashes t with
    | case1 => exact ⟨[], [], rfl, List.nil_prefix, by simp⟩
    | case2 xs ih =>
      obtain ⟨y, ys, e, h1, h2⟩ := ih
      refine ⟨[], splitSlashes xs, rfl, List.nil_prefix, ?_⟩
      rw [e]
      have hs : xs <:+: '/' :: '/' :: xs := ((List.suffix_cons _ _).trans (List.suffix_cons _ _)).isInfix
      intro p hp
      rcases List.mem_cons.mp hp with rfl | hp
      · exact h1.isInfix.trans hs
      · exact (h2 p hp).trans hs
    | case3 x xs _ he ih =>
      obtain ⟨y, ys, e, h1, h2⟩ := ih
      rw [he] at e; cases e
    | case4 x xs _ y' ys' he ih =>
      obtain ⟨y, ys, e, h1, h2⟩ := ih
      rw [he] at e; cases e
      exact ⟨x :: y', ys', rfl, by rw [List.cons_prefix_cons]; exact ⟨rfl, h1⟩,
        fun p hp => (h2 p hp).trans (List.suffix_cons _ _).isInfix⟩
  obtain ⟨y, ys, e, h1, h2⟩ := key t
  rw [e]
  intro p hp
  rcases List.mem_cons.mp hp with rfl | hp
  · exact h1.isInfix
  · exact h2 p hp

/-- Replacing by something that starts with a divider and has none of the letters at which the pieces start. -/
theorem untouched_replace {old : Text} {d : Char} {w : Text} (hd : Divides d) (h1 : 'n' ∉ w) (h2 : 'x' ∉ w) :
    ∀ (n : Nat) (t pre : Text), Untouched (pre ++ t) → Untouched (pre ++ replaceText old (d :: w) n t)
  | 0, t, pre, h => h
  | n + 1, [], pre, h => h
  | n + 1, c :: cs, pre, h => by
    unfold replaceText
    split
    · rw [List.cons_append]
      refine untouched_put hd (untouched_infix (List.prefix_append _ _).isInfix h) h1 h2 ?_
      have := untouched_replace hd h1 h2 (old := old) n ((c :: cs).drop old.length) []
        (untouched_infix (((List.drop_suffix _ _).trans (List.suffix_append pre _)).isInfix) h)
      simpa using this
    · have := untouched_replace hd h1 h2 (old := old) n cs (pre ++ [c]) (by simpa using h)
      simpa using this

theorem replaceText_mem {old new : Text} : ∀ (n : Nat) (t : Text), ∀ c ∈ replaceText old new n t, c ∈ new ∨ c ∈ t
  | 0, t, c, h => .inr h
  | n + 1, [], c, h => .inr h
  | n + 1, x :: xs, c, h => by
    unfold replaceText at h
    split at h
    · rcases List.mem_append.mp h with h | h
      · exact .inl h
      · rcases replaceText_mem n _ c h with h | h
        · exact .inl h
        · exact .inr (List.mem_of_mem_drop h)
    · rcases List.mem_cons.mp h with rfl | h
      · exact .inr (by simp)
      · rcases replaceText_mem n _ c h with h | h
        · exact .inl h
        · exact .inr (List.mem_cons_of_mem _ h)

theorem untouched_subRel {key : Text} {d : Char} {w : Text} (hd : Divides d) (h1 : 'n' ∉ w) (h2 : 'x' ∉ w) :
    ∀ (n : Nat) (t pre : Text), Untouched (pre ++ t) → Untouched (pre ++ subRel key (d :: w) n t)
  | 0, t, pre, h => h
  | n + 1, [], pre, h => h
  | n + 1, c :: cs, pre, h => by
    have hkeep : Untouched (pre ++ c :: subRel key (d :: w) n cs) := by
      have := untouched_subRel hd h1 h2 (key := key) n cs (pre ++ [c]) (by simpa using h)
      simpa using this
    unfold subRel
    split
    · split
      · rename_i x rest hx
        split
        · rw [List.cons_append]
          refine untouched_put hd (untouched_infix (List.prefix_append _ _).isInfix h) h1 h2 ?_
          have hs : rest.dropWhile relChar <:+ pre ++ c :: cs :=
            ((List.dropWhile_suffix _).trans (List.suffix_cons x rest)).trans
              ((hx ▸ List.drop_suffix _ _).trans (List.suffix_append pre _))
          have := untouched_subRel hd h1 h2 (key := key) n (rest.dropWhile relChar) [] (untouched_infix hs.isInfix h)
          simpa using this
        · exact hkeep
      · exact hkeep
    · exact hkeep

theorem subRel_mem {key new : Text} : ∀ (n : Nat) (t : Text), ∀ c ∈ subRel key new n t, c ∈ new ∨ c ∈ t
  | 0, t, c, h => .inr h
  | n + 1, [], c, h => .inr h
  | n + 1, x :: xs, c, h => by
    have hkeep : c ∈ x :: subRel key new n xs → c ∈ new ∨ c ∈ x :: xs := by
      intro h
      rcases List.mem_cons.mp h with rfl | h
      · exact .inr (by simp)
      · rcases subRel_mem n _ c h with h | h
        · exact .inl h
        · exact .inr (List.mem_cons_of_mem _ h)
    unfold subRel at h
    split at h
    · split at h
      · rename_i y rest hy
        split at h
        · rcases List.mem_append.mp h with h | h
          · exact .inl h
          · rcases subRel_mem n _ c h with h | h
            · exact .inl h
            · have hs : rest.dropWhile relChar <:+ x :: xs :=
                ((List.dropWhile_suffix _).trans (List.suffix_cons y rest)).trans (hy ▸ List.drop_suffix _ _)
              exact .inr (hs.subset h)
        · exact hkeep h
      · exact hkeep h
    · exact hkeep h

/-! ### Texts made from numbers -/

theorem calm_digit {c : Char} (h : IsDigit c) : calm c = true := by
  obtain ⟨d, hd, rfl⟩ := h
  have : ∀ d < 10, calm (digitChar d) = true := by decide +kernel
  exact this d hd

theorem calm_natText (n : Nat) : (natText n).all calm = true := by
  rw [List.all_eq_true]
  exact fun c hc => calm_digit (natText_digits n c hc)

theorem calm_intText (n : Int) : (intText n).all calm = true := by
  rw [List.all_eq_true]
  intro c hc
  rcases intText_chars n c hc with rfl | h
  · decide
  · exact calm_digit h

theorem calm_append {a b : Text} (ha : a.all calm = true) (hb : b.all calm = true) : (a ++ b).all calm = true := by
  rw [List.all_append, ha, hb]; rfl

theorem calm_cons {c : Char} {b : Text} (hc : calm c = true) (hb : b.all calm = true) : (c :: b).all calm = true := by
  rw [List.all_cons, hc, hb]; rfl

theorem calm_digits2 {n : Int} (h0 : 0 ≤ n) (h1 : n < 100) : (digits2 n).all calm = true := by
  unfold digits2
  exact calm_cons (calm_digit (isDigit_digitChar (by omega))) (calm_cons (calm_digit (isDigit_digitChar (by omega))) rfl)

theorem calm_makeTimestamp (x : Rat) : (makeTimestamp x).all calm = true := by
  obtain ⟨y0, y1, y2⟩ := calYear_eq (x.floor / 86400)
  obtain ⟨m0, m1, d0, d1, md, mn⟩ := calMonth_eq _ _ y0 y1
  set Y := calYear (x.floor / 86400)
  set M := calMonth (monthLens Y.1) 1 Y.2
  show (intText Y.1 ++ '-' :: digits2 M.1 ++ '-' :: digits2 (M.2 + 1) ++
      'T' :: digits2 (x.floor % 86400 / 3600) ++ ':' :: digits2 (x.floor % 3600 / 60) ++
      ':' :: digits2 (x.floor % 60) ++ "Z".toList).all calm = true
  refine calm_append (calm_append (calm_append (calm_append (calm_append (calm_append (calm_intText _) ?_) ?_) ?_) ?_) ?_)
    (by decide +kernel)
  all_goals exact calm_cons (by decide) (calm_digits2 (by omega) (by omega))

theorem calm_secondsToIso (x : Rat) : (secondsToIso x).all calm = true := by
  unfold secondsToIso
  dsimp only
  have hif : ∀ (P : Prop) [Decidable P] (n : Int) (u : Text), u.all calm = true →
      (if P then intText n ++ u else []).all calm = true := by
    intro P _ n u hu
    split
    · exact calm_append (calm_intText _) hu
    · rfl
  refine calm_append (calm_append (calm_append (calm_append (calm_append (by decide +kernel) ?_) (by decide +kernel)) ?_) ?_) ?_
  all_goals exact hif _ _ _ (by decide +kernel)

theorem calm_ptText (n : Int) : (ptText n).all calm = true :=
  calm_append (calm_append (by decide +kernel) (calm_intText _)) (by decide +kernel)

theorem calm_fText (x : Rat) : (fText x).all calm = true := by
  unfold fText
  dsimp only
  refine calm_append (calm_append ?_ (calm_natText _)) (calm_cons (by decide) ?_)
  · split
    · decide +kernel
    · rfl
  · rw [List.all_eq_true]
    intro c hc
    obtain ⟨i, _, rfl⟩ := List.mem_map.mp hc
    exact calm_digit (isDigit_digitChar (Nat.mod_lt _ (by decide)))

/-! ### Elements -/

/-- A name of an attribute that the code sets. -/
def GoodKey (k : Text) : Prop := NameOk k ∧ (treeName k).1 = none

instance (k : Text) : Decidable (GoodKey k) := inferInstanceAs (Decidable (_ ∧ _))

theorem treeName_none {q : Text} (h : (treeName q).1 = none) : (treeName q) = (none, q) := by
  unfold treeName at *
  split
  · simp at h
  · rfl

theorem mem_setAttr {k v : Text} : ∀ {a : List (Text × Text)} {p : Text × Text}, p ∈ setAttr k v a → p ∈ a ∨ p = (k, v)
  | [], p, h => .inr (by simpa [setAttr] using h)
  | (k', v') :: r, p, h => by
    unfold setAttr at h
    split at h
    · rename_i e
      rcases List.mem_cons.mp h with h | h
      · exact .inr (by rw [h, e])
      · exact .inl (List.mem_cons_of_mem _ h)
    · rcases List.mem_cons.mp h with h | h
      · exact .inl (by rw [h]; simp)
      · rcases mem_setAttr h with h | h
        · exact .inl (List.mem_cons_of_mem _ h)
        · exact .inr h

theorem setAttr_nodup {k v : Text} (hk : (treeName k).1 = none) : ∀ {a : List (Text × Text)},
    (a.map (fun p => treeName p.1)).Nodup → ((setAttr k v a).map (fun p => treeName p.1)).Nodup
  | [], _ => by simp [setAttr]
  | (k', v') :: r, h => by
    rw [List.map_cons, List.nodup_cons] at h
    unfold setAttr
    split
    · rw [List.map_cons, List.nodup_cons]; exact h
    · rename_i hne
      rw [List.map_cons, List.nodup_cons]
      refine ⟨?_, setAttr_nodup hk h.2⟩
      intro hm
      obtain ⟨p, hp, e⟩ := List.mem_map.mp hm
      rcases mem_setAttr hp with hp | rfl
      · exact h.1 (List.mem_map.mpr ⟨p, hp, e⟩)
      · dsimp only at e
        rw [treeName_none hk] at e
        have h1 : (treeName k').1 = none := by rw [← e]
        rw [treeName_none h1] at e
        simp only [Prod.mk.injEq, true_and] at e
        exact hne e.symm

section
variable {x : Xml}

theorem writable_iff {t : Text} {a : List (Text × Text)} {y : Text} {ks : List Xml} :
    Writable dashUri (.elem t a y ks) ↔ NodeOk dashUri t a y ∧ ∀ k ∈ ks, Writable dashUri k := by
  unfold Writable
  rw [Everywhere, everywhereAll_mem]

theorem Spec.Writable.kids (h : Writable dashUri x) : ∀ k ∈ x.kids, Writable dashUri k := by
  cases x; exact (writable_iff.mp h).2

theorem Spec.Writable.text (h : Writable dashUri x) : GoodText x.text := by
  cases x
  have := (writable_iff.mp h).1
  exact ⟨List.all_eq_true.mp this.2.2.2.1, this.2.2.2.2⟩

theorem Spec.Writable.get (h : Writable dashUri x) {k v : Text} (hg : x.get k = some v) : GoodValue v := by
  obtain ⟨t, a, y, ks⟩ := x
  have := (writable_iff.mp h).1.2.1
  unfold Xml.get at hg
  obtain ⟨p, hp, rfl⟩ := Option.map_eq_some_iff.mp hg
  exact (this p (List.mem_of_find?_eq_some hp)).2.2

theorem Spec.Writable.set (h : Writable dashUri x) {k v : Text} (hk : GoodKey k) (hv : GoodValue v) :
    Writable dashUri (x.set k v) := by
  obtain ⟨t, a, y, ks⟩ := x
  obtain ⟨⟨h1, h2, h3, h4⟩, h5⟩ := writable_iff.mp h
  refine writable_iff.mpr ⟨⟨h1, ?_, setAttr_nodup hk.2 h3, h4⟩, h5⟩
  intro p hp
  rcases mem_setAttr hp with hp | rfl
  · exact h2 p hp
  · exact ⟨hk.1, by rw [hk.2]; simp, hv⟩

theorem Spec.Writable.del (h : Writable dashUri x) (k : Text) : Writable dashUri (x.del k) := by
  obtain ⟨t, a, y, ks⟩ := x
  obtain ⟨⟨h1, h2, h3, h4⟩, h5⟩ := writable_iff.mp h
  exact writable_iff.mpr ⟨⟨h1, fun p hp => h2 p (List.mem_of_mem_filter hp),
    h3.sublist ((List.filter_sublist).map _), h4⟩, h5⟩

theorem Spec.Writable.setText (h : Writable dashUri x) {u : Text} (hu : GoodText u) : Writable dashUri (x.setText u) := by
  obtain ⟨t, a, y, ks⟩ := x
  obtain ⟨⟨h1, h2, h3, h4⟩, h5⟩ := writable_iff.mp h
  exact writable_iff.mpr ⟨⟨h1, h2, h3, by simpa using hu.1, hu.2⟩, h5⟩

theorem Spec.Writable.setKids (h : Writable dashUri x) {ks : List Xml} (hk : ∀ k ∈ ks, Writable dashUri k) :
    Writable dashUri (x.setKids ks) := by
  obtain ⟨t, a, y, ks'⟩ := x
  exact writable_iff.mpr ⟨(writable_iff.mp h).1, hk⟩

theorem writable_insertAt {ks : List Xml} (h : ∀ k ∈ ks, Writable dashUri k) {c : Xml} (hc : Writable dashUri c) (pos : Nat) :
    ∀ k ∈ insertAt pos c ks, Writable dashUri k := by
  intro k hk
  unfold insertAt at hk
  rcases List.mem_append.mp hk with hk | hk
  · exact h k (List.mem_of_mem_take hk)
  · rcases List.mem_cons.mp hk with rfl | hk
    · exact hc
    · exact h k (List.mem_of_mem_drop hk)

theorem Spec.Writable.insert (h : Writable dashUri x) (pos : Nat) {c : Xml} (hc : Writable dashUri c) :
    Writable dashUri (x.insert pos c) :=
  h.setKids (writable_insertAt h.kids hc pos)

/-- An element with at most one attribute whose value is not a fixed text. -/
theorem writable_leaf {t : Text} {a : List (Text × Text)} {y : Text} (ht : NameOk t)
    (ha : ∀ p ∈ a, GoodKey p.1 ∧ GoodValue p.2) (hn : (a.map (fun p => treeName p.1)).Nodup) (hy : GoodText y)
    {ks : List Xml} (hk : ∀ k ∈ ks, Writable dashUri k) : Writable dashUri (.elem t a y ks) :=
  writable_iff.mpr ⟨⟨ht, fun p hp => ⟨(ha p hp).1.1, by rw [(ha p hp).1.2]; simp, (ha p hp).2⟩, hn,
    by simpa using hy.1, hy.2⟩, hk⟩

theorem writable_mapTag {σ : Type} {tag : Text} {f : σ → Xml → Py (Xml × σ)}
    (hf : ∀ s x x' s', Writable dashUri x → f s x = .ok (x', s') → Writable dashUri x') :
    ∀ {ks : List Xml} {s : σ} {ks' : List Xml} {s' : σ}, (∀ k ∈ ks, Writable dashUri k) →
      mapTag tag f s ks = .ok (ks', s') → ∀ k ∈ ks', Writable dashUri k
  | [], s, ks', s', _, h => by simp only [mapTag, Except.ok.injEq, Prod.mk.injEq] at h; simp [← h.1]
  | y :: ys, s, ks', s', hk, h => by
    have ih := fun {s : σ} {ks' : List Xml} {s' : σ} => writable_mapTag (tag := tag) hf (ks := ys) (s := s) (ks' := ks') (s' := s')
      (fun k hm => hk k (List.mem_cons_of_mem _ hm))
    unfold mapTag at h
    split at h
    · split at h
      · cases h
      · rename_i y' s1 hy
        split at h
        · cases h
        · rename_i ys' s2 hys
          simp only [Except.ok.injEq, Prod.mk.injEq] at h
          rw [← h.1]
          intro k hm
          rcases List.mem_cons.mp hm with rfl | hm
          · exact hf _ _ _ _ (hk y (by simp)) hy
          · exact ih hys k hm
    · split at h
      · cases h
      · rename_i ys' s2 hys
        simp only [Except.ok.injEq, Prod.mk.injEq] at h
        rw [← h.1]
        intro k hm
        rcases List.mem_cons.mp hm with rfl | hm
        · exact hk _ (by simp)
        · exact ih hys k hm

end

end Verif
