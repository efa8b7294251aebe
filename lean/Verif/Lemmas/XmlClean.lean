import Verif.Lemmas.Replace
import Verif.Lemmas.Text
import Mathlib.Data.List.Nodup
import Verif.XmlText
import Verif.Spec.XmlReader
/-
What the two replacements of `get_full_xml` do to the text of a tree.
-/
namespace Verif
open Spec

theorem everywhere_mono {P Q : Text → List (Text × Text) → Text → Prop} (h : ∀ t a x, P t a x → Q t a x) :
    ∀ {x : Xml}, Everywhere P x → Everywhere Q x := by
  intro x
  refine Xml.rec (motive_1 := fun x => Everywhere P x → Everywhere Q x)
    (motive_2 := fun xs => EverywhereAll P xs → EverywhereAll Q xs) ?_ ?_ ?_ x
  · intro t a x ks ih
    rw [Everywhere, Everywhere]
    exact fun hx => ⟨h _ _ _ hx.1, ih hx.2⟩
  · intro _; rw [EverywhereAll]; trivial
  · intro k ks ih1 ih2
    rw [EverywhereAll, EverywhereAll]
    exact fun hx => ⟨ih1 hx.1, ih2 hx.2⟩

theorem escText_ok {f : Char} (h : f ∉ "&amp;lgt".toList) : EscapeOk f escText := by
  intro c
  have h' : f ∉ ['&', 'a', 'm', 'p', ';', 'l', 'g', 't'] := h
  simp only [List.mem_cons, List.not_mem_nil, or_false, not_or] at h'
  unfold escText
  split
  · exact .inr ⟨_, rfl, by show f ∉ ['&', 'a', 'm', 'p', ';']; simp [h']⟩
  split
  · exact .inr ⟨_, rfl, by show f ∉ ['&', 'l', 't', ';']; simp [h']⟩
  split
  · exact .inr ⟨_, rfl, by show f ∉ ['&', 'g', 't', ';']; simp [h']⟩
  · exact .inl rfl

theorem escAttr_ok {f : Char} (h : f ∉ "&amp;lgtquo#1309".toList) : EscapeOk f escAttr := by
  intro c
  have h' : f ∉ ['&', 'a', 'm', 'p', ';', 'l', 'g', 't', 'q', 'u', 'o', '#', '1', '3', '0', '9'] := h
  simp only [List.mem_cons, List.not_mem_nil, or_false, not_or] at h'
  unfold escAttr
  split
  · exact .inr ⟨_, rfl, by show f ∉ ['&', 'a', 'm', 'p', ';']; simp [h']⟩
  split
  · exact .inr ⟨_, rfl, by show f ∉ ['&', 'l', 't', ';']; simp [h']⟩
  split
  · exact .inr ⟨_, rfl, by show f ∉ ['&', 'g', 't', ';']; simp [h']⟩
  split
  · exact .inr ⟨_, rfl, by show f ∉ ['&', 'q', 'u', 'o', 't', ';']; simp [h']⟩
  split
  · exact .inr ⟨_, rfl, by show f ∉ ['&', '#', '1', '3', ';']; simp [h']⟩
  split
  · exact .inr ⟨_, rfl, by show f ∉ ['&', '#', '1', '0', ';']; simp [h']⟩
  split
  · exact .inr ⟨_, rfl, by show f ∉ ['&', '#', '0', '9', ';']; simp [h']⟩
  · exact .inl rfl

/-- What the replaced text must be so that it does not touch the marks of XML. -/
structure Outside (f : Char) (o : Text) : Prop where
  marks : ∀ c ∈ ['<', '>', '/', ' ', '"', '&'], c ∉ f :: o
  first : f ∉ "&amp;lgtquo#1309".toList

/-- A key with the equals sign and the quotation mark. -/
def KeyPass (f : Char) (o new n n' : Text) : Prop :=
  ∀ r, rep (f :: o) new (n ++ '=' :: '"' :: r) = n' ++ '=' :: '"' :: rep (f :: o) new r

/-- A tag. -/
def TagPass (f : Char) (o new n n' : Text) : Prop :=
  ∀ r, HeadOut (f :: o) r → rep (f :: o) new (n ++ r) = n' ++ rep (f :: o) new r

theorem rep_char {f : Char} {o : Text} (new : Text) {c : Char} (h : c ∉ f :: o) (r : Text) :
    rep (f :: o) new (c :: r) = c :: rep (f :: o) new r :=
  rep_free new (a := [c]) (by simp only [List.mem_singleton]; rintro rfl; exact h (by simp)) r

theorem rep_attr {f : Char} {o new : Text} (hO : Outside f o) {n n' v : Text} (hk : KeyPass f o new n n')
    (hv : ¬(f :: o) <:+: v) (r : Text) :
    rep (f :: o) new (attrText n v ++ r) = attrText n' v ++ rep (f :: o) new r := by
  unfold attrText
  have hq : '"' ∉ f :: o := hO.marks _ (by decide)
  simp only [List.cons_append, List.append_assoc, List.nil_append]
  rw [rep_char new (hO.marks ' ' (by decide)), hk,
    rep_escaped new (escAttr_ok hO.first) (hO.marks '&' (by decide)) hv, rep_char new hq]
  intro c hc
  simp only [List.head?_cons, Option.mem_def, Option.some.injEq] at hc
  rw [← hc]; exact hq

theorem rep_attrs {f : Char} {o new : Text} (hO : Outside f o) {qk qk' : Text → Text} :
    ∀ (a : List (Text × Text)), (∀ p ∈ a, KeyPass f o new (qk p.1) (qk' p.1) ∧ ¬(f :: o) <:+: p.2) → ∀ r,
    rep (f :: o) new (attrsText qk a ++ r) = attrsText qk' a ++ rep (f :: o) new r := by
  intro a
  induction a with
  | nil => intro _ r; rfl
  | cons p a ih =>
    intro h r
    have e : ∀ q : Text → Text, attrsText q (p :: a) = attrText (q p.1) p.2 ++ attrsText q a := fun _ => rfl
    rw [e, e, List.append_assoc, rep_attr hO (h p (by simp)).1 (h p (by simp)).2,
      ih (fun q hq => h q (by simp [hq])), List.append_assoc]

/-- The conditions at one element. -/
def PassAt (f : Char) (o new : Text) (qt qt' qk qk' : Text → Text) (t : Text) (a : List (Text × Text))
    (x : Text) : Prop :=
  TagPass f o new (qt t) (qt' t) ∧ (∀ p ∈ a, KeyPass f o new (qk p.1) (qk' p.1) ∧ ¬(f :: o) <:+: p.2) ∧
    ¬(f :: o) <:+: x

theorem headOut_cons {old r : Text} {c : Char} (h : c ∉ old) : HeadOut old (c :: r) := by
  intro d hd
  simp only [List.head?_cons, Option.mem_def, Option.some.injEq] at hd
  rw [← hd]; exact h

theorem headOut_append {old a b : Text} (ha : HeadOut old a) (hb : HeadOut old b) : HeadOut old (a ++ b) := by
  cases a with
  | nil => exact hb
  | cons c a => exact headOut_cons (ha c rfl)

theorem headOut_attrs {old : Text} (h : ' ' ∉ old) (qk : Text → Text) (a : List (Text × Text)) :
    HeadOut old (attrsText qk a) := by
  cases a with
  | nil => intro c hc; simp [attrsText] at hc
  | cons p a =>
    have e : attrsText qk (p :: a) = attrText (qk p.1) p.2 ++ attrsText qk a := rfl
    rw [e]; unfold attrText; exact headOut_cons h

theorem headOut_elems {old : Text} (h : '<' ∉ old) (qt qk : Text → Text) (ks : List Xml) :
    HeadOut old (elemsText qt qk ks) := by
  cases ks with
  | nil => intro c hc; simp [elemsText] at hc
  | cons k ks =>
    obtain ⟨t, a, x, k'⟩ := k
    rw [elemsText, elemText]; exact headOut_cons h

theorem rep_elem {f : Char} {o new : Text} (hO : Outside f o) {qt qt' qk qk' : Text → Text} (x : Xml) :
    ∀ {d d' : Text}, HeadOut (f :: o) d → (∀ r, rep (f :: o) new (d ++ r) = d' ++ rep (f :: o) new r) →
    Everywhere (PassAt f o new qt qt' qk qk') x → ∀ r,
    rep (f :: o) new (elemText qt qk d x ++ r) = elemText qt' qk' d' x ++ rep (f :: o) new r := by
  refine Xml.rec
    (motive_1 := fun x => ∀ {d d' : Text}, HeadOut (f :: o) d →
      (∀ r, rep (f :: o) new (d ++ r) = d' ++ rep (f :: o) new r) →
      Everywhere (PassAt f o new qt qt' qk qk') x → ∀ r,
      rep (f :: o) new (elemText qt qk d x ++ r) = elemText qt' qk' d' x ++ rep (f :: o) new r)
    (motive_2 := fun xs => EverywhereAll (PassAt f o new qt qt' qk qk') xs → ∀ r,
      rep (f :: o) new (elemsText qt qk xs ++ r) = elemsText qt' qk' xs ++ rep (f :: o) new r) ?_ ?_ ?_ x
  · intro t a x ks ih d d' hd hdd hE r
    rw [Everywhere] at hE
    obtain ⟨⟨ht, ha, hx⟩, hks⟩ := hE
    rw [elemText, elemText]
    have hlt := hO.marks '<' (by decide)
    have hgt := hO.marks '>' (by decide)
    have hsp := hO.marks ' ' (by decide)
    have hsl := hO.marks '/' (by decide)
    simp only [List.cons_append, List.append_assoc]
    rw [rep_char new hlt]
    by_cases hc : x = [] ∧ ks = []
    · have e : ∀ s : Text, " />".toList ++ s = ' ' :: '/' :: '>' :: s := fun _ => rfl
      rw [if_pos hc, if_pos hc, e, e, ht _ (headOut_append hd (headOut_append (headOut_attrs hsp qk a)
        (headOut_cons hsp))), hdd, rep_attrs hO a ha,
        rep_char new hsp, rep_char new hsl, rep_char new hgt]
    · rw [if_neg hc, if_neg hc]
      simp only [List.cons_append, List.append_assoc, List.nil_append]
      rw [ht _ (headOut_append hd (headOut_append (headOut_attrs hsp qk a) (headOut_cons hgt))), hdd,
        rep_attrs hO a ha, rep_char new hgt,
        rep_escaped new (escText_ok (fun hm => hO.first (by
          have : ∀ c ∈ "&amp;lgt".toList, c ∈ "&amp;lgtquo#1309".toList := by decide +kernel
          exact this f hm))) (hO.marks '&' (by decide)) hx
          (headOut_append (headOut_elems hlt qt qk ks) (headOut_cons hlt)),
        ih hks, rep_char new hlt, rep_char new hsl, ht _ (headOut_cons hgt), rep_char new hgt]
  · intro _ r; rfl
  · intro k ks ih1 ih2 hE r
    rw [EverywhereAll] at hE
    rw [elemsText, elemsText, List.append_assoc, ih1 (d := []) (d' := []) (fun c hc => by simp at hc) (fun _ => rfl) hE.1,
      ih2 hE.2, List.append_assoc]

/-! ### Prefixes -/

/-- What `_namespaces` makes. -/
structure NsOk (ns : List (Text × Text)) : Prop where
  keys : (ns.map (·.1)).Nodup
  at_ : ∀ i u p, ns[i]? = some (u, p) → (knownPrefix u = some p ∧ p ≠ "xml".toList) ∨
    (knownPrefix u = none ∧ p = "ns".toList ++ natText i)

theorem dictGet_mem {d : List (Text × Text)} {k v : Text} (h : dictGet d k = some v) : (k, v) ∈ d := by
  unfold dictGet at h
  obtain ⟨q, hq, rfl⟩ := Option.map_eq_some_iff.mp h
  have h1 := List.mem_of_find?_eq_some hq
  have h2 := List.find?_some hq
  simp only [decide_eq_true_eq] at h2
  rw [← h2]; exact h1

theorem dictGet_none {d : List (Text × Text)} {k : Text} (h : dictGet d k = none) : k ∉ d.map (·.1) := by
  unfold dictGet at h
  rw [Option.map_eq_none_iff, List.find?_eq_none] at h
  intro hm
  obtain ⟨q, hq, rfl⟩ := List.mem_map.mp hm
  exact h q hq (by simp)

theorem nsOk_nil : NsOk [] := ⟨by simp, by simp⟩

theorem nsOk_add {ns : List (Text × Text)} (h : NsOk ns) (u : Text) : NsOk (addUri ns u) := by
  unfold addUri
  split
  · exact h
  rename_i hd
  have hd : dictGet ns u = none := by simpa using hd
  dsimp only
  split
  · exact h
  rename_i hx
  refine ⟨?_, ?_⟩
  · rw [List.map_append, List.nodup_append]
    refine ⟨h.keys, by simp, ?_⟩
    intro a ha b hb
    simp only [List.map_cons, List.map_nil, List.mem_singleton] at hb
    rintro rfl
    exact dictGet_none hd (hb ▸ ha)
  · intro i v p hi
    rw [List.getElem?_append] at hi
    split at hi
    · exact h.at_ i v p hi
    · rename_i hlt
      have hi0 : i = ns.length := by
        by_contra hne
        rw [List.getElem?_eq_none (by simp; omega)] at hi
        exact absurd hi (by simp)
      subst hi0
      simp only [Nat.sub_self, List.getElem?_cons_zero, Option.some.injEq, Prod.mk.injEq] at hi
      obtain ⟨rfl, rfl⟩ := hi
      cases hk : knownPrefix u with
      | none => exact .inr ⟨rfl, rfl⟩
      | some q =>
        rw [hk] at hx
        exact .inl ⟨rfl, hx⟩

theorem nsOk_fold (us : List Text) {ns : List (Text × Text)} (h : NsOk ns) : NsOk (us.foldl addUri ns) := by
  induction us generalizing ns with
  | nil => exact h
  | cons u us ih => exact ih (nsOk_add h u)

theorem addUri_prefix (ns : List (Text × Text)) (u : Text) : ns <+: addUri ns u := by
  unfold addUri
  split
  · exact List.prefix_refl _
  dsimp only
  split
  · exact List.prefix_refl _
  · exact List.prefix_append _ _

theorem foldUri_prefix (us : List Text) (ns : List (Text × Text)) : ns <+: us.foldl addUri ns := by
  induction us generalizing ns with
  | nil => exact List.prefix_refl _
  | cons u us ih => exact (addUri_prefix ns u).trans (ih _)

theorem mem_dictGet {d : List (Text × Text)} (h : (d.map (·.1)).Nodup) {k v : Text} (hm : (k, v) ∈ d) :
    dictGet d k = some v := by
  cases hd : dictGet d k with
  | none => exact absurd (List.mem_map_of_mem (f := (·.1)) hm) (dictGet_none hd)
  | some w =>
    have := dictGet_mem hd
    have e := List.inj_on_of_nodup_map h hm this rfl
    simp only [Prod.mk.injEq, true_and] at e
    rw [e]

theorem addUri_has {ns : List (Text × Text)} (h : NsOk ns) (u : Text) :
    (dictGet (addUri ns u) u).isSome ∨ knownPrefix u = some "xml".toList := by
  by_cases hd : (dictGet ns u).isSome
  · left; unfold addUri; rw [if_pos hd]; exact hd
  · by_cases hx : (knownPrefix u).getD ("ns".toList ++ natText ns.length) = "xml".toList
    · right
      cases hk : knownPrefix u with
      | none =>
        rw [hk] at hx
        exact absurd (congrArg List.head? hx) (by
          show (some 'n' : Option Char) ≠ some 'x'; decide)
      | some q => rw [hk] at hx; exact congrArg some hx
    · left
      have hn := nsOk_add h u
      rw [mem_dictGet hn.keys (v := (knownPrefix u).getD ("ns".toList ++ natText ns.length))]
      · rfl
      · unfold addUri
        rw [if_neg hd]
        dsimp only
        rw [if_neg hx]
        simp

theorem foldUri_has (us : List Text) {ns : List (Text × Text)} (h : NsOk ns) :
    ∀ u ∈ us, (dictGet (us.foldl addUri ns) u).isSome ∨ knownPrefix u = some "xml".toList := by
  induction us generalizing ns with
  | nil => simp
  | cons v us ih =>
    intro u hu
    rw [List.mem_cons] at hu
    rcases hu with rfl | hu
    · rcases addUri_has h u with h1 | h1
      · left
        rw [List.foldl_cons]
        obtain ⟨w, hw⟩ := Option.isSome_iff_exists.mp h1
        have := (foldUri_prefix us (addUri ns u)).subset (dictGet_mem hw)
        rw [mem_dictGet (nsOk_fold us (nsOk_add h u)).keys this]; rfl
      · exact .inr h1
    · exact ih (nsOk_add h v) u hu

/-- The known prefixes. -/
theorem knownPrefix_cases {u p : Text} (h : knownPrefix u = some p) :
    (u, p) ∈ ([(xmlUri, "xml".toList), ("http://www.w3.org/1999/xhtml".toList, "html".toList),
     ("http://www.w3.org/1999/02/22-rdf-syntax-ns#".toList, "rdf".toList),
     ("http://schemas.xmlsoap.org/wsdl/".toList, "wsdl".toList),
     ("http://www.w3.org/2001/XMLSchema".toList, "xs".toList),
     ("http://www.w3.org/2001/XMLSchema-instance".toList, "xsi".toList),
     ("http://purl.org/dc/elements/1.1/".toList, "dc".toList)] : List (Text × Text)) := by
  unfold knownPrefix at h
  exact dictGet_mem h

/-- A prefix that `_namespaces` gives. -/
structure PrefixOk (p : Text) : Prop where
  colon : ':' ∉ p
  name : isName p = true
  equal : '=' ∉ p
  xmlns : ¬"xmlns".toList <:+ p
  ne : p ≠ []

/-- The known prefixes have a check. -/
theorem known_forall {P : Text × Text → Prop} {u p : Text} (h : knownPrefix u = some p)
    (hP : ∀ q ∈ ([(xmlUri, "xml".toList), ("http://www.w3.org/1999/xhtml".toList, "html".toList),
     ("http://www.w3.org/1999/02/22-rdf-syntax-ns#".toList, "rdf".toList),
     ("http://schemas.xmlsoap.org/wsdl/".toList, "wsdl".toList),
     ("http://www.w3.org/2001/XMLSchema".toList, "xs".toList),
     ("http://www.w3.org/2001/XMLSchema-instance".toList, "xsi".toList),
     ("http://purl.org/dc/elements/1.1/".toList, "dc".toList)] : List (Text × Text)), P q) : P (u, p) :=
  hP _ (knownPrefix_cases h)

theorem prefixOk_known {u p : Text} (h : knownPrefix u = some p) : PrefixOk p := by
  have h1 : ':' ∉ p ∧ isName p = true ∧ '=' ∉ p ∧ ¬"xmlns".toList <:+ p ∧ p ≠ [] :=
    known_forall (P := fun q => ':' ∉ q.2 ∧ isName q.2 = true ∧ '=' ∉ q.2 ∧ ¬"xmlns".toList <:+ q.2 ∧ q.2 ≠ []) h
      (by decide +kernel)
  exact ⟨h1.1, h1.2.1, h1.2.2.1, h1.2.2.2.1, h1.2.2.2.2⟩

theorem digit_name {c : Char} (h : IsDigit c) : isNameChar c = true := by
  obtain ⟨d, hd, rfl⟩ := h
  have : ∀ d < 10, isNameChar (digitChar d) = true := by decide
  exact this d hd

theorem not_mem_natText {c : Char} (hc : ∀ d < 10, digitChar d ≠ c) (n : Nat) : c ∉ natText n := by
  intro hm
  obtain ⟨d, hd, e⟩ := natText_digits n c hm
  exact hc d hd e.symm

theorem prefixOk_ns (n : Nat) : PrefixOk ("ns".toList ++ natText n) := by
  have hm : ∀ c : Char, c ∉ "ns".toList → (∀ d < 10, digitChar d ≠ c) → c ∉ "ns".toList ++ natText n := by
    intro c h1 h2 h
    rcases List.mem_append.mp h with h | h
    · exact h1 h
    · exact not_mem_natText h2 n h
  refine ⟨hm _ (by decide +kernel) (by decide +kernel), ?_, hm _ (by decide +kernel) (by decide +kernel), ?_, by
    show 'n' :: _ ≠ []; simp⟩
  · unfold isName
    rw [Bool.and_eq_true]
    refine ⟨?_, by show isNameStart 'n' = true; decide⟩
    rw [List.all_eq_true]
    intro c hc
    rcases List.mem_append.mp hc with h | h
    · exact (by decide +kernel : ∀ c ∈ "ns".toList, isNameChar c = true) c h
    · exact digit_name (natText_digits n c h)
  · rintro ⟨s, e⟩
    have h1 : 'x' ∈ "ns".toList ++ natText n := by
      rw [← e, List.mem_append]; right; decide +kernel
    exact hm _ (by decide +kernel) (by decide +kernel) h1

theorem ns0_suffix {n : Nat} (h : "ns0".toList <:+ "ns".toList ++ natText n) : n = 0 := by
  obtain ⟨s, e⟩ := h
  have e : s ++ ['n', 's', '0'] = 'n' :: 's' :: natText n := e
  match s, e with
  | [], e =>
    simp only [List.nil_append, List.cons.injEq, true_and] at e
    exact natText_inj (a := n) (b := 0) (by rw [← e]; decide +kernel)
  | [c], e =>
    exfalso
    simp only [List.cons_append, List.nil_append, List.cons.injEq] at e
    exact absurd e.2.1 (by decide)
  | c :: d :: s, e =>
    exfalso
    simp only [List.cons_append, List.cons.injEq] at e
    exact not_mem_natText (c := 'n') (by decide +kernel) n (by rw [← e.2.2]; simp)

theorem takeWhile_ne {c : Char} {a : Text} (h : c ∉ a) (b : Text) : (a ++ c :: b).takeWhile (· ≠ c) = a :=
  takeWhile_append_stop (fun y hy => by
    have : y ≠ c := fun e => h (e ▸ hy)
    simpa using this) (by simp)

theorem dropWhile_ne {c : Char} {a : Text} (h : c ∉ a) (b : Text) : (a ++ c :: b).dropWhile (· ≠ c) = c :: b := by
  rw [List.dropWhile_append_of_pos (fun y hy => by
    have : y ≠ c := fun e => h (e ▸ hy)
    simpa using this)]
  simp

theorem not_mem_takeWhile (c : Char) (a : Text) : c ∉ a.takeWhile (· ≠ c) := by
  induction a with
  | nil => simp
  | cons d a ih =>
    rw [List.takeWhile_cons]
    split
    · rename_i h
      simp only [ne_eq, decide_not, Bool.not_eq_true', decide_eq_false_iff_not] at h
      rw [List.mem_cons, not_or]
      exact ⟨fun e => h e.symm, ih⟩
    · simp

/-- Where a text with one colon has its colon. -/
theorem colon_split {a b p l : Text} (hp : ':' ∉ p) (hl : ':' ∉ l) (h : a ++ ':' :: b = p ++ ':' :: l) :
    a = p ∧ b = l := by
  have hc := congrArg (List.count ':') h
  simp only [List.count_append, List.count_cons_self, List.count_eq_zero_of_not_mem hp,
    List.count_eq_zero_of_not_mem hl] at hc
  have ha : ':' ∉ a := List.count_eq_zero.mp (by omega)
  have h1 := congrArg (List.takeWhile (· ≠ ':')) h
  rw [takeWhile_ne ha, takeWhile_ne hp] at h1
  subst h1
  simpa using h

theorem infix_ns0 {p l : Text} (hp : ':' ∉ p) (hl : ':' ∉ l) (h : "ns0:".toList <:+: p ++ ':' :: l) :
    "ns0".toList <:+ p := by
  obtain ⟨s, t, e⟩ := h
  have e' : (s ++ "ns0".toList) ++ ':' :: t = p ++ ':' :: l := by
    rw [← e]
    have : "ns0:".toList = "ns0".toList ++ [':'] := by decide +kernel
    rw [this]; simp
  exact ⟨s, (colon_split hp hl e').1⟩

theorem infix_of_mem {a b : Text} {c : Char} (hc : c ∈ a) (hb : c ∉ b) : ¬a <:+: b :=
  fun h => hb (h.subset hc)

theorem infix_equal {n : Text} (hn : '=' ∉ n) (h : "xmlns:ns0=".toList <:+: n ++ ['=']) :
    "xmlns:ns0".toList <:+ n := by
  obtain ⟨s, t, e⟩ := h
  have e1 : "xmlns:ns0=".toList = "xmlns:ns0".toList ++ ['='] := by decide +kernel
  rw [e1] at e
  have hc := congrArg (List.count '=') e
  simp only [List.count_append, List.count_eq_zero_of_not_mem hn, List.count_singleton_self] at hc
  have ht : '=' ∉ t := List.count_eq_zero.mp (by omega)
  rcases List.eq_nil_or_concat t with rfl | ⟨t', c, rfl⟩
  · simp only [List.append_nil, ← List.append_assoc, List.append_cancel_right_eq] at e
    exact ⟨s, e⟩
  · exfalso
    rw [List.concat_eq_append, ← List.append_assoc] at e
    have := (List.append_inj' e rfl).2
    simp only [List.cons.injEq, and_true] at this
    exact ht (by rw [← this, List.concat_eq_append]; simp)

theorem xmlns_suffix {p l : Text} (hp : ':' ∉ p) (hl : ':' ∉ l) (h : "xmlns:ns0".toList <:+ p ++ ':' :: l) :
    "xmlns".toList <:+ p ∧ l = "ns0".toList := by
  obtain ⟨s, e⟩ := h
  have e' : (s ++ "xmlns".toList) ++ ':' :: "ns0".toList = p ++ ':' :: l := by
    rw [← e]
    have : "xmlns:ns0".toList = "xmlns".toList ++ ':' :: "ns0".toList := by decide +kernel
    rw [this]; simp
  have := colon_split hp hl e'
  exact ⟨⟨s, this.1⟩, this.2.symm⟩

theorem outside_ns0 : Outside 'n' ['s', '0', ':'] := ⟨by decide, by decide +kernel⟩

theorem outside_xmlns : Outside 'x' ['m', 'l', 'n', 's', ':', 'n', 's', '0', '='] := ⟨by decide, by decide +kernel⟩

theorem str_ns0 : "ns0:".toList = 'n' :: ['s', '0', ':'] := by decide +kernel
theorem str_xmlns : "xmlns:ns0=".toList = 'x' :: ['m', 'l', 'n', 's', ':', 'n', 's', '0', '='] := by decide +kernel

/-- The tag without the prefix of the DASH namespace. -/
def tagClean (ns : List (Text × Text)) (t : Text) : Text :=
  if (tagName t).1 = dashUri then (tagName t).2 else tagText ns t

/-- What is known about the names of a tree and the prefixes. -/
structure NamesOk (ns : List (Text × Text)) : Prop extends NsOk ns where
  first : ns[0]? = some (dashUri, "ns0".toList)

theorem NsOk.prefixOk {ns : List (Text × Text)} (h : NsOk ns) {u p : Text} (hm : (u, p) ∈ ns) : PrefixOk p := by
  obtain ⟨i, hi⟩ := List.mem_iff_getElem?.mp hm
  rcases h.at_ i u p hi with ⟨h1, _⟩ | ⟨_, rfl⟩
  · exact prefixOk_known h1
  · exact prefixOk_ns i

theorem NamesOk.dash {ns : List (Text × Text)} (h : NamesOk ns) : dictGet ns dashUri = some "ns0".toList :=
  mem_dictGet h.keys (List.mem_iff_getElem?.mpr ⟨0, h.first⟩)

/-- Only the DASH namespace has the prefix `ns0`. -/
theorem NamesOk.ns0 {ns : List (Text × Text)} (h : NamesOk ns) {u p : Text} (hm : (u, p) ∈ ns)
    (hs : "ns0".toList <:+ p) : u = dashUri := by
  obtain ⟨i, hi⟩ := List.mem_iff_getElem?.mp hm
  rcases h.at_ i u p hi with ⟨h1, _⟩ | ⟨_, rfl⟩
  · exact absurd hs (known_forall (P := fun q => ¬"ns0".toList <:+ q.2) h1 (by decide +kernel))
  · have := ns0_suffix hs
    subst this
    rw [h.first] at hi
    simp only [Option.some.injEq, Prod.mk.injEq] at hi
    exact hi.1.symm

/-- A namespace that has a prefix. -/
def HasPrefix (ns : List (Text × Text)) (u : Text) : Prop :=
  (dictGet ns u).isSome ∨ knownPrefix u = some "xml".toList

/-- The prefix of a namespace. -/
theorem NamesOk.qualified {ns : List (Text × Text)} (h : NamesOk ns) {u : Text} (hu : HasPrefix ns u) :
    ∃ p, (∀ l, qualified ns u l = p ++ ':' :: l) ∧ PrefixOk p ∧ ("ns0".toList <:+ p → u = dashUri) ∧
      ((u, p) ∈ ns ∨ u = xmlUri ∧ p = "xml".toList ∧ dictGet ns u = none) := by
  cases hd : dictGet ns u with
  | some p =>
    refine ⟨p, fun l => by unfold Verif.qualified; rw [hd]; rfl, h.prefixOk (dictGet_mem hd), h.ns0 (dictGet_mem hd),
      .inl (dictGet_mem hd)⟩
  | none =>
    have hk : knownPrefix u = some "xml".toList := by
      rcases hu with hu | hu
      · rw [hd] at hu; exact absurd hu (by simp)
      · exact hu
    refine ⟨"xml".toList, fun l => by unfold Verif.qualified; rw [hd, hk]; rfl, prefixOk_known hk,
      fun hs => absurd hs (by decide +kernel), .inr ⟨?_, rfl, rfl⟩⟩
    exact known_forall (P := fun q => q.2 = "xml".toList → q.1 = xmlUri) hk (by decide +kernel) rfl

theorem tagPass1 {ns : List (Text × Text)} (h : NamesOk ns) {t : Text} (hu : HasPrefix ns (tagName t).1)
    (hl : ':' ∉ (tagName t).2) : TagPass 'n' ['s', '0', ':'] [] (tagText ns t) (tagClean ns t) := by
  intro r hr
  unfold tagClean tagText
  split
  · rename_i e
    have : Verif.qualified ns (tagName t).1 (tagName t).2 = 'n' :: ['s', '0', ':'] ++ (tagName t).2 := by
      unfold Verif.qualified
      rw [e, h.dash]
      show "ns0".toList ++ _ = _
      have : "ns0".toList = ['n', 's', '0'] := by decide +kernel
      rw [this]; rfl
    rw [this, List.append_assoc, rep_hit (by simp), List.nil_append,
      rep_clean [] (by decide) (infix_of_mem (c := ':') (by decide) hl) hr]
  · rename_i e
    obtain ⟨p, hq, hp, h0, _⟩ := h.qualified hu
    rw [hq, rep_clean [] (by decide) _ hr]
    rw [← str_ns0]
    exact fun hi => e (h0 (infix_ns0 hp.colon hl hi))

theorem keyPass1 {n : Text} (hn : ¬"ns0:".toList <:+: n) : KeyPass 'n' ['s', '0', ':'] [] n n := by
  intro r
  rw [str_ns0] at hn
  rw [rep_clean [] (by decide) hn (headOut_cons (by decide)), rep_char [] (by decide), rep_char [] (by decide)]

theorem keyPass2 {n : Text} (hn : '=' ∉ n) (h : ¬"xmlns:ns0".toList <:+ n) :
    KeyPass 'x' ['m', 'l', 'n', 's', ':', 'n', 's', '0', '='] "xmlns=".toList n n := by
  intro r
  have e : n ++ '=' :: '"' :: r = (n ++ ['=']) ++ '"' :: r := by simp
  rw [e, rep_clean _ (by decide) _ (headOut_cons (by decide)), rep_char _ (by decide)]
  · simp
  · rw [← str_xmlns]
    exact fun hi => h (infix_equal hn hi)

theorem keyPass2_dash : KeyPass 'x' ['m', 'l', 'n', 's', ':', 'n', 's', '0', '='] "xmlns=".toList
    "xmlns:ns0".toList "xmlns".toList := by
  intro r
  have e : "xmlns:ns0".toList ++ '=' :: '"' :: r =
      ('x' :: ['m', 'l', 'n', 's', ':', 'n', 's', '0', '=']) ++ '"' :: r := by
    have : "xmlns:ns0".toList = 'x' :: ['m', 'l', 'n', 's', ':', 'n', 's', '0'] := by decide +kernel
    rw [this]; rfl
  rw [e, rep_hit (by simp), rep_char _ (by decide)]
  have : "xmlns=".toList = "xmlns".toList ++ ['='] := by decide +kernel
  rw [this]; simp

theorem tagPass2 {n : Text} (hn : '=' ∉ n) :
    TagPass 'x' ['m', 'l', 'n', 's', ':', 'n', 's', '0', '='] "xmlns=".toList n n := by
  intro r hr
  rw [rep_clean _ (by decide) (infix_of_mem (c := '=') (by decide) hn) hr]

/-! ### Names of trees -/

theorem isName_not_mem {n : Text} (h : isName n = true) {c : Char} (hc : isNameChar c = false) : c ∉ n := by
  unfold isName at h
  rw [Bool.and_eq_true, List.all_eq_true] at h
  intro hm
  rw [h.1 c hm] at hc
  exact absurd hc (by simp)

theorem isName_ne_nil {n : Text} (h : isName n = true) : n ≠ [] := by
  rintro rfl
  exact absurd h (by decide)

theorem treeName_brace (r : Text) :
    treeName ('{' :: r) = (some (r.takeWhile (· ≠ '}')), (r.dropWhile (· ≠ '}')).drop 1) := rfl

theorem treeName_bare {q : Text} (h : q.head? ≠ some '{') : treeName q = (none, q) := by
  unfold treeName
  split
  · exact absurd rfl h
  · rfl

theorem splitName_brace {q : Text} (h : NameOk q) (hb : q.head? = some '{') :
    treeName q = (some (splitName q).1, (splitName q).2) := by
  cases q with
  | nil => exact absurd hb (by simp)
  | cons c r =>
    simp only [List.head?_cons, Option.some.injEq] at hb
    subst hb
    have hl := h.1
    rw [treeName_brace] at hl ⊢
    have hsp := List.takeWhile_append_dropWhile (p := fun c : Char => decide (c ≠ '}')) (l := r)
    generalize hu : r.takeWhile (fun c : Char => decide (c ≠ '}')) = u at hsp hl ⊢
    have hcu : '}' ∉ u := by
      rw [← hu]
      exact not_mem_takeWhile _ _
    cases hd : r.dropWhile (fun c : Char => decide (c ≠ '}')) with
    | nil =>
      rw [hd] at hl
      exact absurd (isName_ne_nil hl.1) (by simp)
    | cons d l =>
      have hdd : d = '}' := by
        have := List.head?_dropWhile_not (fun c : Char => decide (c ≠ '}')) r
        rw [hd] at this
        simpa using this
      subst hdd
      rw [hd] at hl hsp
      have hcl : '}' ∉ l := isName_not_mem hl.1 (by decide)
      have hrev : r.reverse = l.reverse ++ '}' :: u.reverse := by rw [← hsp]; simp
      unfold splitName
      simp only [List.drop_succ_cons, List.drop_zero]
      have hcr : '}' ∉ l.reverse := by rwa [List.mem_reverse]
      rw [hrev, takeWhile_ne hcr, dropWhile_ne hcr]
      simp

theorem attrName_treeName {q : Text} (h : NameOk q) : attrName q = treeName q := by
  unfold attrName
  split
  · rename_i hb; rw [splitName_brace h hb]
  · rename_i hb; rw [treeName_bare hb]

theorem tagName_treeName {q : Text} (h : NameOk q) :
    manifestTag dashUri q = (some (tagName q).1, (tagName q).2) := by
  unfold tagName manifestTag
  split
  · rename_i u l e
    rw [if_neg]
    · rw [treeName_bare] at e
      · simp only [Prod.mk.injEq, true_and] at e; rw [e]
      · intro hb; rw [splitName_brace h hb] at e; simp at e
    · intro hb; rw [splitName_brace h hb] at e; simp at e
  · rename_i u l e
    have hb : q.head? = some '{' := by
      by_contra hb; rw [treeName_bare hb] at e; simp at e
    rw [if_pos hb]
    rw [splitName_brace h hb] at e
    rw [← e]

theorem tagName_local {q : Text} (h : NameOk q) : (tagName q).2 = (treeName q).2 := by
  have := tagName_treeName h
  unfold manifestTag at this
  split at this <;> · rename_i e; rw [e]; simp only [Prod.mk.injEq] at this; exact this.2.symm

/-- All namespaces of a tree. -/
theorem everywhere_uris {P : Text → List (Text × Text) → Text → Prop} {S : Text → Prop} (x : Xml) :
    (∀ u ∈ nameUris x, S u) → Everywhere P x →
    Everywhere (fun t a x => P t a x ∧ S (tagName t).1 ∧ ∀ p ∈ a, ∀ u ∈ (attrName p.1).1, S u) x := by
  refine Xml.rec
    (motive_1 := fun x => (∀ u ∈ nameUris x, S u) → Everywhere P x →
      Everywhere (fun t a x => P t a x ∧ S (tagName t).1 ∧ ∀ p ∈ a, ∀ u ∈ (attrName p.1).1, S u) x)
    (motive_2 := fun xs => (∀ u ∈ nameUrisAll xs, S u) → EverywhereAll P xs →
      EverywhereAll (fun t a x => P t a x ∧ S (tagName t).1 ∧ ∀ p ∈ a, ∀ u ∈ (attrName p.1).1, S u) xs) ?_ ?_ ?_ x
  · intro t a x ks ih hS hE
    rw [Everywhere] at hE ⊢
    rw [nameUris] at hS
    refine ⟨⟨hE.1, hS _ (by simp), ?_⟩, ih (fun u hu => hS u (by simp [hu])) hE.2⟩
    intro p hp u hu
    refine hS u ?_
    simp only [List.cons_append, List.mem_cons, List.mem_append, List.mem_filterMap]
    exact .inr (.inl ⟨p, hp, hu⟩)
  · intro _ _; rw [EverywhereAll]; trivial
  · intro k ks ih1 ih2 hS hE
    rw [EverywhereAll] at hE ⊢
    rw [nameUrisAll] at hS
    exact ⟨ih1 (fun u hu => hS u (by simp [hu])) hE.1, ih2 (fun u hu => hS u (by simp [hu])) hE.2⟩

/-- What is known at every element of a tree that can be written. -/
def Known (ns : List (Text × Text)) (t : Text) (a : List (Text × Text)) (x : Text) : Prop :=
  NodeOk dashUri t a x ∧ HasPrefix ns (tagName t).1 ∧ ∀ p ∈ a, ∀ u ∈ (attrName p.1).1, HasPrefix ns u

theorem uris_known {t : Text} {a : List (Text × Text)} {x : Text} {ks : List Xml}
    (hw : Writable dashUri (.elem t a x ks)) :
    Everywhere (Known (namespacesOf (.elem t a x ks))) (.elem t a x ks) :=
  everywhere_uris _ (foldUri_has _ nsOk_nil) hw

/-- The root of a manifest gives the DASH namespace the prefix `ns0`. -/
theorem namesOk {t : Text} {a : List (Text × Text)} {x : Text} {ks : List Xml} (ht : (tagName t).1 = dashUri) :
    NamesOk (namespacesOf (.elem t a x ks)) := by
  refine ⟨nsOk_fold _ nsOk_nil, ?_⟩
  unfold namespacesOf
  rw [nameUris, ht]
  have h1 : addUri [] dashUri = [(dashUri, "ns0".toList)] := by decide +kernel
  rw [List.cons_append, List.foldl_cons, h1]
  obtain ⟨s, hs⟩ := foldUri_prefix (a.filterMap (fun p => (attrName p.1).1) ++ nameUrisAll ks) [(dashUri, "ns0".toList)]
  rw [← hs]; rfl

/-- The declarations as attributes. -/
def declPairs (ns : List (Text × Text)) : List (Text × Text) :=
  (ns.foldl (fun l p => insertByPrefix p l) []).map (fun p => ("xmlns:".toList ++ p.2, p.1))

theorem declsText_pairs (ns : List (Text × Text)) : declsText ns = attrsText id (declPairs ns) := by
  unfold declsText attrsText declPairs
  rw [List.flatMap_map]; rfl

/-- The declaration of the DASH namespace after the replacement. -/
def declClean (n : Text) : Text := if n = "xmlns:ns0".toList then "xmlns".toList else n

theorem insertByPrefix_perm (p : Text × Text) (l : List (Text × Text)) : (insertByPrefix p l).Perm (p :: l) := by
  induction l with
  | nil => exact .refl _
  | cons q l ih =>
    unfold insertByPrefix
    split
    · exact .refl _
    · exact (List.Perm.cons q ih).trans (List.Perm.swap p q l)

theorem sorted_perm (ns : List (Text × Text)) : (ns.foldl (fun l p => insertByPrefix p l) []).Perm ns := by
  have : ∀ (ns acc : List (Text × Text)), (ns.foldl (fun l p => insertByPrefix p l) acc).Perm (acc ++ ns) := by
    intro ns
    induction ns with
    | nil => intro acc; simp
    | cons p ns ih =>
      intro acc
      rw [List.foldl_cons]
      refine (ih _).trans ?_
      refine ((insertByPrefix_perm p acc).append_right ns).trans ?_
      rw [List.cons_append]
      exact (List.perm_middle).symm
  simpa using this ns []

theorem mem_declPairs {ns : List (Text × Text)} {n v : Text} :
    (n, v) ∈ declPairs ns ↔ ∃ p, (v, p) ∈ ns ∧ n = "xmlns:".toList ++ p := by
  unfold declPairs
  rw [List.mem_map]
  constructor
  · rintro ⟨q, hq, e⟩
    simp only [Prod.mk.injEq] at e
    exact ⟨q.2, by rw [← e.2]; exact (sorted_perm ns).mem_iff.mp hq, e.1.symm⟩
  · rintro ⟨p, hp, rfl⟩
    exact ⟨(v, p), (sorted_perm ns).mem_iff.mpr hp, rfl⟩

theorem xmlns_colon (p : Text) : "xmlns:".toList ++ p = "xmlns".toList ++ ':' :: p := by
  have : "xmlns:".toList = "xmlns".toList ++ [':'] := by decide +kernel
  rw [this]; simp

theorem untouched1 {t : Text} (h : Untouched t) : ¬('n' :: ['s', '0', ':']) <:+: t := by
  have := h.1; rwa [str_ns0] at this

theorem untouched2 {t : Text} (h : Untouched t) : ¬('x' :: ['m', 'l', 'n', 's', ':', 'n', 's', '0', '=']) <:+: t := by
  have := h.2; rwa [str_xmlns] at this

/-- The text of a manifest after the two replacements. -/
theorem cleanText_tree {t : Text} {a : List (Text × Text)} {x : Text} {ks : List Xml}
    (ht : (tagName t).1 = dashUri) (hw : Writable dashUri (.elem t a x ks))
    (hu : ∀ p ∈ namespacesOf (.elem t a x ks), Untouched p.1) :
    cleanText (treeText (.elem t a x ks)) =
      elemText (tagClean (namespacesOf (.elem t a x ks))) (keyText (namespacesOf (.elem t a x ks)))
        (attrsText declClean (declPairs (namespacesOf (.elem t a x ks)))) (.elem t a x ks) := by
  have hn : NamesOk (namespacesOf (.elem t a x ks)) := namesOk ht
  have hk := uris_known hw
  unfold cleanText treeText
  generalize namespacesOf (.elem t a x ks) = ns at hn hk hu ⊢
  generalize Xml.elem t a x ks = y at hk ⊢
  have hsp1 : ' ' ∉ ('n' :: ['s', '0', ':']) := by decide
  have hkey : ∀ k, NameOk k → (treeName k).1 ≠ some dashUri → (∀ u ∈ (attrName k).1, HasPrefix ns u) →
      ¬"ns0:".toList <:+: keyText ns k ∧ '=' ∉ keyText ns k ∧ ¬"xmlns:ns0".toList <:+ keyText ns k := by
    intro k hk0 hd hp
    have hloc : ':' ∉ (attrName k).2 := by rw [attrName_treeName hk0]; exact hk0.1.2
    have hle : '=' ∉ (attrName k).2 := by
      rw [attrName_treeName hk0]; exact isName_not_mem hk0.1.1 (by decide)
    unfold keyText
    cases hc : (attrName k).1 with
    | none =>
      exact ⟨infix_of_mem (c := ':') (by decide +kernel) hloc, hle,
        fun h => hloc (h.subset (by decide +kernel))⟩
    | some u =>
      obtain ⟨p, hq, hpo, h0, _⟩ := hn.qualified (hp u (by rw [hc]; rfl))
      simp only
      rw [hq]
      refine ⟨fun h => ?_, ?_, fun h => hpo.xmlns (xmlns_suffix hpo.colon hloc h).1⟩
      · have := h0 (infix_ns0 hpo.colon hloc h)
        subst this
        rw [attrName_treeName hk0] at hc
        exact hd hc
      · simp only [List.mem_append, List.mem_cons, not_or]
        exact ⟨hpo.equal, by decide, hle⟩
  have hd1 : ∀ r, rep ('n' :: ['s', '0', ':']) [] (declsText ns ++ r) =
      declsText ns ++ rep ('n' :: ['s', '0', ':']) [] r := by
    intro r
    rw [declsText_pairs]
    refine rep_attrs outside_ns0 _ ?_ r
    rintro ⟨n, v⟩ hp
    obtain ⟨p, hm, rfl⟩ := mem_declPairs.mp hp
    refine ⟨keyPass1 ?_, untouched1 (hu _ hm)⟩
    show ¬"ns0:".toList <:+: "xmlns:".toList ++ p
    rw [xmlns_colon]
    exact fun h => absurd (infix_ns0 (by decide +kernel) (hn.prefixOk hm).colon h) (by decide +kernel)
  have e1 : replaceText "ns0:".toList [] (elemText (tagText ns) (keyText ns) (declsText ns) y).length
      (elemText (tagText ns) (keyText ns) (declsText ns) y) =
      elemText (tagClean ns) (keyText ns) (declsText ns) y := by
    rw [str_ns0]
    have h1 : HeadOut ('n' :: ['s', '0', ':']) (declsText ns) := by
      rw [declsText_pairs]; exact headOut_attrs hsp1 _ _
    have := rep_elem (qt := tagText ns) (qt' := tagClean ns) (qk := keyText ns) (qk' := keyText ns) (new := [])
      outside_ns0 y h1 hd1 (everywhere_mono (by
        rintro t a x ⟨h2, h3, h4⟩
        have hl : ':' ∉ (tagName t).2 := by
          rw [tagName_local h2.1]; exact h2.1.1.2
        refine ⟨tagPass1 hn h3 hl, fun p hp => ⟨keyPass1 ?_, untouched1 (h2.2.1 p hp).2.2.2⟩,
          untouched1 h2.2.2.2.2⟩
        exact (hkey _ (h2.2.1 p hp).1 (h2.2.1 p hp).2.1 (h4 p hp)).1) hk) []
    rw [List.append_nil, rep_nil, List.append_nil] at this
    exact this
  dsimp only
  rw [e1]
  have hd2 : ∀ r, rep ('x' :: ['m', 'l', 'n', 's', ':', 'n', 's', '0', '=']) "xmlns=".toList (declsText ns ++ r) =
      attrsText declClean (declPairs ns) ++ rep ('x' :: ['m', 'l', 'n', 's', ':', 'n', 's', '0', '=']) "xmlns=".toList r := by
    intro r
    rw [declsText_pairs]
    refine rep_attrs outside_xmlns _ ?_ r
    rintro ⟨n, v⟩ hp
    obtain ⟨p, hm, rfl⟩ := mem_declPairs.mp hp
    refine ⟨?_, untouched2 (hu _ hm)⟩
    show KeyPass _ _ _ ("xmlns:".toList ++ p) (declClean ("xmlns:".toList ++ p))
    unfold declClean
    split
    · rename_i e; rw [e]; exact keyPass2_dash
    · rename_i e
      rw [xmlns_colon] at e ⊢
      refine keyPass2 ?_ ?_
      · simp only [List.mem_append, List.mem_cons, not_or]
        exact ⟨by decide +kernel, by decide, (hn.prefixOk hm).equal⟩
      · intro h
        have := (xmlns_suffix (by decide +kernel) (hn.prefixOk hm).colon h).2
        rw [this] at e
        exact e (by decide +kernel)
  rw [str_xmlns]
  have h1 : HeadOut ('x' :: ['m', 'l', 'n', 's', ':', 'n', 's', '0', '=']) (declsText ns) := by
    rw [declsText_pairs]; exact headOut_attrs (by decide) _ _
  have := rep_elem (qt := tagClean ns) (qt' := tagClean ns) (qk := keyText ns) (qk' := keyText ns)
      (new := "xmlns=".toList) outside_xmlns y h1 hd2 (everywhere_mono (by
        rintro t a x ⟨h2, h3, h4⟩
        have hl : '=' ∉ (tagName t).2 := by
          rw [tagName_local h2.1]; exact isName_not_mem h2.1.1.1 (by decide)
        refine ⟨tagPass2 ?_, fun p hp => ⟨?_, untouched2 (h2.2.1 p hp).2.2.2⟩, untouched2 h2.2.2.2.2⟩
        · unfold tagClean
          split
          · exact hl
          · obtain ⟨p, hq, hpo, _⟩ := hn.qualified h3
            unfold tagText
            rw [hq]
            simp only [List.mem_append, List.mem_cons, not_or]
            exact ⟨hpo.equal, by decide, hl⟩
        · have := hkey _ (h2.2.1 p hp).1 (h2.2.1 p hp).2.1 (h4 p hp)
          exact keyPass2 this.2.1 this.2.2) hk) []
  rw [List.append_nil, rep_nil, List.append_nil] at this
  exact this

end Verif
