import Verif.Lemmas.XmlRead
import Mathlib.Data.List.TakeWhile
/-
Namespaces in the text of a manifest.
-/
namespace Verif
open Spec

/-- What the reader needs at an element to find the names. -/
def ResolveAt (sc : List (Text × Text)) (qt qk : Text → Text) (t : Text) (a : List (Text × Text)) (_ : Text) : Prop :=
  expandTag sc (qt t) = some (manifestTag dashUri t) ∧
  expandAttrs sc (a.map (fun p => (qk p.1, p.2))) = some (a.map (fun p => (treeName p.1, p.2))) ∧
  declared (a.map (fun p => (qk p.1, p.2))) = []

theorem resolve_inner {sc : List (Text × Text)} {qt qk : Text → Text} {t x : Text}
    {ks : List Xml} {seen : Bool} {f : Text × List (Text × Text)} {st : List (Text × List (Text × Text))}
    (hf : f = (qt t, sc)) (ts : List Token)
    (ih : ∀ ts, resolve (f :: st) seen (treeTokensAll qt qk ks ++ ts) =
      (resolve (f :: st) seen ts).map (treeEventsAll dashUri ks ++ ·)) :
    resolve (f :: st) seen ((if x = [] then [] else [Token.chars x]) ++ treeTokensAll qt qk ks ++
        [Token.stop (qt t)] ++ ts) =
      (resolve st seen ts).map (((if x = [] then [] else [XmlEvent.chars x]) ++ treeEventsAll dashUri ks ++
        [XmlEvent.stop]) ++ ·) := by
  have h1 : ∀ ts, resolve (f :: st) seen ((if x = [] then [] else [Token.chars x]) ++ ts) =
      (resolve (f :: st) seen ts).map ((if x = [] then [] else [XmlEvent.chars x]) ++ ·) := by
    intro ts
    split
    · simp
    · rw [List.singleton_append, resolve]; rfl
  have hft : f.1 = qt t := by rw [hf]
  rw [List.append_assoc, List.append_assoc, h1, ih, List.singleton_append, resolve, if_pos hft]
  cases resolve st seen ts with
  | none => rfl
  | some es => simp

theorem resolve_elem {sc : List (Text × Text)} {qt qk : Text → Text} (x : Xml) :
    Everywhere (ResolveAt sc qt qk) x → ∀ {seen : Bool} {f : Text × List (Text × Text)}
      {st : List (Text × List (Text × Text))}, f.2 = sc → ∀ ts,
    resolve (f :: st) seen (treeTokens qt qk [] x ++ ts) =
      (resolve (f :: st) seen ts).map (treeEvents dashUri x ++ ·) := by
  refine Xml.rec
    (motive_1 := fun x => Everywhere (ResolveAt sc qt qk) x → ∀ {seen : Bool} {f : Text × List (Text × Text)}
      {st : List (Text × List (Text × Text))}, f.2 = sc → ∀ ts,
      resolve (f :: st) seen (treeTokens qt qk [] x ++ ts) =
        (resolve (f :: st) seen ts).map (treeEvents dashUri x ++ ·))
    (motive_2 := fun xs => EverywhereAll (ResolveAt sc qt qk) xs → ∀ {seen : Bool}
      {f : Text × List (Text × Text)} {st : List (Text × List (Text × Text))}, f.2 = sc → ∀ ts,
      resolve (f :: st) seen (treeTokensAll qt qk xs ++ ts) =
        (resolve (f :: st) seen ts).map (treeEventsAll dashUri xs ++ ·)) ?_ ?_ ?_ x
  · intro t a x ks ih hE seen f st hf ts
    rw [Everywhere] at hE
    obtain ⟨⟨ht, ha, hd⟩, hks⟩ := hE
    rw [treeTokens, treeEvents, List.nil_append, List.cons_append, resolve, hd, List.nil_append, hf, ht, ha]
    simp only
    rw [resolve_inner rfl ts (fun ts => ih hks rfl ts)]
    cases resolve (f :: st) seen ts with
    | none => rfl
    | some es => simp
  · intro _ seen f st hf ts; simp [treeTokensAll, treeEventsAll]
  · intro k ks ih1 ih2 hE seen f st hf ts
    rw [EverywhereAll] at hE
    rw [treeTokensAll, treeEventsAll, List.append_assoc, ih1 hE.1 hf, ih2 hE.2 hf]
    cases resolve (f :: st) seen ts with
    | none => rfl
    | some es => simp

theorem splitPrefix_colon {p l : Text} (hp : ':' ∉ p) (hp0 : p ≠ []) (hl : ':' ∉ l) (hl0 : l ≠ []) :
    splitPrefix (p ++ ':' :: l) = some (some p, l) := by
  unfold splitPrefix
  rw [dropWhile_ne hp, takeWhile_ne hp]
  simp only
  rw [if_pos ⟨hp0, hl0, hl⟩]

theorem splitPrefix_plain {n : Text} (h : ':' ∉ n) : splitPrefix n = some (none, n) := by
  unfold splitPrefix
  have : n.dropWhile (· ≠ ':') = [] := by
    rw [List.dropWhile_eq_nil_iff]
    intro y hy
    have : y ≠ ':' := fun e => h (e ▸ hy)
    simpa using this
  rw [this]

theorem NsOk.inj {ns : List (Text × Text)} (h : NsOk ns) {u v p : Text} (hu : (u, p) ∈ ns) (hv : (v, p) ∈ ns) :
    u = v := by
  obtain ⟨i, hi⟩ := List.mem_iff_getElem?.mp hu
  obtain ⟨j, hj⟩ := List.mem_iff_getElem?.mp hv
  have hknown : ∀ {w : Text} {n : Nat}, knownPrefix w ≠ some ("ns".toList ++ natText n) := by
    intro w n hk
    have := known_forall (P := fun q => q.2.take 2 ≠ "ns".toList) hk (by decide +kernel)
    exact this rfl
  rcases h.at_ i u p hi with ⟨h1, _⟩ | ⟨h1, e1⟩ <;> rcases h.at_ j v p hj with ⟨h2, _⟩ | ⟨h2, e2⟩
  · exact known_forall (P := fun q => q.2 = p → q.1 = v) h1 (by
      exact known_forall (P := fun r => ∀ q ∈ ([(xmlUri, "xml".toList), ("http://www.w3.org/1999/xhtml".toList, "html".toList),
       ("http://www.w3.org/1999/02/22-rdf-syntax-ns#".toList, "rdf".toList),
       ("http://schemas.xmlsoap.org/wsdl/".toList, "wsdl".toList),
       ("http://www.w3.org/2001/XMLSchema".toList, "xs".toList),
       ("http://www.w3.org/2001/XMLSchema-instance".toList, "xsi".toList),
       ("http://purl.org/dc/elements/1.1/".toList, "dc".toList)] : List (Text × Text)), q.2 = r.2 → q.1 = r.1) h2
        (by decide +kernel)) rfl
  · exact absurd (e2 ▸ h1) hknown
  · exact absurd (e1 ▸ h2) hknown
  · have := natText_inj (List.append_cancel_left (e1.symm.trans e2))
    subst this
    rw [hi] at hj
    simp only [Option.some.injEq, Prod.mk.injEq, and_true] at hj
    exact hj

/-- The declarations as the reader finds them in the text. -/
def cleanDecls (ns : List (Text × Text)) : List (Text × Text) := (declPairs ns).map (fun p => (declClean p.1, p.2))

/-- The prefixes for the reader. -/
def readerScope (ns : List (Text × Text)) : List (Text × Text) :=
  (ns.foldl (fun l p => insertByPrefix p l) []).map (fun p => (if p.2 = "ns0".toList then [] else p.2, p.1))

theorem declClean_prefix (p : Text) : declClean ("xmlns:".toList ++ p) =
    if p = "ns0".toList then "xmlns".toList else "xmlns".toList ++ ':' :: p := by
  unfold declClean
  have e : ("xmlns:".toList ++ p = "xmlns:ns0".toList) ↔ p = "ns0".toList := by
    have : "xmlns:ns0".toList = "xmlns:".toList ++ "ns0".toList := by decide +kernel
    rw [this, List.append_cancel_left_eq]
  simp only [e, ← xmlns_colon]

theorem declared_clean {ns : List (Text × Text)} (h : NsOk ns) : declared (cleanDecls ns) = readerScope ns := by
  unfold declared cleanDecls readerScope declPairs
  rw [List.map_map, List.filterMap_map]
  have hs : ∀ q ∈ ns.foldl (fun l p => insertByPrefix p l) [], q ∈ ns :=
    fun q hq => (sorted_perm ns).mem_iff.mp hq
  generalize ns.foldl (fun l p => insertByPrefix p l) [] = s at hs ⊢
  induction s with
  | nil => rfl
  | cons q s ih =>
    have hp := h.prefixOk (hs q (by simp))
    rw [List.map_cons, ← ih (fun r hr => hs r (by simp [hr]))]
    refine List.filterMap_cons_some ?_
    simp only [Function.comp]
    rw [declClean_prefix]
    by_cases h0 : q.2 = "ns0".toList
    · simp [h0]
    · rw [if_neg h0, if_neg h0, if_neg, splitPrefix_colon (by decide +kernel) (by decide +kernel) hp.colon hp.ne]
      · simp
      · intro e
        have := congrArg List.length e
        simp at this

theorem uriOf_mem {sc s : List (Text × Text)} {p u : Text} (hm : (p, u) ∈ sc) (hu : ∀ v, (p, v) ∈ sc → v = u) :
    uriOf (sc ++ s) p = some u := by
  unfold uriOf
  rw [List.find?_append]
  cases hf : sc.find? (fun q => q.1 = p) with
  | none =>
    rw [List.find?_eq_none] at hf
    exact absurd (hf _ hm) (by simp)
  | some q =>
    have h1 := List.mem_of_find?_eq_some hf
    have h2 := List.find?_some hf
    simp only [decide_eq_true_eq] at h2
    obtain ⟨a, b⟩ := q
    simp only at h2
    subst h2
    simp [hu b h1]

theorem mem_readerScope {ns : List (Text × Text)} {p u : Text} :
    (p, u) ∈ readerScope ns ↔ ∃ q, (u, q) ∈ ns ∧ p = if q = "ns0".toList then [] else q := by
  unfold readerScope
  rw [List.mem_map]
  constructor
  · rintro ⟨r, hr, e⟩
    simp only [Prod.mk.injEq] at e
    exact ⟨r.2, by rw [← e.2]; exact (sorted_perm ns).mem_iff.mp hr, e.1.symm⟩
  · rintro ⟨q, hq, rfl⟩
    exact ⟨(u, q), (sorted_perm ns).mem_iff.mpr hq, rfl⟩

theorem uriOf_scope {ns : List (Text × Text)} (h : NsOk ns) {u p : Text} (hm : (u, p) ∈ ns) :
    uriOf (readerScope ns ++ startScope) (if p = "ns0".toList then [] else p) = some u := by
  refine uriOf_mem (mem_readerScope.mpr ⟨p, hm, rfl⟩) ?_
  intro v hv
  obtain ⟨q, hq, e⟩ := mem_readerScope.mp hv
  have : p = q := by
    by_cases h1 : p = "ns0".toList <;> by_cases h2 : q = "ns0".toList
    · rw [h1, h2]
    · rw [if_pos h1, if_neg h2] at e; exact absurd e.symm (h.prefixOk hq).ne
    · rw [if_neg h1, if_pos h2] at e; exact absurd e (h.prefixOk hm).ne
    · rwa [if_neg h1, if_neg h2] at e
  subst this
  exact h.inj hq hm

theorem uriOf_xml {ns : List (Text × Text)} (h : NsOk ns) :
    uriOf (readerScope ns ++ startScope) "xml".toList = some xmlUri := by
  unfold uriOf
  rw [List.find?_append]
  have : (readerScope ns).find? (fun q => q.1 = "xml".toList) = none := by
    rw [List.find?_eq_none]
    rintro ⟨p, u⟩ hm
    obtain ⟨q, hq, e⟩ := mem_readerScope.mp hm
    simp only [decide_eq_true_eq]
    rintro rfl
    split at e
    · exact absurd e (by decide +kernel)
    · obtain ⟨i, hi⟩ := List.mem_iff_getElem?.mp hq
      rcases h.at_ i u q hi with ⟨_, h2⟩ | ⟨_, h2⟩
      · exact h2 e.symm
      · rw [← e] at h2
        exact absurd (congrArg List.head? h2) (by show (some 'x' : Option Char) ≠ some 'n'; decide)
  rw [this]
  rfl

/-- The reader finds the namespace of a name with prefix. -/
theorem uriOf_qualified {ns : List (Text × Text)} (h : NamesOk ns) {u : Text} (hu : HasPrefix ns u)
    (hd : u ≠ dashUri) : ∃ p, (∀ l, qualified ns u l = p ++ ':' :: l) ∧ PrefixOk p ∧
      uriOf (readerScope ns ++ startScope) p = some u := by
  obtain ⟨p, hq, hp, h0, hm⟩ := h.qualified hu
  refine ⟨p, hq, hp, ?_⟩
  rcases hm with hm | ⟨rfl, rfl, _⟩
  · have := uriOf_scope h.toNsOk hm
    rwa [if_neg (fun e : p = "ns0".toList => hd (h0 (by rw [e])))] at this
  · exact uriOf_xml h.toNsOk

theorem expandTag_clean {ns : List (Text × Text)} (h : NamesOk ns) {t : Text} (hn : NameOk t)
    (hu : HasPrefix ns (tagName t).1) :
    expandTag (readerScope ns ++ startScope) (tagClean ns t) = some (manifestTag dashUri t) := by
  have hl : LocalName (tagName t).2 := by rw [tagName_local hn]; exact hn.1
  rw [tagName_treeName hn]
  unfold tagClean
  split
  · rename_i e
    unfold expandTag
    rw [splitPrefix_plain hl.2]
    simp only
    have := uriOf_scope h.toNsOk (List.mem_iff_getElem?.mpr ⟨0, h.first⟩)
    rw [if_pos rfl] at this
    rw [this, e]
  · rename_i e
    obtain ⟨p, hq, hp, hs⟩ := uriOf_qualified h hu e
    unfold tagText expandTag
    rw [hq, splitPrefix_colon hp.colon hp.ne hl.2 (isName_ne_nil hl.1)]
    simp only
    rw [hs]; rfl

theorem expandAttr_clean {ns : List (Text × Text)} (h : NamesOk ns) {k : Text} (hn : NameOk k)
    (hd : (treeName k).1 ≠ some dashUri) (hu : ∀ u ∈ (attrName k).1, HasPrefix ns u) :
    isDecl (keyText ns k) = false ∧
    ∀ v, expandAttr (readerScope ns ++ startScope) (keyText ns k, v) = some (treeName k, v) := by
  have hl := hn.1
  rw [← attrName_treeName hn] at hl hd ⊢
  cases hc : attrName k with
  | mk o l =>
    rw [hc] at hl hd hu
    unfold keyText
    rw [hc]
    cases o with
    | none =>
      have hb : k.head? ≠ some '{' := by
        intro hb
        unfold attrName at hc
        rw [if_pos hb] at hc
        simp at hc
      have hk : l = k := by
        unfold attrName at hc
        rw [if_neg hb] at hc
        simp only [Prod.mk.injEq, true_and] at hc
        exact hc.symm
      refine ⟨?_, fun v => ?_⟩
      · unfold isDecl
        rw [splitPrefix_plain hl.2, hk]
        simp only [Bool.or_false, decide_eq_false_iff_not]
        exact hn.2.1
      · unfold expandAttr
        rw [splitPrefix_plain hl.2]
    | some u =>
      obtain ⟨p, hq, hp, hs⟩ := uriOf_qualified h (hu u rfl) (fun e => hd (by rw [e]))
      refine ⟨?_, fun v => ?_⟩
      · show isDecl (qualified ns u l) = false
        rw [hq]
        unfold isDecl
        rw [splitPrefix_colon hp.colon hp.ne hl.2 (isName_ne_nil hl.1)]
        simp only [Bool.or_eq_false_iff, decide_eq_false_iff_not]
        refine ⟨fun e => ?_, fun e => hp.xmlns (e ▸ List.suffix_refl _)⟩
        have : ':' ∈ "xmlns".toList := by rw [← e]; simp
        exact absurd this (by decide +kernel)
      · show expandAttr _ (qualified ns u l, v) = _
        rw [hq]
        unfold expandAttr
        rw [splitPrefix_colon hp.colon hp.ne hl.2 (isName_ne_nil hl.1)]
        simp only
        rw [hs]; rfl

theorem mapM_some {α β : Type} {f : α → Option β} {g : α → β} {l : List α} (h : ∀ x ∈ l, f x = some (g x)) :
    l.mapM f = some (l.map g) := by
  induction l with
  | nil => rfl
  | cons x l ih =>
    rw [List.mapM_cons, h x (by simp), ih (fun y hy => h y (by simp [hy]))]
    rfl

/-- The attributes of an element, after declarations. -/
theorem expandAttrs_clean {ns : List (Text × Text)} (h : NamesOk ns) {t x : Text} {a : List (Text × Text)}
    (hk : Known ns t a x) {d : List (Text × Text)} (hd : ∀ p ∈ d, isDecl p.1 = true) (hdn : (d.map (·.1)).Nodup) :
    expandAttrs (readerScope ns ++ startScope) (d ++ a.map (fun p => (keyText ns p.1, p.2))) =
      some (a.map (fun p => (treeName p.1, p.2))) := by
  obtain ⟨⟨_, h2, h3, _⟩, _, h4⟩ := hk
  have hc := fun p hp => expandAttr_clean h (h2 p hp).1 (h2 p hp).2.1 (h4 p hp)
  unfold expandAttrs
  have hf : (d ++ a.map (fun p => (keyText ns p.1, p.2))).filter (fun p => !isDecl p.1) =
      a.map (fun p => (keyText ns p.1, p.2)) := by
    rw [List.filter_append]
    have e1 : d.filter (fun p => !isDecl p.1) = [] := by
      rw [List.filter_eq_nil_iff]
      intro p hp
      simp [hd p hp]
    have e2 : (a.map (fun p => (keyText ns p.1, p.2))).filter (fun p => !isDecl p.1) =
        a.map (fun p => (keyText ns p.1, p.2)) := by
      rw [List.filter_eq_self]
      intro p hp
      obtain ⟨q, hq, rfl⟩ := List.mem_map.mp hp
      simp [(hc q hq).1]
    rw [e1, e2, List.nil_append]
  have hm : (a.map (fun p => (keyText ns p.1, p.2))).mapM (expandAttr (readerScope ns ++ startScope)) =
      some (a.map (fun p => (treeName p.1, p.2))) := by
    rw [List.mapM_map]
    exact mapM_some (fun p hp => (hc p hp).2 p.2)
  rw [hf, hm]
  simp only
  rw [if_pos]
  refine ⟨?_, by rw [List.map_map]; exact h3⟩
  rw [List.map_append, List.nodup_append]
  refine ⟨hdn, ?_, ?_⟩
  · rw [List.map_map]
    have h3' : (a.map (fun p => treeName p.1)).Nodup := h3
    rw [List.nodup_iff_pairwise_ne, List.pairwise_map] at h3' ⊢
    refine List.Pairwise.imp_of_mem ?_ h3'
    intro p q hp hq hne e
    refine hne ?_
    have e : keyText ns p.1 = keyText ns q.1 := e
    have e1 := (hc p hp).2 []
    rw [e, (hc q hq).2 []] at e1
    simp only [Option.some.injEq, Prod.mk.injEq, and_true] at e1
    exact e1.symm
  · intro n hn m hm
    rw [List.mem_map] at hn hm
    obtain ⟨p, hp, rfl⟩ := hn
    obtain ⟨q, hq, rfl⟩ := hm
    obtain ⟨r, hr, rfl⟩ := List.mem_map.mp hq
    intro e
    have := hd p hp
    rw [e, (hc r hr).1] at this
    exact absurd this (by simp)

theorem declared_none {l : List (Text × Text)} (h : ∀ p ∈ l, isDecl p.1 = false) : declared l = [] := by
  unfold declared
  rw [List.filterMap_eq_nil_iff]
  intro p hp
  have := h p hp
  unfold isDecl at this
  rw [Bool.or_eq_false_iff, decide_eq_false_iff_not] at this
  rw [if_neg this.1]
  have h2 := this.2
  split
  · rename_i q l e
    rw [e] at h2
    simp only [decide_eq_false_iff_not] at h2
    rw [if_neg h2]
  · rfl

theorem resolveAt_clean {ns : List (Text × Text)} (h : NamesOk ns) {t x : Text} {a : List (Text × Text)}
    (hk : Known ns t a x) :
    ResolveAt (readerScope ns ++ startScope) (tagClean ns) (keyText ns) t a x := by
  refine ⟨expandTag_clean h hk.1.1 hk.2.1, ?_, declared_none ?_⟩
  · exact expandAttrs_clean h hk (d := []) (by simp) (by simp)
  · intro p hp
    obtain ⟨q, hq, rfl⟩ := List.mem_map.mp hp
    exact (expandAttr_clean h (hk.1.2.1 q hq).1 (hk.1.2.1 q hq).2.1 (hk.2.2 q hq)).1

theorem isName_colon {p l : Text} (hp : isName p = true) (hl : isName l = true) : isName (p ++ ':' :: l) = true := by
  unfold isName at hp hl ⊢
  rw [Bool.and_eq_true] at hp hl ⊢
  refine ⟨?_, ?_⟩
  · rw [List.all_append, List.all_cons, hp.1, hl.1]; decide
  · cases p with
    | nil => exact absurd hp.2 (by simp)
    | cons c p => exact hp.2

theorem lexAt_clean {ns : List (Text × Text)} (h : NamesOk ns) {t x : Text} {a : List (Text × Text)}
    (hk : Known ns t a x) : LexAt (tagClean ns) (keyText ns) t a x := by
  have hq : ∀ {u l : Text}, HasPrefix ns u → isName l = true → isName (qualified ns u l) = true := by
    intro u l hu hl
    obtain ⟨p, hq, hp, _⟩ := h.qualified hu
    rw [hq]; exact isName_colon hp.name hl
  refine ⟨?_, fun p hp => ⟨?_, (hk.1.2.1 p hp).2.2.1⟩, hk.1.2.2.2.1⟩
  · have hl : isName (tagName t).2 = true := by rw [tagName_local hk.1.1]; exact hk.1.1.1.1
    unfold tagClean
    split
    · exact hl
    · exact hq hk.2.1 hl
  · have hn := (hk.1.2.1 p hp).1
    have hl : isName (attrName p.1).2 = true := by rw [attrName_treeName hn]; exact hn.1.1
    unfold keyText
    cases hc : (attrName p.1).1 with
    | none => exact hl
    | some u => exact hq (hk.2.2 p hp u hc) hl

/-- The declarations of the root. -/
theorem decls_facts {ns : List (Text × Text)} (h : NamesOk ns) (hu : ∀ p ∈ ns, p.1.all isXmlChar = true) :
    (∀ p ∈ cleanDecls ns, isName p.1 = true ∧ ∀ c ∈ p.2, isXmlChar c = true ∨ c = '\r') ∧
    (∀ p ∈ cleanDecls ns, isDecl p.1 = true) ∧ ((cleanDecls ns).map (·.1)).Nodup := by
  have hdname : ∀ p ∈ cleanDecls ns, isName p.1 = true ∧ ∀ c ∈ p.2, isXmlChar c = true ∨ c = '\r' := by
    rintro ⟨n, v⟩ hp
    obtain ⟨⟨n', v'⟩, hq, e⟩ := List.mem_map.mp hp
    simp only [Prod.mk.injEq] at e
    obtain ⟨rfl, rfl⟩ := e
    obtain ⟨p, hm, rfl⟩ := mem_declPairs.mp hq
    refine ⟨?_, fun c hc => .inl (List.all_eq_true.mp (hu _ hm) c hc)⟩
    simp only
    rw [declClean_prefix]
    split
    · decide +kernel
    · exact isName_colon (by decide +kernel) (h.prefixOk hm).name
  have hsplit : ∀ {u p : Text}, (u, p) ∈ ns →
      splitPrefix ("xmlns".toList ++ ':' :: p) = some (some "xmlns".toList, p) := fun hm =>
    splitPrefix_colon (by decide +kernel) (by decide +kernel) (h.prefixOk hm).colon (h.prefixOk hm).ne
  have hdecl : ∀ p ∈ cleanDecls ns, isDecl p.1 = true := by
    rintro ⟨n, v⟩ hp
    obtain ⟨⟨n', v'⟩, hq, e⟩ := List.mem_map.mp hp
    simp only [Prod.mk.injEq] at e
    obtain ⟨rfl, rfl⟩ := e
    obtain ⟨p, hm, rfl⟩ := mem_declPairs.mp hq
    simp only
    rw [declClean_prefix]
    split
    · decide +kernel
    · unfold isDecl
      rw [hsplit hm]
      simp
  have hnodup : ((cleanDecls ns).map (·.1)).Nodup := by
    have hps : (ns.map (·.2)).Nodup := by
      rw [List.nodup_iff_pairwise_ne, List.pairwise_map]
      have := h.keys
      rw [List.nodup_iff_pairwise_ne, List.pairwise_map] at this
      refine List.Pairwise.imp_of_mem ?_ this
      rintro ⟨u, p⟩ ⟨v, q⟩ hp hq hne e
      simp only at e
      subst e
      exact hne (h.inj hp hq)
    have hps2 : ((ns.foldl (fun l p => insertByPrefix p l) []).map (·.2)).Nodup :=
      ((sorted_perm ns).map _).nodup_iff.mpr hps
    unfold cleanDecls declPairs
    rw [List.map_map, List.map_map, List.nodup_iff_pairwise_ne, List.pairwise_map]
    rw [List.nodup_iff_pairwise_ne, List.pairwise_map] at hps2
    refine List.Pairwise.imp_of_mem ?_ hps2
    rintro ⟨u, p⟩ ⟨v, q⟩ hp hq hne e
    refine hne ?_
    simp only [Function.comp, declClean_prefix] at e
    have hp' := h.prefixOk ((sorted_perm ns).mem_iff.mp hp)
    have hlen : ∀ s : Text, "xmlns".toList ≠ "xmlns".toList ++ ':' :: s := by
      intro s e
      have := congrArg List.length e
      simp at this
    by_cases h1 : p = "ns0".toList <;> by_cases h2 : q = "ns0".toList
    · simp only [h1, h2]
    · rw [if_pos h1, if_neg h2] at e; exact absurd e (hlen _)
    · rw [if_neg h1, if_pos h2] at e; exact absurd e.symm (hlen _)
    · rw [if_neg h1, if_neg h2] at e
      have := List.append_cancel_left e
      simpa using this
  exact ⟨hdname, hdecl, hnodup⟩

/-- The reader gets the tree back. -/
theorem read_clean {ns : List (Text × Text)} (h : NamesOk ns) {t x : Text} {a : List (Text × Text)} {ks : List Xml}
    (hE : Everywhere (Known ns) (.elem t a x ks))
    (hu : ∀ p ∈ ns, p.1.all isXmlChar = true) :
    readXml (xmlIntro ++ elemText (tagClean ns) (keyText ns) (attrsText declClean (declPairs ns)) (.elem t a x ks)) =
      some (treeEvents dashUri (.elem t a x ks)) := by
  obtain ⟨hdname, hdecl, hnodup⟩ := decls_facts h hu
  have hafter : afterDecl (xmlIntro ++ elemText (tagClean ns) (keyText ns) (attrsText declClean (declPairs ns))
      (.elem t a x ks)) = '\n' :: elemText (tagClean ns) (keyText ns) (attrsText declClean (declPairs ns))
      (.elem t a x ks) := by
    generalize elemText (tagClean ns) (keyText ns) (attrsText declClean (declPairs ns)) (.elem t a x ks) = y
    have e1 : xmlIntro = "<?xml version=\"1.0\" encoding=\"utf-8\"?".toList ++ '>' :: ['\n'] := by decide +kernel
    unfold afterDecl
    rw [if_pos, e1, List.append_assoc, List.cons_append, dropWhile_ne (by decide +kernel)]
    · rfl
    · rw [List.isPrefixOf_iff_prefix]
      refine List.IsPrefix.trans ?_ (List.prefix_append _ _)
      exact List.isPrefixOf_iff_prefix.mp (by decide +kernel)
  have hmap : attrsText id (cleanDecls ns) = attrsText declClean (declPairs ns) := attrsText_map declClean (declPairs ns)
  have hnil : Lexes [] [] := by
    intro m hm
    cases m with
    | zero => simp at hm
    | succ m => rfl
  have hlex := lexes_elem (.elem t a x ks) hdname (everywhere_mono (fun t a x hk => lexAt_clean h hk) hE) hnil
  rw [List.append_nil, List.append_nil, hmap] at hlex
  have hlex2 : Lexes ('\n' :: elemText (tagClean ns) (keyText ns) (attrsText declClean (declPairs ns)) (.elem t a x ks))
      (Token.chars ['\n'] :: treeTokens (tagClean ns) (keyText ns) (cleanDecls ns) (.elem t a x ks)) := by
    rw [elemText] at hlex ⊢
    exact lexes_chars (x := ['\n']) (by decide) (by simp) hlex
  unfold readXml
  rw [hafter, hlex2 _ (Nat.lt_succ_self _)]
  simp only
  rw [resolve, if_pos (by decide)]
  rw [Everywhere] at hE
  rw [treeTokens, resolve]
  have hkn := expandAttrs_clean h hE.1 hdecl hnodup
  have hdd : declared (cleanDecls ns ++ a.map (fun p => (keyText ns p.1, p.2))) = readerScope ns := by
    have e1 := declared_clean h.toNsOk
    have e2 : declared (a.map (fun p => (keyText ns p.1, p.2))) = [] := (resolveAt_clean h hE.1).2.2
    unfold declared at e1 e2 ⊢
    rw [List.filterMap_append, e1, e2, List.append_nil]
  rw [hdd, hkn, expandTag_clean h hE.1.1.1 hE.1.2.1]
  simp only
  have hks : ∀ {seen : Bool} {f : Text × List (Text × Text)} {st : List (Text × List (Text × Text))},
      f.2 = readerScope ns ++ startScope → ∀ ts,
      resolve (f :: st) seen (treeTokensAll (tagClean ns) (keyText ns) ks ++ ts) =
        (resolve (f :: st) seen ts).map (treeEventsAll dashUri ks ++ ·) := by
    have hall := hE.2
    clear hE hlex hlex2 hkn hafter
    induction ks with
    | nil => intro seen f st hf ts; simp [treeTokensAll, treeEventsAll]
    | cons k ks ih =>
      intro seen f st hf ts
      rw [EverywhereAll] at hall
      rw [treeTokensAll, treeEventsAll, List.append_assoc,
        resolve_elem k (everywhere_mono (fun t a x hk => resolveAt_clean h hk) hall.1) hf,
        ih hall.2 hf]
      cases resolve (f :: st) seen ts with
      | none => rfl
      | some es => simp
  have := resolve_inner (sc := readerScope ns ++ startScope) (qt := tagClean ns) (qk := keyText ns) (t := t) (x := x)
    (ks := ks) (seen := true) (st := []) rfl [] (fun ts => hks rfl ts)
  rw [List.append_nil] at this
  rw [if_neg (by simp), this, treeEvents, resolve]
  simp

end Verif
