import Verif.Lemmas.XlinkKids
import Verif.Lemmas.XmlResolve
import Verif.Spec.Xlink
/-
Reading a manifest with links.
-/
namespace Verif
open Spec

/-- A text with one element, as read inside of an element with these namespaces. -/
def Piece (sc : List (Text × Text)) (w : Text) (ev : List XmlEvent) : Prop :=
  ∃ toks : List Token, (∀ {r : Text} {ts : List Token}, Lexes r ts → Lexes (w ++ r) (toks ++ ts)) ∧
    ∀ {seen : Bool} {f : Text × List (Text × Text)} {st : List (Text × List (Text × Text))}, f.2 = sc → ∀ ts,
      resolve (f :: st) seen (toks ++ ts) = (resolve (f :: st) seen ts).map (ev ++ ·)

theorem piece_nil (sc : List (Text × Text)) : Piece sc [] [] :=
  ⟨[], fun h => h, fun _ ts => by simp⟩

theorem Piece.append {sc : List (Text × Text)} {w w' : Text} {ev ev' : List XmlEvent} (h : Piece sc w ev)
    (h' : Piece sc w' ev') : Piece sc (w ++ w') (ev ++ ev') := by
  obtain ⟨t, h1, h2⟩ := h
  obtain ⟨t', h1', h2'⟩ := h'
  refine ⟨t ++ t', fun hr => ?_, fun hf ts => ?_⟩
  · rw [List.append_assoc, List.append_assoc]
    exact h1 (h1' hr)
  · rw [List.append_assoc, h2 hf, h2' hf, Option.map_map]
    congr 1
    funext es
    simp

theorem piece_elem {ns : List (Text × Text)} (h : NamesOk ns) {k : Xml} (hE : Everywhere (Known ns) k) :
    Piece (readerScope ns ++ startScope) (elemText (tagClean ns) (keyText ns) [] k) (treeEvents dashUri k) := by
  refine ⟨treeTokens (tagClean ns) (keyText ns) [] k, fun hr => ?_, fun hf ts => ?_⟩
  · exact lexes_elem k (l := []) (by simp) (everywhere_mono (fun t a x hk => lexAt_clean h hk) hE) hr
  · exact resolve_elem k (everywhere_mono (fun t a x hk => resolveAt_clean h hk) hE) hf ts

theorem piece_elems {ns : List (Text × Text)} (h : NamesOk ns) {ks : List Xml} (hE : EverywhereAll (Known ns) ks) :
    Piece (readerScope ns ++ startScope) (elemsText (tagClean ns) (keyText ns) ks) (treeEventsAll dashUri ks) := by
  induction ks with
  | nil => rw [elemsText, treeEventsAll]; exact piece_nil _
  | cons k ks ih =>
    rw [EverywhereAll] at hE
    rw [elemsText, treeEventsAll]
    exact (piece_elem h hE.1).append (ih hE.2)

theorem lexes_nil : Lexes [] [] := by
  intro m hm
  cases m with
  | zero => simp at hm
  | succ m => rfl

theorem lexes_text {x w r : Text} {ts : List Token} (hx : x.all isXmlChar = true) (hw : w = [] ∨ ∃ s, w = '<' :: s)
    (h : Lexes (w ++ '<' :: r) ts) :
    Lexes (x.flatMap escText ++ (w ++ '<' :: r)) ((if x = [] then [] else [Token.chars x]) ++ ts) := by
  by_cases h0 : x = []
  · rw [if_pos h0, h0]; exact h
  · rw [if_neg h0]
    rcases hw with rfl | ⟨s, rfl⟩
    · exact lexes_chars hx h0 h
    · exact lexes_chars hx h0 h

/-- A manifest whose children are replaced by other texts. -/
theorem read_pieces {ns : List (Text × Text)} (h : NamesOk ns) {t x : Text} {a : List (Text × Text)}
    (hE : Known ns t a x) (hu : ∀ p ∈ ns, p.1.all isXmlChar = true) {w : Text} {ev : List XmlEvent}
    (hw : Piece (readerScope ns ++ startScope) w ev) (hh : w = [] ∨ ∃ s, w = '<' :: s) :
    readXml (xmlIntro ++ ('<' :: (tagClean ns t ++ (attrsText declClean (declPairs ns) ++ (attrsText (keyText ns) a ++
      '>' :: (x.flatMap escText ++ (w ++ '<' :: '/' :: (tagClean ns t ++ ['>'])))))))) =
      some (XmlEvent.start (manifestTag dashUri t).1 (manifestTag dashUri t).2 (a.map (fun p => (treeName p.1, p.2))) ::
        ((if x = [] then [] else [XmlEvent.chars x]) ++ ev ++ [XmlEvent.stop])) := by
  obtain ⟨hdname, hdecl, hnodup⟩ := decls_facts h hu
  obtain ⟨toks, hw1, hw2⟩ := hw
  obtain ⟨ht, ha, hx⟩ := lexAt_clean h hE
  have hmap : attrsText id (cleanDecls ns) = attrsText declClean (declPairs ns) := attrsText_map declClean (declPairs ns)
  have hall : ∀ p ∈ cleanDecls ns ++ a.map (fun p => (keyText ns p.1, p.2)),
      isName p.1 = true ∧ ∀ c ∈ p.2, isXmlChar c = true ∨ c = '\r' := by
    intro p hp
    rcases List.mem_append.mp hp with hp | hp
    · exact hdname p hp
    · obtain ⟨q, hq, rfl⟩ := List.mem_map.mp hp
      exact ha q hq
  have h1 := lexes_stop ht lexes_nil
  have h2 := hw1 h1
  have h3 := lexes_text hx hh h2
  have h4 := lexes_open ht hall h3
  rw [attrsText_append, attrsText_map, hmap, List.append_assoc] at h4
  generalize hbody : '<' :: (tagClean ns t ++ (attrsText declClean (declPairs ns) ++ (attrsText (keyText ns) a ++
      '>' :: (x.flatMap escText ++ (w ++ '<' :: '/' :: (tagClean ns t ++ ['>'])))))) = y at h4 ⊢
  have hafter : afterDecl (xmlIntro ++ y) = '\n' :: y := by
    have e1 : xmlIntro = "<?xml version=\"1.0\" encoding=\"utf-8\"?".toList ++ '>' :: ['\n'] := by decide +kernel
    unfold afterDecl
    rw [if_pos, e1, List.append_assoc, List.cons_append, dropWhile_ne (by decide +kernel)]
    · rfl
    · rw [List.isPrefixOf_iff_prefix]
      refine List.IsPrefix.trans ?_ (List.prefix_append _ _)
      exact List.isPrefixOf_iff_prefix.mp (by decide +kernel)
  have h5 : Lexes ('\n' :: y) (Token.chars ['\n'] :: (Token.start (tagClean ns t)
      (cleanDecls ns ++ a.map (fun p => (keyText ns p.1, p.2))) ::
      ((if x = [] then [] else [Token.chars x]) ++ (toks ++ [Token.stop (tagClean ns t)])))) := by
    rw [← hbody] at h4 ⊢
    exact lexes_chars (x := ['\n']) (by decide) (by simp) h4
  unfold readXml
  rw [hafter, h5 _ (Nat.lt_succ_self _)]
  simp only
  rw [resolve, if_pos (by decide), resolve]
  have hdd : declared (cleanDecls ns ++ a.map (fun p => (keyText ns p.1, p.2))) = readerScope ns := by
    have e1 := declared_clean h.toNsOk
    have e2 : declared (a.map (fun p => (keyText ns p.1, p.2))) = [] := (resolveAt_clean h hE).2.2
    unfold declared at e1 e2 ⊢
    rw [List.filterMap_append, e1, e2, List.append_nil]
  rw [hdd, expandAttrs_clean h hE hdecl hnodup, expandTag_clean h hE.1.1 hE.2.1]
  simp only
  have h6 : ∀ ts, resolve [(tagClean ns t, readerScope ns ++ startScope)] true
      ((if x = [] then [] else [Token.chars x]) ++ ts) =
      (resolve [(tagClean ns t, readerScope ns ++ startScope)] true ts).map
        ((if x = [] then [] else [XmlEvent.chars x]) ++ ·) := by
    intro ts
    split
    · simp
    · rw [List.singleton_append, resolve]; rfl
  rw [if_neg (by simp), h6, hw2 rfl, resolve, if_pos rfl, resolve]
  simp

/-- A period with an asset identifier. -/
theorem piece_asset {ns : List (Text × Text)} (h : NamesOk ns) {k : Xml} {pid : Text}
    (hp : PeriodAt (tagClean ns) (keyText ns) k pid) (hq : tagClean ns "Period".toList = "Period".toList)
    (hE : Everywhere (Known ns) k) :
    Piece (readerScope ns ++ startScope) (assetPeriod (tagClean ns) (keyText ns) k) (assetPeriodEvents dashUri k) := by
  obtain ⟨t, a, x, ks⟩ := k
  have htag : t = "Period".toList := hp.tag
  subst htag
  rw [Everywhere] at hE
  obtain ⟨hk, hks⟩ := hE
  obtain ⟨toks, hw1, hw2⟩ := piece_elems h hks
  obtain ⟨ht, ha, hx⟩ := lexAt_clean h hk
  obtain ⟨r1, r2, r3⟩ := resolveAt_clean h hk
  rw [hq] at ht r1
  have hall : ∀ p ∈ a.map (fun p => (keyText ns p.1, p.2)),
      isName p.1 = true ∧ ∀ c ∈ p.2, isXmlChar c = true ∨ c = '\r' := by
    intro p hp
    obtain ⟨q, hq, rfl⟩ := List.mem_map.mp hp
    exact ha q hq
  let at2 : List (Text × Text) := [("schemeIdUri".toList, "urn:org:dashif:asset-id:2013".toList),
    ("value".toList, "md:cid:EIDR:10.5240%2f0EFB-02CD-126E-8092-1E49-W".toList)]
  have hat2 : ∀ p ∈ at2, isName p.1 = true ∧ ∀ c ∈ p.2, isXmlChar c = true ∨ c = '\r' := by
    decide +kernel
  have hheadk : elemsText (tagClean ns) (keyText ns) ks = [] ∨ ∃ s, elemsText (tagClean ns) (keyText ns) ks = '<' :: s := by
    cases ks with
    | nil => exact .inl (by rw [elemsText])
    | cons k ks =>
      obtain ⟨s, hs⟩ := elemText_head (tagClean ns) (keyText ns) [] k
      exact .inr ⟨s ++ elemsText (tagClean ns) (keyText ns) ks, by rw [elemsText, hs]; rfl⟩
  refine ⟨Token.start "Period".toList (a.map (fun p => (keyText ns p.1, p.2))) :: Token.chars "\n".toList ::
    Token.start "AssetIdentifier".toList at2 :: Token.stop "AssetIdentifier".toList ::
    ((if x = [] then [] else [Token.chars x]) ++ (toks ++ [Token.stop "Period".toList])), fun {r ts} hr => ?_, ?_⟩
  · have h1 := lexes_stop ht hr
    have h2 := hw1 h1
    have h3 := lexes_text hx hheadk h2
    have h4 := lexes_stop (n := "AssetIdentifier".toList) (by decide +kernel) h3
    have h5 := lexes_open (n := "AssetIdentifier".toList) (by decide +kernel) hat2 h4
    have h6 := lexes_chars (x := "\n".toList) (by decide +kernel) (by decide +kernel) h5
    have h7 := lexes_open ht hall h6
    rw [attrsText_map] at h7
    have e1 : "\n".toList.flatMap escText = "\n".toList := by decide +kernel
    have e2 : assetText = "\n".toList ++ '<' :: ("AssetIdentifier".toList ++ (attrsText id at2 ++ '>' ::
        '<' :: '/' :: ("AssetIdentifier".toList ++ ['>']))) := by decide +kernel
    have e3 : assetPeriod (tagClean ns) (keyText ns) (.elem "Period".toList a x ks) ++ r =
        '<' :: ("Period".toList ++ (attrsText (keyText ns) a ++ '>' :: ("\n".toList ++ '<' ::
          ("AssetIdentifier".toList ++ (attrsText id at2 ++ '>' ::
          '<' :: '/' :: ("AssetIdentifier".toList ++ '>' ::
            (x.flatMap escText ++ (elemsText (tagClean ns) (keyText ns) ks ++
              '<' :: '/' :: ("Period".toList ++ '>' :: r))))))))) := by
      unfold assetPeriod periodTag periodInner
      rw [e2, periodClose_split]
      simp [Xml.attrs, Xml.text, Xml.kids]
    rw [e1] at h7
    rw [e3]
    simpa using h7
  · intro seen f st hf ts
    have hd2 : declared at2 = [] := by decide +kernel
    have htag2 : ∀ {sc : List (Text × Text)}, expandTag sc "Period".toList = some (some dashUri, "Period".toList) →
        expandTag sc "AssetIdentifier".toList = some (some dashUri, "AssetIdentifier".toList) := by
      intro sc hs
      have s1 : splitPrefix "Period".toList = some (none, "Period".toList) := by decide +kernel
      have s2 : splitPrefix "AssetIdentifier".toList = some (none, "AssetIdentifier".toList) := by decide +kernel
      unfold expandTag at hs ⊢
      rw [s1] at hs
      rw [s2]
      simp only [Option.some.injEq, Prod.mk.injEq, and_true] at hs ⊢
      exact hs
    have hat : ∀ sc : List (Text × Text), expandAttrs sc at2 = some
        [((none, "schemeIdUri".toList), "urn:org:dashif:asset-id:2013".toList),
         ((none, "value".toList), "md:cid:EIDR:10.5240%2f0EFB-02CD-126E-8092-1E49-W".toList)] := by
      intro sc
      have hexp : ∀ p ∈ at2, expandAttr sc p = some ((none, p.1), p.2) := by
        intro p hp
        have s1 : ∀ p ∈ at2, splitPrefix p.1 = some (none, p.1) := by decide +kernel
        unfold expandAttr
        rw [s1 p hp]
      have hfil : at2.filter (fun p => !isDecl p.1) = at2 := by decide +kernel
      unfold expandAttrs
      rw [hfil, mapM_some hexp]
      simp only
      rw [if_pos (by decide +kernel)]
      rfl
    have hm : manifestTag dashUri "Period".toList = (some dashUri, "Period".toList) := by decide +kernel
    rw [hm] at r1
    rw [List.cons_append, resolve, r3, List.nil_append, hf, r1, r2]
    simp only [List.cons_append]
    rw [resolve, resolve, hd2, List.nil_append, htag2 r1, hat]
    simp only
    rw [resolve]
    simp only [↓reduceIte]
    have h6 : ∀ ts, resolve (("Period".toList, readerScope ns ++ startScope) :: f :: st) seen
        ((if x = [] then [] else [Token.chars x]) ++ ts) =
        (resolve (("Period".toList, readerScope ns ++ startScope) :: f :: st) seen ts).map
          ((if x = [] then [] else [XmlEvent.chars x]) ++ ·) := by
      intro ts
      split
      · simp
      · rw [List.singleton_append, resolve]; rfl
    rw [List.append_assoc, h6, List.append_assoc, hw2 rfl, List.singleton_append, resolve, if_pos rfl]
    have he : assetPeriodEvents dashUri (.elem "Period".toList a x ks) =
        XmlEvent.start (some dashUri) "Period".toList (a.map (fun p => (treeName p.1, p.2))) ::
          (assetEvents dashUri ++ ((if x = [] then [] else [XmlEvent.chars x]) ++ treeEventsAll dashUri ks ++
            [XmlEvent.stop])) := by
      unfold assetPeriodEvents
      rw [treeEvents, hm]
      rfl
    rw [he]
    unfold assetEvents
    cases resolve (f :: st) seen ts with
    | none => rfl
    | some es => simp

/-- The attributes of a link. -/
def linkAttrs (u : Text) : List (Text × Text) :=
  [("xlink:href".toList, u), ("xlink:actuate".toList, "onLoad".toList), ("xmlns:xlink".toList, xlinkUri)]

theorem linkAttrs_ok {u : Text} (hu : ∀ c ∈ u, isXmlChar c = true ∨ c = '\r') :
    ∀ p ∈ linkAttrs u, isName p.1 = true ∧ ∀ c ∈ p.2, isXmlChar c = true ∨ c = '\r' := by
  intro p hp
  simp only [linkAttrs, List.mem_cons, List.not_mem_nil, or_false] at hp
  rcases hp with rfl | rfl | rfl
  · have hn : isName "xlink:href".toList = true := by decide +kernel
    exact ⟨hn, hu⟩
  · exact ⟨by decide +kernel, by decide +kernel⟩
  · exact ⟨by decide +kernel, by decide +kernel⟩

theorem linkAttrs_text {u raw : Text} (hr : raw = u.flatMap escAttr) :
    attrsText id (linkAttrs u) = " xlink:href=\"".toList ++
      (raw ++ "\" xlink:actuate=\"onLoad\" xmlns:xlink=\"http://www.w3.org/1999/xlink\"".toList) := by
  have e : attrsText id (linkAttrs u) = attrText "xlink:href".toList u ++
      attrsText id [("xlink:actuate".toList, "onLoad".toList), ("xmlns:xlink".toList, xlinkUri)] := rfl
  have e' : '"' :: attrsText id [("xlink:actuate".toList, "onLoad".toList), ("xmlns:xlink".toList, xlinkUri)] =
      "\" xlink:actuate=\"onLoad\" xmlns:xlink=\"http://www.w3.org/1999/xlink\"".toList := by decide +kernel
  have e'' : " xlink:href=\"".toList = ' ' :: ("xlink:href".toList ++ ['=', '"']) := by decide +kernel
  rw [e, ← e', e'', hr]
  unfold attrText
  simp

/-- What a reader makes of the start tag of a link. -/
theorem linkAttrs_resolve {ns : List (Text × Text)} (h : NamesOk ns) (u : Text) :
    declared (linkAttrs u) = [("xlink".toList, xlinkUri)] ∧
    expandTag (("xlink".toList, xlinkUri) :: (readerScope ns ++ startScope)) "Period".toList =
        some (some dashUri, "Period".toList) ∧
    expandAttrs (("xlink".toList, xlinkUri) :: (readerScope ns ++ startScope)) (linkAttrs u) = some
        [((some xlinkUri, "href".toList), u), ((some xlinkUri, "actuate".toList), "onLoad".toList)] := by
  refine ⟨?_, ?_, ?_⟩
  · show ((linkAttrs u).filterMap _) = _
    have e : (linkAttrs u) = ("xlink:href".toList, u) :: [("xlink:actuate".toList, "onLoad".toList),
      ("xmlns:xlink".toList, xlinkUri)] := rfl
    have := declared_none (l := [("xlink:href".toList, u)]) (by
      intro p hp
      simp only [List.mem_singleton] at hp
      subst hp
      have hn : isDecl "xlink:href".toList = false := by decide +kernel
      exact hn)
    have e2 : declared (linkAttrs u) = declared [("xlink:href".toList, u)] ++ declared [("xlink:actuate".toList, "onLoad".toList),
      ("xmlns:xlink".toList, xlinkUri)] := by
      unfold declared
      rw [e, ← List.filterMap_append]; rfl
    show declared (linkAttrs u) = _
    rw [e2, this]
    decide +kernel
  · have s1 : splitPrefix "Period".toList = some (none, "Period".toList) := by decide +kernel
    have hs : uriOf (readerScope ns ++ startScope) [] = some dashUri := by
      have := uriOf_scope h.toNsOk (dictGet_mem h.dash)
      simpa using this
    unfold expandTag
    rw [s1]
    simp only [Option.some.injEq, Prod.mk.injEq, and_true]
    unfold uriOf at hs ⊢
    rw [List.find?_cons_of_neg]
    · exact hs
    · decide +kernel
  · have hfil : (linkAttrs u).filter (fun p => !isDecl p.1) =
        [("xlink:href".toList, u), ("xlink:actuate".toList, "onLoad".toList)] := by
      have i1 : isDecl "xlink:href".toList = false := by decide +kernel
      have i2 : isDecl "xlink:actuate".toList = false := by decide +kernel
      have i3 : isDecl "xmlns:xlink".toList = true := by decide +kernel
      simp only [linkAttrs, List.filter, i1, i2, i3, Bool.not_false, Bool.not_true]
    have huri : uriOf (("xlink".toList, xlinkUri) :: (readerScope ns ++ startScope)) "xlink".toList = some xlinkUri := by
      unfold uriOf
      rw [List.find?_cons_of_pos]
      · rfl
      · decide +kernel
    have s1 : splitPrefix "xlink:href".toList = some (some "xlink".toList, "href".toList) := by decide +kernel
    have s2 : splitPrefix "xlink:actuate".toList = some (some "xlink".toList, "actuate".toList) := by decide +kernel
    unfold expandAttrs
    rw [hfil]
    have hm : List.mapM (expandAttr (("xlink".toList, xlinkUri) :: (readerScope ns ++ startScope)))
        [("xlink:href".toList, u), ("xlink:actuate".toList, "onLoad".toList)] = some
        [((some xlinkUri, "href".toList), u), ((some xlinkUri, "actuate".toList), "onLoad".toList)] := by
      simp only [List.mapM_cons, List.mapM_nil, expandAttr, s1, s2, huri]
      rfl
    rw [hm]
    simp only
    have n1 : ((linkAttrs u).map (·.1)).Nodup := by
      have : (linkAttrs u).map (·.1) = ["xlink:href".toList, "xlink:actuate".toList, "xmlns:xlink".toList] := rfl
      rw [this]; decide +kernel
    rw [if_pos ⟨n1, by simp only [List.map]; decide +kernel⟩]

/-- A link. -/
theorem piece_link {ns : List (Text × Text)} (h : NamesOk ns) {u raw : Text} (hu : ∀ c ∈ u, isXmlChar c = true ∨ c = '\r')
    (hr : raw = u.flatMap escAttr) :
    Piece (readerScope ns ++ startScope) ("<Period xlink:href=\"".toList ++ raw ++ linkTail) (linkEvents dashUri u) := by
  refine ⟨[Token.start "Period".toList (linkAttrs u), Token.stop "Period".toList], fun {r ts} hts => ?_, ?_⟩
  · have h1 := lexes_stop (n := "Period".toList) (by decide +kernel) hts
    have h2 := lexes_open (n := "Period".toList) (by decide +kernel) (linkAttrs_ok hu) h1
    rw [linkAttrs_text hr] at h2
    have e2 : "<Period xlink:href=\"".toList = '<' :: ("Period".toList ++ " xlink:href=\"".toList) := by decide +kernel
    have e3 : linkTail = "\" xlink:actuate=\"onLoad\" xmlns:xlink=\"http://www.w3.org/1999/xlink\"".toList ++
        '>' :: '<' :: '/' :: ("Period".toList ++ ['>']) := by decide +kernel
    rw [e2, e3]
    simpa using h2
  · intro seen f st hf ts
    obtain ⟨hd, ht, ha⟩ := linkAttrs_resolve h u
    rw [List.cons_append, resolve, hf, hd, List.singleton_append, ht, ha]
    simp only [List.singleton_append]
    rw [resolve, if_pos rfl]
    unfold linkEvents
    cases resolve (f :: st) seen ts with
    | none => rfl
    | some es => rfl

/-! ### Links with default content -/

theorem uriOf_skip {sc : List (Text × Text)} {q v p : Text} (h : p ≠ q) : uriOf ((q, v) :: sc) p = uriOf sc p := by
  unfold uriOf
  rw [List.find?_cons_of_neg (by simpa using fun e : q = p => h e.symm)]

/-- A prefix that is not declared outside makes no difference to the names that can be read there. -/
theorem expandTag_more {sc : List (Text × Text)} {q v n : Text} {y : Option Text × Text} (hq : q ≠ [])
    (h0 : uriOf sc q = none) (h : expandTag sc n = some y) : expandTag ((q, v) :: sc) n = some y := by
  unfold expandTag at h ⊢
  split at h
  · rename_i p l hs
    have : p ≠ q := by
      rintro rfl
      rw [h0] at h
      cases h
    rw [uriOf_skip this]
    exact h
  · rw [uriOf_skip (fun e => hq e.symm)]
    exact h
  · cases h

theorem expandAttr_more {sc : List (Text × Text)} {q v : Text} {p : Text × Text} {y : (Option Text × Text) × Text}
    (h0 : uriOf sc q = none) (h : expandAttr sc p = some y) : expandAttr ((q, v) :: sc) p = some y := by
  unfold expandAttr at h ⊢
  split at h
  · rename_i p' l hs
    have : p' ≠ q := by
      rintro rfl
      rw [h0] at h
      cases h
    rw [uriOf_skip this]
    exact h
  · exact h
  · cases h

theorem mapM_more {α β : Type} {f g : α → Option β} (h : ∀ x y, f x = some y → g x = some y) :
    ∀ {l : List α} {r : List β}, l.mapM f = some r → l.mapM g = some r := by
  intro l
  induction l with
  | nil => intro r hr; simpa using hr
  | cons x l ih =>
    intro r hr
    rw [List.mapM_cons] at hr ⊢
    cases hx : f x with
    | none => rw [hx] at hr; cases hr
    | some y =>
      rw [hx] at hr
      rw [h x y hx]
      cases hl : l.mapM f with
      | none => rw [hl] at hr; cases hr
      | some s =>
        rw [hl] at hr
        rw [ih hl]
        exact hr

theorem resolveAt_more {sc : List (Text × Text)} {qt qk : Text → Text} {q v t x : Text} {a : List (Text × Text)}
    (hq : q ≠ []) (h0 : uriOf sc q = none) (h : ResolveAt sc qt qk t a x) : ResolveAt ((q, v) :: sc) qt qk t a x := by
  obtain ⟨h1, h2, h3⟩ := h
  refine ⟨expandTag_more hq h0 h1, ?_, h3⟩
  unfold expandAttrs at h2 ⊢
  split at h2
  · rename_i e he
    rw [mapM_more (fun _ _ => expandAttr_more h0) he]
    exact h2
  · cases h2

theorem xlink_free {ns : List (Text × Text)} (h : NsOk ns) : uriOf (readerScope ns ++ startScope) "xlink".toList = none := by
  unfold uriOf
  rw [Option.map_eq_none_iff, List.find?_eq_none]
  intro p hp
  simp only [decide_eq_true_eq]
  rcases List.mem_append.mp hp with hp | hp
  · obtain ⟨q, hq, e⟩ := mem_readerScope.mp (show (p.1, p.2) ∈ readerScope ns from hp)
    rw [e]
    split
    · decide +kernel
    · obtain ⟨i, hi⟩ := List.mem_iff_getElem?.mp hq
      rcases h.at_ i _ q hi with ⟨h1, _⟩ | ⟨_, h1⟩
      · unfold knownPrefix at h1
        obtain ⟨r, hr, rfl⟩ := Option.map_eq_some_iff.mp h1
        have hall : ∀ r ∈ [(xmlUri, "xml".toList), ("http://www.w3.org/1999/xhtml".toList, "html".toList),
            ("http://www.w3.org/1999/02/22-rdf-syntax-ns#".toList, "rdf".toList),
            ("http://schemas.xmlsoap.org/wsdl/".toList, "wsdl".toList),
            ("http://www.w3.org/2001/XMLSchema".toList, "xs".toList),
            ("http://www.w3.org/2001/XMLSchema-instance".toList, "xsi".toList),
            ("http://purl.org/dc/elements/1.1/".toList, "dc".toList)], r.2 ≠ "xlink".toList := by decide +kernel
        exact hall r (List.mem_of_find?_eq_some hr)
      · rw [h1]
        have e1 : "ns".toList = ['n', 's'] := by decide +kernel
        have e2 : "xlink".toList = ['x', 'l', 'i', 'n', 'k'] := by decide +kernel
        rw [e1, e2]
        simp
  · have : ∀ p ∈ startScope, p.1 ≠ "xlink".toList := by decide +kernel
    exact this p hp

theorem defaultNote_eq : defaultNote = "\n".toList ++ '<' :: '!' :: '-' :: '-' ::
    ("Default content that will be played if the xlink is not able to load.".toList ++ ['-', '-', '>']) := by
  decide +kernel

/-- A link with the content of a period. -/
theorem piece_default {ns : List (Text × Text)} (h : NamesOk ns) {k : Xml} {pid : Text}
    (hp : PeriodAt (tagClean ns) (keyText ns) k pid) (hE : Everywhere (Known ns) k) {u raw : Text}
    (hu : ∀ c ∈ u, isXmlChar c = true ∨ c = '\r') (hr : raw = u.flatMap escAttr) :
    Piece (readerScope ns ++ startScope)
      ("<Period xlink:href=\"".toList ++ (raw ++
          "\" xlink:actuate=\"onLoad\" xmlns:xlink=\"http://www.w3.org/1999/xlink\"".toList) ++ '>' ::
        (defaultNote ++ (periodInner (tagClean ns) (keyText ns) k ++ periodClose)))
      (defaultEvents dashUri u k) := by
  obtain ⟨t, a, x, ks⟩ := k
  have htag : t = "Period".toList := hp.tag
  subst htag
  rw [Everywhere] at hE
  obtain ⟨hk, hks⟩ := hE
  obtain ⟨-, -, hx⟩ := lexAt_clean h hk
  have hheadk : elemsText (tagClean ns) (keyText ns) ks = [] ∨ ∃ s, elemsText (tagClean ns) (keyText ns) ks = '<' :: s := by
    cases ks with
    | nil => exact .inl (by rw [elemsText])
    | cons k ks =>
      obtain ⟨s, hs⟩ := elemText_head (tagClean ns) (keyText ns) [] k
      exact .inr ⟨s ++ elemsText (tagClean ns) (keyText ns) ks, by rw [elemsText, hs]; rfl⟩
  obtain ⟨toks, hw1, hw2⟩ : Piece (("xlink".toList, xlinkUri) :: (readerScope ns ++ startScope))
      (elemsText (tagClean ns) (keyText ns) ks) (treeEventsAll dashUri ks) := by
    clear hheadk hk hp
    induction ks with
    | nil => rw [elemsText, treeEventsAll]; exact piece_nil _
    | cons k ks ih =>
      rw [EverywhereAll] at hks
      rw [elemsText, treeEventsAll]
      refine Piece.append ⟨treeTokens (tagClean ns) (keyText ns) [] k, fun hr => ?_, fun hf ts => ?_⟩ (ih hks.2)
      · exact lexes_elem k (l := []) (by simp) (everywhere_mono (fun t a x hk => lexAt_clean h hk) hks.1) hr
      · refine resolve_elem k (everywhere_mono (fun t a x hk => ?_) hks.1) hf ts
        exact resolveAt_more (by decide +kernel) (xlink_free h.toNsOk) (resolveAt_clean h hk)
  refine ⟨Token.start "Period".toList (linkAttrs u) :: Token.chars "\n".toList ::
    ((if x = [] then [] else [Token.chars x]) ++ (toks ++ [Token.stop "Period".toList])), fun {r ts} hts => ?_, ?_⟩
  · have h1 := lexes_stop (n := "Period".toList) (by decide +kernel) hts
    have h2 := hw1 h1
    have h3 := lexes_text hx hheadk h2
    have h4 := lexes_comment (b := "Default content that will be played if the xlink is not able to load.".toList)
      (by decide +kernel) (by decide +kernel) h3
    have h5 := lexes_chars (x := "\n".toList) (by decide +kernel) (by decide +kernel) h4
    have h6 := lexes_open (n := "Period".toList) (by decide +kernel) (linkAttrs_ok hu) h5
    rw [linkAttrs_text hr] at h6
    have e1 : "\n".toList.flatMap escText = "\n".toList := by decide +kernel
    have e2 : "<Period xlink:href=\"".toList = '<' :: ("Period".toList ++ " xlink:href=\"".toList) := by decide +kernel
    rw [e1] at h6
    rw [e2, defaultNote_eq, periodClose_split]
    unfold periodInner
    have e3 : (Xml.elem "Period".toList a x ks).text = x := rfl
    have e4 : (Xml.elem "Period".toList a x ks).kids = ks := rfl
    rw [e3, e4]
    generalize "Default content that will be played if the xlink is not able to load.".toList = note at h6 ⊢
    generalize "\" xlink:actuate=\"onLoad\" xmlns:xlink=\"http://www.w3.org/1999/xlink\"".toList = tail at h6 ⊢
    generalize " xlink:href=\"".toList = href at h6 ⊢
    simp only [List.append_assoc, List.cons_append, List.nil_append] at h6 ⊢
    exact h6
  · intro seen f st hf ts
    obtain ⟨hd, ht, ha⟩ := linkAttrs_resolve h u
    have h6 : ∀ ts, resolve (("Period".toList, ("xlink".toList, xlinkUri) :: (readerScope ns ++ startScope)) :: f :: st) seen
        ((if x = [] then [] else [Token.chars x]) ++ ts) =
        (resolve (("Period".toList, ("xlink".toList, xlinkUri) :: (readerScope ns ++ startScope)) :: f :: st) seen ts).map
          ((if x = [] then [] else [XmlEvent.chars x]) ++ ·) := by
      intro ts
      split
      · simp
      · rw [List.singleton_append, resolve]; rfl
    rw [List.cons_append, resolve, hf, hd, List.singleton_append, ht, ha]
    simp only [List.cons_append]
    rw [resolve, List.append_assoc, h6, List.append_assoc, hw2 rfl, List.singleton_append, resolve, if_pos rfl]
    unfold defaultEvents linkEvents
    rw [treeEvents]
    cases resolve (f :: st) seen ts with
    | none => rfl
    | some es => simp

end Verif
