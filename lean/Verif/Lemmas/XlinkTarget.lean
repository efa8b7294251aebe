import Verif.Lemmas.XlinkManifest
/-
The reply to the request for one period.
-/
namespace Verif
open Spec

theorem esc_prefix {f : Char} {esc : Char → Text} (he : EscapeOk f esc) : ∀ (s q : Text), '&' ∉ q →
    q <+: s.flatMap esc → q <+: s := by
  intro s
  induction s with
  | nil => intro q _ hq; exact hq
  | cons c s ih =>
    intro q hq hp
    cases q with
    | nil => exact List.nil_prefix
    | cons d q =>
      rw [List.flatMap_cons] at hp
      rcases he c with e | ⟨w, e, _⟩
      · rw [e, List.singleton_append] at hp
        have := List.cons_prefix_cons.mp hp
        rw [this.1]
        exact List.cons_prefix_cons.mpr ⟨rfl, ih q (fun hm => hq (by simp [hm])) this.2⟩
      · rw [e, List.cons_append] at hp
        exact absurd (by rw [(List.cons_prefix_cons.mp hp).1]; simp) hq

theorem esc_infix {f : Char} {o : Text} {esc : Char → Text} (he : EscapeOk f esc) (ha : '&' ∉ f :: o) :
    ∀ {s : Text}, ¬(f :: o) <:+: s → ¬(f :: o) <:+: s.flatMap esc := by
  intro s
  induction s with
  | nil => intro h; exact h
  | cons c s ih =>
    intro h
    have h2 := ih (fun hi => h (hi.trans (List.suffix_cons _ _).isInfix))
    rw [List.flatMap_cons]
    rcases he c with e | ⟨w, e, hw⟩
    · rw [e, List.singleton_append, List.infix_cons_iff]
      rintro (hi | hi)
      · refine h (esc_prefix he (c :: s) (f :: o) ha ?_).isInfix
        rw [List.flatMap_cons, e]
        exact hi
      · exact h2 hi
    · rw [e]
      exact infix_skip hw h2

/-! ### The declaration of the namespace -/

/-- The default namespace in the root. -/
def nsText : Text := "xmlns=\"".toList ++ (dashUri ++ "\"".toList)

theorem decl_fresh {p v : Text} (hp : PrefixOk p) (hv : ¬"xmlns=".toList <:+: v) (h0 : p ≠ "ns0".toList) :
    ¬"xmlns=".toList <:+: attrText (declClean ("xmlns:".toList ++ p)) v := by
  rw [declClean_prefix, if_neg h0]
  have e0 : "xmlns=".toList = 'x' :: "mlns=".toList := by decide +kernel
  have h2 : ¬"xmlns=".toList <:+: v.flatMap escAttr := by
    rw [e0] at hv ⊢
    exact esc_infix (escAttr_ok (by decide +kernel)) (by decide +kernel) hv
  have h3 : ¬"xmlns=".toList <:+: v.flatMap escAttr ++ '"' :: [] := by
    rw [e0] at h2 ⊢
    refine infix_next (by decide +kernel) h2 ?_
    exact fun h => absurd (h.subset (List.mem_cons_self ..)) (by decide)
  have h4 : ¬"xmlns=".toList <:+: '"' :: (v.flatMap escAttr ++ ['"']) := by
    rw [e0] at h3 ⊢
    exact infix_skip (w := ['"']) (by decide) h3
  have h5 : ¬"xmlns=".toList <:+: (' ' :: ("xmlns".toList ++ ':' :: p)) ++ ['='] := by
    rintro ⟨s, t, e⟩
    have heq : '=' ∉ ' ' :: ("xmlns".toList ++ ':' :: p) := by
      simp only [List.mem_cons, List.mem_append, not_or]
      exact ⟨by decide, by decide +kernel, by decide, hp.equal⟩
    have e1 : "xmlns=".toList = "xmlns".toList ++ ['='] := by decide +kernel
    rw [e1] at e
    have hc := congrArg (List.count '=') e
    simp only [List.count_append, List.count_eq_zero_of_not_mem heq, List.count_singleton_self] at hc
    have ht : '=' ∉ t := List.count_eq_zero.mp (by omega)
    have hsuf : "xmlns".toList <:+ ' ' :: ("xmlns".toList ++ ':' :: p) := by
      rcases List.eq_nil_or_concat t with rfl | ⟨t', c, rfl⟩
      · rw [List.append_nil, ← List.append_assoc] at e
        exact ⟨s, (List.append_inj' e rfl).1⟩
      · exfalso
        rw [List.concat_eq_append, ← List.append_assoc] at e
        have := (List.append_inj' e rfl).2
        simp only [List.cons.injEq, and_true] at this
        exact ht (by rw [← this, List.concat_eq_append]; simp)
    have hsuf2 : p <:+ ' ' :: ("xmlns".toList ++ ':' :: p) := ⟨' ' :: ("xmlns".toList ++ [':']), by simp⟩
    have hc2 : ':' :: p <:+ ' ' :: ("xmlns".toList ++ ':' :: p) := ⟨' ' :: "xmlns".toList, by simp⟩
    by_cases hlen : "xmlns".toList.length ≤ p.length
    · exact hp.xmlns (List.suffix_of_suffix_length_le hsuf hsuf2 hlen)
    · have := List.suffix_of_suffix_length_le hc2 hsuf (by simp only [List.length_cons]; omega)
      exact absurd (this.subset (List.mem_cons_self ..)) (by decide +kernel)
  have e : attrText ("xmlns".toList ++ ':' :: p) v =
      ((' ' :: ("xmlns".toList ++ ':' :: p)) ++ ['=']) ++ '"' :: (v.flatMap escAttr ++ ['"']) := by
    unfold attrText; simp
  rw [e]
  rw [e0] at h5 h4 ⊢
  exact infix_next (by decide +kernel) h5 h4

theorem decls_fresh {L : List (Text × Text)}
    (h : ∀ q ∈ L, ¬"xmlns=".toList <:+: attrText (declClean q.1) q.2) : ∀ {pre : Text}, ¬"xmlns=".toList <:+: pre →
    ¬"xmlns=".toList <:+: pre ++ attrsText declClean L := by
  have e0 : "xmlns=".toList = 'x' :: "mlns=".toList := by decide +kernel
  induction L with
  | nil => intro pre hp; simpa [attrsText] using hp
  | cons q L ih =>
    intro pre hp
    have e : attrsText declClean (q :: L) = attrText (declClean q.1) q.2 ++ attrsText declClean L := rfl
    rw [e, ← List.append_assoc]
    refine ih (fun q hq => h q (by simp [hq])) ?_
    have h1 := h q (by simp)
    have e1 : ∃ s, attrText (declClean q.1) q.2 = ' ' :: s := ⟨_, rfl⟩
    obtain ⟨s, e1⟩ := e1
    rw [e1, e0] at h1 ⊢
    rw [e0] at hp
    exact infix_next (by decide +kernel) hp h1

/-- The first `xmlns=` is the default namespace. -/
theorem rootPre_ns {ns : List (Text × Text)} (h : NamesOk ns) (hx : ∀ q ∈ ns, ¬"xmlns=".toList <:+: q.1)
    (a : List (Text × Text)) (y : Text) : ∃ pre rest, rootPre ns a y = pre ++ (nsText ++ rest) ∧
      (∀ r, NoStart "xmlns=".toList pre r) := by
  have hm : ("xmlns:".toList ++ "ns0".toList, dashUri) ∈ declPairs ns :=
    mem_declPairs.mpr ⟨_, List.mem_iff_getElem?.mpr ⟨0, h.first⟩, rfl⟩
  obtain ⟨L, R, hLR, hnot⟩ := List.eq_append_cons_of_mem hm
  have hL : ∀ q ∈ L, ¬"xmlns=".toList <:+: attrText (declClean q.1) q.2 := by
    rintro ⟨n, v⟩ hq
    have hq' : (n, v) ∈ declPairs ns := by rw [hLR]; simp [hq]
    obtain ⟨p, hp, rfl⟩ := mem_declPairs.mp hq'
    refine decl_fresh (h.prefixOk hp) (hx _ hp) ?_
    rintro rfl
    have := h.toNsOk.inj hp (List.mem_iff_getElem?.mpr ⟨0, h.first⟩)
    subst this
    exact hnot hq
  have h1 : ¬"xmlns=".toList <:+: (xmlIntro ++ "<MPD".toList) ++ attrsText declClean L :=
    decls_fresh hL (by decide +kernel)
  have eq : attrsText declClean (declPairs ns) = attrsText declClean L ++ (attrText "xmlns".toList dashUri ++
      attrsText declClean R) := by
    rw [hLR]
    have e2 : declClean ("xmlns:".toList ++ "ns0".toList) = "xmlns".toList := by decide +kernel
    unfold attrsText
    rw [List.flatMap_append, List.flatMap_cons]
    simp only [e2]
  have e3 : attrText "xmlns".toList dashUri = ' ' :: nsText := by decide +kernel
  have e4 : "<MPD".toList = '<' :: "MPD".toList := by decide +kernel
  refine ⟨((xmlIntro ++ "<MPD".toList) ++ attrsText declClean L) ++ [' '], attrsText declClean R ++
    (attrsText (keyText ns) a ++ '>' :: y.flatMap escText), ?_, fun r => noStart_last (by decide +kernel) h1 r⟩
  unfold rootPre
  rw [eq, e3, e4]
  simp

/-! ### The period on its own -/

theorem attrsText_congr {qk qk' : Text → Text} {a : List (Text × Text)} (h : ∀ p ∈ a, qk p.1 = qk' p.1) :
    attrsText qk a = attrsText qk' a := by
  unfold attrsText
  induction a with
  | nil => rfl
  | cons p a ih =>
    rw [List.flatMap_cons, List.flatMap_cons, h p (by simp), ih (fun p hp => h p (by simp [hp]))]

theorem elemText_congr {qt qk qt' qk' : Text → Text} (x : Xml) :
    Everywhere (fun t a _ => qt t = qt' t ∧ ∀ p ∈ a, qk p.1 = qk' p.1) x → ∀ d,
    elemText qt qk d x = elemText qt' qk' d x := by
  refine Xml.rec
    (motive_1 := fun x => Everywhere (fun t a _ => qt t = qt' t ∧ ∀ p ∈ a, qk p.1 = qk' p.1) x → ∀ d,
      elemText qt qk d x = elemText qt' qk' d x)
    (motive_2 := fun xs => EverywhereAll (fun t a _ => qt t = qt' t ∧ ∀ p ∈ a, qk p.1 = qk' p.1) xs →
      elemsText qt qk xs = elemsText qt' qk' xs) ?_ ?_ ?_ x
  · intro t a x ks ih hE d
    rw [Everywhere] at hE
    obtain ⟨⟨h1, h2⟩, hks⟩ := hE
    rw [elemText, elemText, h1, attrsText_congr h2, ih hks]
  · intro _; rw [elemsText, elemsText]
  · intro k ks ih1 ih2 hE
    rw [EverywhereAll] at hE
    rw [elemsText, elemsText, ih1 hE.1, ih2 hE.2]

/-- Only the namespace of DASH. -/
def dashOnly : List (Text × Text) := [(dashUri, "ns0".toList)]

theorem dashOnly_ok : NamesOk dashOnly := by
  have e : dashOnly = [dashUri].foldl addUri [] := by decide +kernel
  refine ⟨?_, rfl⟩
  rw [e]
  exact nsOk_fold _ nsOk_nil

theorem plain_same {ns : List (Text × Text)} (h : NamesOk ns) {t : Text} {a : List (Text × Text)} {x : Text}
    (hk : Known ns t a x) (hp : PlainNames dashUri t a) :
    (tagClean ns t = tagClean dashOnly t ∧ ∀ p ∈ a, keyText ns p.1 = keyText dashOnly p.1) ∧ Known dashOnly t a x := by
  have ht : (tagName t).1 = dashUri := by
    have := hp.1
    rw [tagName_treeName hk.1.1] at this
    simpa using this
  have hxml : ∀ {ns : List (Text × Text)}, NamesOk ns → dictGet ns xmlUri = none := by
    intro ns h
    cases hd : dictGet ns xmlUri with
    | none => rfl
    | some q =>
      obtain ⟨i, hi⟩ := List.mem_iff_getElem?.mp (dictGet_mem hd)
      have hx : knownPrefix xmlUri = some "xml".toList := by decide +kernel
      rcases h.at_ i xmlUri q hi with ⟨h1, h2⟩ | ⟨h1, _⟩
      · rw [hx] at h1
        exact absurd (Option.some.inj h1).symm h2
      · rw [hx] at h1; cases h1
  have hpa : ∀ p ∈ a, (treeName p.1).1 = none ∨ (treeName p.1).1 = some xmlUri := hp.2
  refine ⟨⟨?_, ?_⟩, hk.1, ?_, ?_⟩
  · unfold tagClean
    rw [if_pos ht, if_pos ht]
  · intro p hm
    unfold keyText
    cases hc : (attrName p.1).1 with
    | none => rfl
    | some u =>
      rw [attrName_treeName (hk.1.2.1 p hm).1] at hc
      rcases hpa p hm with h0 | h0
      · rw [hc] at h0; cases h0
      · rw [hc] at h0
        cases h0
        simp only
        unfold qualified
        rw [hxml h, hxml dashOnly_ok]
  · rw [ht]
    left
    decide +kernel
  · intro p hm u hu
    rw [attrName_treeName (hk.1.2.1 p hm).1] at hu
    rcases hpa p hm with h0 | h0
    · rw [h0] at hu; cases hu
    · rw [h0] at hu
      cases hu
      right
      decide +kernel

/-- The text of one period with the namespace. -/
theorem read_period {qk : Text → Text} {k : Xml} {pid : Text}
    (hqk : qk = keyText dashOnly)
    (hp : PeriodAt (tagClean dashOnly) qk k pid) (hE : Everywhere (Known dashOnly) k) :
    readXml (periodTag qk k ++ (' ' :: nsText ++ '>' :: (periodInner (tagClean dashOnly) qk k ++ periodClose))) =
      some (treeEvents dashUri k) := by
  subst hqk
  have h := dashOnly_ok
  obtain ⟨t, a, x, ks⟩ := k
  have htag : t = "Period".toList := hp.tag
  subst htag
  rw [Everywhere] at hE
  obtain ⟨hk, hks⟩ := hE
  obtain ⟨toks, hw1, hw2⟩ := piece_elems h hks
  obtain ⟨ht, ha, hx⟩ := lexAt_clean h hk
  obtain ⟨r1, r2, r3⟩ := resolveAt_clean h hk
  have hq : tagClean dashOnly "Period".toList = "Period".toList := tagClean_dash (by decide +kernel)
  rw [hq] at ht r1
  have hdecl : ∀ p ∈ [("xmlns".toList, dashUri)], isName p.1 = true ∧ ∀ c ∈ p.2, isXmlChar c = true ∨ c = '\r' := by
    decide +kernel
  have hall : ∀ p ∈ a.map (fun p => (keyText dashOnly p.1, p.2)) ++ [("xmlns".toList, dashUri)],
      isName p.1 = true ∧ ∀ c ∈ p.2, isXmlChar c = true ∨ c = '\r' := by
    intro p hp
    rcases List.mem_append.mp hp with hp | hp
    · obtain ⟨q, hq, rfl⟩ := List.mem_map.mp hp
      exact ha q hq
    · exact hdecl p hp
  have hheadk : elemsText (tagClean dashOnly) (keyText dashOnly) ks = [] ∨
      ∃ s, elemsText (tagClean dashOnly) (keyText dashOnly) ks = '<' :: s := by
    cases ks with
    | nil => exact .inl (by rw [elemsText])
    | cons k ks =>
      obtain ⟨s, hs⟩ := elemText_head (tagClean dashOnly) (keyText dashOnly) [] k
      exact .inr ⟨s ++ elemsText (tagClean dashOnly) (keyText dashOnly) ks, by rw [elemsText, hs]; rfl⟩
  have h1 := lexes_stop ht lexes_nil
  have h2 := hw1 h1
  have h3 := lexes_text hx hheadk h2
  have h4 := lexes_open ht hall h3
  have hns : attrsText id [("xmlns".toList, dashUri)] = ' ' :: nsText := by decide +kernel
  rw [attrsText_append, attrsText_map, hns] at h4
  have etext : periodTag (keyText dashOnly) (.elem "Period".toList a x ks) ++ (' ' :: nsText ++ '>' ::
      (periodInner (tagClean dashOnly) (keyText dashOnly) (.elem "Period".toList a x ks) ++ periodClose)) =
      '<' :: ("Period".toList ++ ((attrsText (keyText dashOnly) a ++ ' ' :: nsText) ++ '>' ::
        (x.flatMap escText ++ (elemsText (tagClean dashOnly) (keyText dashOnly) ks ++
          '<' :: '/' :: ("Period".toList ++ ['>']))))) := by
    unfold periodTag periodInner
    rw [periodClose_split]
    simp [Xml.attrs, Xml.text, Xml.kids]
  rw [etext]
  have hafter : ∀ w, afterDecl ('<' :: ("Period".toList ++ w)) = '<' :: ("Period".toList ++ w) := by
    intro w
    unfold afterDecl
    rw [if_neg]
    intro hp
    have hp := List.isPrefixOf_iff_prefix.mp hp
    have e1 : "<?xml ".toList = '<' :: '?' :: "xml ".toList := by decide +kernel
    have e2 : "Period".toList = 'P' :: "eriod".toList := by decide +kernel
    rw [e1, e2] at hp
    exact absurd (List.cons_prefix_cons.mp (List.cons_prefix_cons.mp hp).2).1 (by decide)
  unfold readXml
  rw [hafter, h4 _ (Nat.lt_succ_self _)]
  simp only
  have hscope : readerScope dashOnly = [([], dashUri)] := by decide +kernel
  have hd : declared (a.map (fun p => (keyText dashOnly p.1, p.2)) ++ [("xmlns".toList, dashUri)]) = readerScope dashOnly := by
    have e : ∀ l l', declared (l ++ l') = declared l ++ declared l' := by
      intro l l'; unfold declared; rw [List.filterMap_append]
    rw [e, r3, hscope]
    decide +kernel
  have hat := expandAttrs_clean h hk (d := [("xmlns".toList, dashUri)]) (by decide +kernel) (by decide +kernel)
  have hat2 : expandAttrs (readerScope dashOnly ++ startScope)
      (a.map (fun p => (keyText dashOnly p.1, p.2)) ++ [("xmlns".toList, dashUri)]) =
      some (a.map (fun p => (treeName p.1, p.2))) := by
    rw [← hat]
    unfold expandAttrs
    have hdec : isDecl ("xmlns".toList, dashUri).1 = true := by decide +kernel
    have hf : (a.map (fun p => (keyText dashOnly p.1, p.2)) ++ [("xmlns".toList, dashUri)]).filter (fun p => !isDecl p.1) =
        ([("xmlns".toList, dashUri)] ++ a.map (fun p => (keyText dashOnly p.1, p.2))).filter (fun p => !isDecl p.1) := by
      rw [List.filter_append, List.filter_append]
      have : [("xmlns".toList, dashUri)].filter (fun p => !isDecl p.1) = [] := by
        rw [List.filter_eq_nil_iff]
        intro p hp
        simp only [List.mem_singleton] at hp
        rw [hp, hdec]; simp
      rw [this]; simp
    have hperm : ((a.map (fun p => (keyText dashOnly p.1, p.2)) ++ [("xmlns".toList, dashUri)]).map (·.1)).Nodup ↔
        (([("xmlns".toList, dashUri)] ++ a.map (fun p => (keyText dashOnly p.1, p.2))).map (·.1)).Nodup :=
      (List.perm_append_comm.map _).nodup_iff
    rw [hf]
    cases List.mapM (expandAttr (readerScope dashOnly ++ startScope)) (([("xmlns".toList, dashUri)] ++
        a.map (fun p => (keyText dashOnly p.1, p.2))).filter (fun p => !isDecl p.1)) with
    | none => rfl
    | some e => simp only [hperm]
  rw [resolve, if_neg (by simp), hd, r1, hat2]
  simp only
  have h6 : ∀ ts, resolve [("Period".toList, readerScope dashOnly ++ startScope)] true
      ((if x = [] then [] else [Token.chars x]) ++ ts) =
      (resolve [("Period".toList, readerScope dashOnly ++ startScope)] true ts).map
        ((if x = [] then [] else [XmlEvent.chars x]) ++ ·) := by
    intro ts
    split
    · simp
    · rw [List.singleton_append, resolve]; rfl
  rw [h6, hw2 rfl, resolve, if_pos rfl, resolve, treeEvents]
  simp

/-- The reply to the request for a period. -/
theorem linkedPeriod_reads {a : List (Text × Text)} {y : Text} {ks : List Xml} {u : Text} (h : LinkReady a y ks u)
    (hx : ∀ q ∈ namespacesOf (.elem "MPD".toList a y ks), ¬"xmlns=".toList <:+: q.1)
    {k : Xml} (hm : k ∈ ks) (hp : isPeriod dashUri k = true) (hpl : Everywhere (fun t a _ => PlainNames dashUri t a) k)
    {name : Text} (hname : '+' ∉ name) :
    ∃ reply, linkedPeriodText (fullXml (.elem "MPD".toList a y ks)) (name ++ "+".toList ++ idAttr k ++ ".period".toList) =
        .ok reply ∧ readXml reply = some (treeEvents dashUri k) := by
  have ht : (tagName "MPD".toList).1 = dashUri := by decide +kernel
  have hn := namesOk (a := a) (x := y) (ks := ks) ht
  have hk := uris_known h.writable
  rw [Everywhere] at hk
  obtain ⟨A, B, hs⟩ := List.append_of_mem hm
  have hplace := (period_place h hs hp).1
  have h0 : ks ≠ [] := by rw [hs]; simp
  rw [fullXml_split h0 h.writable]
  have hsplit : elemsText (tagClean (namespacesOf (.elem "MPD".toList a y ks)))
      (keyText (namespacesOf (.elem "MPD".toList a y ks))) ks = _ := congrArg _ hs
  rw [hsplit, elemsText_append, elemsText]
  generalize namespacesOf (.elem "MPD".toList a y ks) = ns at hn hk hx hplace ⊢
  have hkk := everywhereAll_mem.mp hk.2 k hm
  have hpa := periodAt_ok hn hkk (h.period k hm hp)
  have hq : tagClean ns "Period".toList = "Period".toList := tagClean_dash (by decide +kernel)
  obtain ⟨pre, rest, hpre, hno⟩ := rootPre_ns hn hx a y
  have hid : IsId (idAttr k) := hpa.id
  -- the name
  have hfile : splitChar '+' (name ++ "+".toList ++ idAttr k ++ ".period".toList) =
      [name, idAttr k ++ ".period".toList] := by
    have e : name ++ "+".toList ++ idAttr k ++ ".period".toList = name ++ '+' :: (idAttr k ++ ".period".toList) := by
      have e1 : "+".toList = ['+'] := by decide +kernel
      rw [e1]; simp
    have hn' : ∀ x ∈ name, x ≠ '+' := by
      rintro x hx rfl
      exact hname hx
    rw [e, splitChar_sep hn', splitChar_noSep]
    intro x hx he
    subst he
    rcases List.mem_append.mp hx with hx | hx
    · exact hid.not_mem (by decide) (by decide) (by decide) hx
    · exact absurd hx (by decide +kernel)
  have hslice : textSlice 0 (-7) (idAttr k ++ ".period".toList) = idAttr k := by
    have hl : ".period".toList.length = 7 := by decide +kernel
    have e1 : pyIndex (idAttr k ++ ".period".toList).length (-7) = (idAttr k).length := by
      unfold pyIndex
      rw [if_pos (by decide), List.length_append, hl]
      omega
    have e2 : pyIndex (idAttr k ++ ".period".toList).length 0 = 0 := by
      unfold pyIndex
      rw [if_neg (by decide)]
      simp
    unfold textSlice
    rw [e1, e2, List.take_left, List.drop_zero]
  generalize hT : rootPre ns a y ++ (elemsText (tagClean ns) (keyText ns) A ++
    (elemText (tagClean ns) (keyText ns) [] k ++ elemsText (tagClean ns) (keyText ns) B) ++ rootPost) = T
  have hT1 : T = (rootPre ns a y ++ elemsText (tagClean ns) (keyText ns) A) ++
      (elemText (tagClean ns) (keyText ns) [] k ++ (elemsText (tagClean ns) (keyText ns) B ++ rootPost)) := by
    rw [← hT]; simp
  obtain ⟨f1, f2⟩ := period_found hq (keyText_id ns) hpa (elemsText (tagClean ns) (keyText ns) B ++ rootPost) hplace
  rw [← hT1] at f1 f2
  have hT2 : ∃ r2, T = pre ++ (nsText ++ r2) := by
    rw [hT1, hpre]
    exact ⟨_, by simp only [List.append_assoc]; rfl⟩
  obtain ⟨r2, hT2⟩ := hT2
  have en : nsText = "xmlns=".toList ++ ("\"".toList ++ (dashUri ++ "\"".toList)) := by decide +kernel
  have g1 : pyFind "xmlns=".toList T 0 = (pre.length : Int) := by
    have := pyFind_at (sub := "xmlns=".toList) [] (pre := pre) ("\"".toList ++ (dashUri ++ "\"".toList) ++ r2) (hno _)
    have e : T = [] ++ (pre ++ ("xmlns=".toList ++ ("\"".toList ++ (dashUri ++ "\"".toList) ++ r2))) := by
      rw [hT2, en]; simp
    rw [← e] at this
    simpa using this
  have g2 : pyFind "\"".toList T ((pre.length : Int) + 7) + 1 = ((pre.length + nsText.length : Nat) : Int) := by
    have hq1 : "\"".toList = ['"'] := by decide +kernel
    have hns : NoStart "\"".toList dashUri ("\"".toList ++ r2) := by
      rw [hq1]; exact noStart_char (by decide +kernel) _
    have := pyFind_at (pre ++ "xmlns=\"".toList) r2 hns
    have e : T = (pre ++ "xmlns=\"".toList) ++ (dashUri ++ ("\"".toList ++ r2)) := by
      rw [hT2]; unfold nsText; simp
    rw [← e, List.length_append] at this
    have hl : "xmlns=\"".toList.length = 7 := by decide +kernel
    have hl2 : nsText.length = 7 + dashUri.length + 1 := by decide +kernel
    rw [hl] at this
    have e7 : (((pre.length + 7 : Nat)) : Int) = (pre.length : Int) + 7 := by push_cast; rfl
    rw [e7] at this
    rw [this, hl2]
    push_cast
    omega
  have g3 : textSlice (pre.length : Int) ((pre.length + nsText.length : Nat) : Int) T = nsText := by
    rw [hT2]; exact textSlice_mid pre nsText r2
  have g4 : textSlice ((rootPre ns a y ++ elemsText (tagClean ns) (keyText ns) A).length : Int)
      (((rootPre ns a y ++ elemsText (tagClean ns) (keyText ns) A).length +
        (elemText (tagClean ns) (keyText ns) [] k).length : Nat) : Int) T = elemText (tagClean ns) (keyText ns) [] k := by
    rw [hT1]; exact textSlice_mid _ _ _
  -- the tag
  obtain ⟨r, hr⟩ := periodTag_open (keyText_id ns) hpa
  have hlast : ∃ b, periodTag (keyText ns) k = b ++ ['"'] := by
    obtain ⟨a', hat⟩ := hpa.attrs
    obtain ⟨l, p, hl⟩ : ∃ l p, k.attrs = l ++ [p] := by
      rcases List.eq_nil_or_concat k.attrs with e | ⟨l, p, e⟩
      · rw [e] at hat; cases hat
      · exact ⟨l, p, by rw [e, List.concat_eq_append]⟩
    unfold periodTag attrsText
    rw [hl, List.flatMap_append]
    refine ⟨'<' :: "Period".toList ++ (attrsText (keyText ns) l ++ (' ' :: (keyText ns p.1 ++ '=' :: '"' :: p.2.flatMap escAttr))), ?_⟩
    simp [attrsText, attrText]
  obtain ⟨b, hb⟩ := hlast
  have hrep : replaceOnce "\">".toList ("\" ".toList ++ nsText ++ ">".toList) (elemText (tagClean ns) (keyText ns) [] k) =
      periodTag (keyText ns) k ++ (' ' :: nsText ++ '>' :: (periodInner (tagClean ns) (keyText ns) k ++ periodClose)) := by
    have e1 : "\">".toList = ['"', '>'] := by decide +kernel
    have e2 : "\" ".toList = ['"', ' '] := by decide +kernel
    have e3 : ">".toList = ['>'] := by decide +kernel
    have hgt := periodTag_gt hpa
    have hns : NoStart "\">".toList b ("\">".toList ++ (periodInner (tagClean ns) (keyText ns) k ++ periodClose)) := by
      intro s h0 hs hpf
      rw [e1] at hpf
      obtain ⟨c, s', rfl⟩ := List.exists_cons_of_ne_nil h0
      rw [List.cons_append] at hpf
      have h2 := (List.cons_prefix_cons.mp hpf).2
      cases s' with
      | nil =>
        rw [List.nil_append, List.cons_append] at h2
        exact absurd (List.cons_prefix_cons.mp h2).1 (by decide)
      | cons d s' =>
        rw [List.cons_append] at h2
        refine hgt ?_
        rw [hb, (List.cons_prefix_cons.mp h2).1]
        exact List.mem_append_left _ (hs.subset (by simp))
    have := replaceOnce_at (old := "\">".toList) (by decide +kernel) ("\" ".toList ++ nsText ++ ">".toList)
      (periodInner (tagClean ns) (keyText ns) k ++ periodClose) hns
    rw [period_text hq hpa, hb]
    rw [e1, e2, e3] at this ⊢
    simpa using this
  refine ⟨periodTag (keyText ns) k ++
    (' ' :: nsText ++ '>' :: (periodInner (tagClean ns) (keyText ns) k ++ periodClose)), ?_, ?_⟩
  · unfold linkedPeriodText
    rw [hfile]
    simp only
    rw [hslice, g1, g2, g3]
    have f1' : pyFind (idAttr k) T 0 - 12 = _ := f1
    rw [f1', f2, g4, hrep]
  · have hsame := everywhere_mono (fun t a x hx => plain_same hn hx.1 hx.2) (everywhere_and k hkk hpl)
    have hE : Everywhere (Known dashOnly) k := everywhere_mono (fun t a x hx => hx.2) hsame
    have hpa' := periodAt_ok dashOnly_ok hE (h.period k hm hp)
    have hq' : tagClean dashOnly "Period".toList = "Period".toList := tagClean_dash (by decide +kernel)
    have htx := elemText_congr k (everywhere_mono (fun t a x hx => hx.1) hsame) []
    have hrd := read_period rfl hpa' hE
    have key : periodTag (keyText ns) k ++ (' ' :: nsText ++ '>' :: (periodInner (tagClean ns) (keyText ns) k ++ periodClose)) =
        periodTag (keyText dashOnly) k ++ (' ' :: nsText ++ '>' :: (periodInner (tagClean dashOnly) (keyText dashOnly) k ++ periodClose)) := by
      have h1 : attrsText (keyText ns) k.attrs = attrsText (keyText dashOnly) k.attrs := by
        obtain ⟨t, a, x, ks⟩ := k
        rw [Everywhere] at hsame
        exact attrsText_congr hsame.1.1.2
      have e1 : periodTag (keyText ns) k = periodTag (keyText dashOnly) k := by
        unfold periodTag; rw [h1]
      have e2 := (period_text hq hpa).symm.trans (htx.trans (period_text hq' hpa'))
      rw [e1] at e2
      have e3 := List.cons.inj (List.append_cancel_left e2)
      rw [e1, e3.2]
    rw [key]
    exact hrd

end Verif
