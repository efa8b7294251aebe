import Verif.Lemmas.XmlClean
/-
What the reader gets from the text of an element tree.
-/
namespace Verif
open Spec

theorem charData_ref {norm : Char → Char} (w : Text) (hw : ';' ∉ w) : ∀ (acc : Text) {c : Char},
    reference (acc ++ w) = some c → ∀ r,
    charData norm (some acc) (w ++ ';' :: r) = (charData norm none r).map (c :: ·) := by
  induction w with
  | nil =>
    intro acc c h r
    rw [List.append_nil] at h
    rw [List.nil_append, charData, if_pos rfl, h]
  | cons d w ih =>
    intro acc c h r
    rw [List.cons_append, charData, if_neg (fun e => hw (by simp [e])),
      ih (fun hm => hw (by simp [hm])) (acc ++ [d]) (by simpa using h)]

theorem charData_amp {norm : Char → Char} {e w : Text} {c : Char} (he : e = '&' :: w ++ [';']) (hw : ';' ∉ w)
    (h : reference w = some c) (r : Text) :
    charData norm none (e ++ r) = (charData norm none r).map (c :: ·) := by
  rw [he, List.append_assoc, List.cons_append, charData, if_pos rfl]
  exact charData_ref w hw [] h r

theorem charData_plain {norm : Char → Char} {c : Char} (hc : isXmlChar c = true) (h1 : c ≠ '&') (h2 : c ≠ '<')
    (h3 : norm c = c) (r : Text) : charData norm none ([c] ++ r) = (charData norm none r).map (c :: ·) := by
  rw [List.singleton_append, charData, if_neg h1, if_pos ⟨hc, h2⟩, h3]

theorem charData_escText {c : Char} (hc : isXmlChar c = true) (r : Text) :
    charData id none (escText c ++ r) = (charData id none r).map (c :: ·) := by
  unfold escText
  split
  · rename_i e; subst e
    exact charData_amp (w := "amp".toList) (by decide +kernel) (by decide +kernel) (by decide +kernel) r
  split
  · rename_i e; subst e
    exact charData_amp (w := "lt".toList) (by decide +kernel) (by decide +kernel) (by decide +kernel) r
  split
  · rename_i e; subst e
    exact charData_amp (w := "gt".toList) (by decide +kernel) (by decide +kernel) (by decide +kernel) r
  · exact charData_plain hc (by assumption) (by assumption) rfl r

theorem charData_escAttr {c : Char} (hc : isXmlChar c = true ∨ c = '\r') (r : Text) :
    charData attrNorm none (escAttr c ++ r) = (charData attrNorm none r).map (c :: ·) := by
  unfold escAttr
  split
  · rename_i e; subst e
    exact charData_amp (w := "amp".toList) (by decide +kernel) (by decide +kernel) (by decide +kernel) r
  split
  · rename_i e; subst e
    exact charData_amp (w := "lt".toList) (by decide +kernel) (by decide +kernel) (by decide +kernel) r
  split
  · rename_i e; subst e
    exact charData_amp (w := "gt".toList) (by decide +kernel) (by decide +kernel) (by decide +kernel) r
  split
  · rename_i e; subst e
    exact charData_amp (w := "quot".toList) (by decide +kernel) (by decide +kernel) (by decide +kernel) r
  split
  · rename_i e; subst e
    exact charData_amp (w := "#13".toList) (by decide +kernel) (by decide +kernel) (by decide +kernel) r
  split
  · rename_i e; subst e
    exact charData_amp (w := "#10".toList) (by decide +kernel) (by decide +kernel) (by decide +kernel) r
  split
  · rename_i e; subst e
    exact charData_amp (w := "#09".toList) (by decide +kernel) (by decide +kernel) (by decide +kernel) r
  · rename_i h1 h2 h3 h4 h5 h6 h7
    have hx : isXmlChar c = true := hc.resolve_right h5
    refine charData_plain hx h1 h2 ?_ r
    unfold attrNorm isXmlSpace
    split
    · rename_i h
      simp only [h7, h6, h5, decide_false, Bool.or_false, decide_eq_true_eq] at h
      exact h.symm
    · rfl

theorem charData_text {x : Text} (hx : x.all isXmlChar = true) : charData id none (x.flatMap escText) = some x := by
  induction x with
  | nil => rfl
  | cons c x ih =>
    rw [List.all_cons, Bool.and_eq_true] at hx
    rw [List.flatMap_cons, charData_escText hx.1, ih hx.2]; rfl

theorem charData_value {v : Text} (hv : ∀ c ∈ v, isXmlChar c = true ∨ c = '\r') :
    charData attrNorm none (v.flatMap escAttr) = some v := by
  induction v with
  | nil => rfl
  | cons c v ih =>
    rw [List.flatMap_cons, charData_escAttr (hv c (by simp)), ih (fun d hd => hv d (by simp [hd]))]; rfl

theorem not_mem_escText (x : Text) : '<' ∉ x.flatMap escText := by
  rw [List.mem_flatMap]
  rintro ⟨c, _, h⟩
  unfold escText at h
  split at h
  · revert h; decide +kernel
  split at h
  · revert h; decide +kernel
  split at h
  · revert h; decide +kernel
  · rename_i h2 _
    simp only [List.mem_singleton] at h
    exact h2 h.symm

theorem not_mem_escAttr (x : Text) : '"' ∉ x.flatMap escAttr := by
  rw [List.mem_flatMap]
  rintro ⟨c, _, h⟩
  unfold escAttr at h
  iterate 7
    split at h
    · revert h; decide +kernel
  rename_i h4 _ _ _
  simp only [List.mem_singleton] at h
  exact h4 h.symm

theorem isName_cons {n : Text} (h : isName n = true) : ∃ c cs, n = c :: cs ∧ isNameStart c = true := by
  unfold isName at h
  rw [Bool.and_eq_true] at h
  cases n with
  | nil => simp at h
  | cons c cs => exact ⟨c, cs, rfl, by simpa using h.2⟩

theorem nameStart_ne {c d : Char} (h : isNameStart c = true) (hd : isNameStart d = false) : c ≠ d := by
  rintro rfl; rw [h] at hd; exact absurd hd (by simp)

theorem takeWhile_name {n : Text} (h : isName n = true) {c : Char} (hc : isNameChar c = false) (r : Text) :
    (n ++ c :: r).takeWhile isNameChar = n := by
  unfold isName at h
  rw [Bool.and_eq_true, List.all_eq_true] at h
  exact takeWhile_append_stop h.1 hc

theorem dropWhile_name {n : Text} (h : isName n = true) {c : Char} (hc : isNameChar c = false) (r : Text) :
    (n ++ c :: r).dropWhile isNameChar = c :: r := by
  unfold isName at h
  rw [Bool.and_eq_true, List.all_eq_true] at h
  rw [List.dropWhile_append_of_pos h.1, List.dropWhile_cons, hc]
  simp

/-- One attribute. -/
theorem lexAttrs_step {n v : Text} (hn : isName n = true) (hv : ∀ c ∈ v, isXmlChar c = true ∨ c = '\r')
    (m : Nat) (r : Text) :
    lexAttrs (m + 1) (attrText n v ++ r) = (lexAttrs m r).map (fun x => ((n, v) :: x.1, x.2)) := by
  obtain ⟨c, cs, rfl, hc⟩ := isName_cons hn
  have e : attrText (c :: cs) v ++ r = ' ' :: (c :: cs ++ '=' :: ('"' :: (v.flatMap escAttr ++ '"' :: r))) := by
    unfold attrText; simp
  have hsp : isXmlSpace c = false := by
    unfold isXmlSpace
    simp [nameStart_ne hc (d := ' ') (by decide), nameStart_ne hc (d := '\t') (by decide),
      nameStart_ne hc (d := '\n') (by decide), nameStart_ne hc (d := '\r') (by decide)]
  have hd : (attrText (c :: cs) v ++ r).dropWhile isXmlSpace =
      c :: cs ++ '=' :: ('"' :: (v.flatMap escAttr ++ '"' :: r)) := by
    rw [e, List.dropWhile_cons, if_pos (by decide), List.cons_append, List.dropWhile_cons, hsp]
    simp
  have h1 : c ≠ '/' := nameStart_ne hc (by decide)
  have h2 : c ≠ '>' := nameStart_ne hc (by decide)
  rw [lexAttrs, hd]
  split
  · rename_i h; simp only [List.cons_append, List.cons.injEq] at h; exact absurd h.1 h1
  · rename_i h; simp only [List.cons_append, List.cons.injEq] at h; exact absurd h.1 h2
  · have h3 : ((attrText (c :: cs) v ++ r).head?.any isXmlSpace) = true := by rw [e]; rfl
    rw [takeWhile_name hn (by decide), dropWhile_name hn (by decide), hn, h3, if_pos (by simp)]
    simp only
    rw [takeWhile_ne (not_mem_escAttr v), dropWhile_ne (not_mem_escAttr v), charData_value hv]
    rfl

/-- All attributes with the end of an empty element. -/
theorem lexAttrs_empty {l : List (Text × Text)}
    (h : ∀ p ∈ l, isName p.1 = true ∧ ∀ c ∈ p.2, isXmlChar c = true ∨ c = '\r') (r : Text) :
    ∀ m, l.length < m → lexAttrs m (attrsText id l ++ ' ' :: '/' :: '>' :: r) = some (l, true, r) := by
  induction l with
  | nil =>
    intro m hm
    obtain ⟨k, rfl⟩ := Nat.exists_eq_add_of_lt hm
    rfl
  | cons p l ih =>
    intro m hm
    cases m with
    | zero => simp at hm
    | succ m =>
      have e : attrsText id (p :: l) = attrText p.1 p.2 ++ attrsText id l := rfl
      rw [e, List.append_assoc, lexAttrs_step (h p (by simp)).1 (h p (by simp)).2,
        ih (fun q hq => h q (by simp [hq])) m (by simpa using hm)]
      rfl

/-- All attributes with the end of a start tag. -/
theorem lexAttrs_open {l : List (Text × Text)}
    (h : ∀ p ∈ l, isName p.1 = true ∧ ∀ c ∈ p.2, isXmlChar c = true ∨ c = '\r') (r : Text) :
    ∀ m, l.length < m → lexAttrs m (attrsText id l ++ '>' :: r) = some (l, false, r) := by
  induction l with
  | nil =>
    intro m hm
    obtain ⟨k, rfl⟩ := Nat.exists_eq_add_of_lt hm
    rfl
  | cons p l ih =>
    intro m hm
    cases m with
    | zero => simp at hm
    | succ m =>
      have e : attrsText id (p :: l) = attrText p.1 p.2 ++ attrsText id l := rfl
      rw [e, List.append_assoc, lexAttrs_step (h p (by simp)).1 (h p (by simp)).2,
        ih (fun q hq => h q (by simp [hq])) m (by simpa using hm)]
      rfl

/-- The text consists of these pieces. -/
def Lexes (t : Text) (ts : List Token) : Prop := ∀ m, t.length < m → lex m t = some ts

theorem attrsText_length (l : List (Text × Text)) : l.length ≤ (attrsText id l).length := by
  induction l with
  | nil => simp
  | cons p l ih =>
    have e : attrsText id (p :: l) = attrText p.1 p.2 ++ attrsText id l := rfl
    rw [e, List.length_append, List.length_cons]
    have : 0 < (attrText p.1 p.2).length := by unfold attrText; simp
    omega

theorem headOut_name {l : List (Text × Text)} {c : Char} (r : Text) (hc : isNameChar c = false) :
    ∃ d s, attrsText id l ++ c :: r = d :: s ∧ isNameChar d = false := by
  cases l with
  | nil => exact ⟨c, r, rfl, hc⟩
  | cons p l =>
    have e : attrsText id (p :: l) = attrText p.1 p.2 ++ attrsText id l := rfl
    rw [e]; unfold attrText
    exact ⟨' ', _, rfl, by decide⟩

theorem lex_start {n : Text} (hn : isName n = true) (m : Nat) {t : Text} :
    lex (m + 1) ('<' :: (n ++ t)) = if isName ((n ++ t).takeWhile isNameChar) then
      match lexAttrs m ((n ++ t).dropWhile isNameChar) with
      | some (a, e, r) =>
        (lex m r).map (fun ts => Token.start ((n ++ t).takeWhile isNameChar) a ::
          if e then Token.stop ((n ++ t).takeWhile isNameChar) :: ts else ts)
      | none => none
    else none := by
  obtain ⟨c, cs, rfl, hc⟩ := isName_cons hn
  have h1 : c ≠ '/' := nameStart_ne hc (by decide)
  have h2 : c ≠ '!' := nameStart_ne hc (by decide)
  rw [List.cons_append, lex]
  · rfl
  · rintro t e
    simp only [List.cons.injEq] at e
    exact h1 e.1
  · rintro t e
    simp only [List.cons.injEq] at e
    exact h2 e.1

/-- An empty element. -/
theorem lexes_empty {n : Text} (hn : isName n = true) {l : List (Text × Text)}
    (h : ∀ p ∈ l, isName p.1 = true ∧ ∀ c ∈ p.2, isXmlChar c = true ∨ c = '\r') {r : Text} {ts : List Token}
    (hr : Lexes r ts) :
    Lexes ('<' :: (n ++ (attrsText id l ++ ' ' :: '/' :: '>' :: r))) (Token.start n l :: Token.stop n :: ts) := by
  intro m hm
  cases m with
  | zero => simp at hm
  | succ m =>
    have hl := attrsText_length l
    simp only [List.length_cons, List.length_append] at hm
    obtain ⟨d, s, e, hd⟩ := headOut_name (l := l) ('/' :: '>' :: r) (c := ' ') (by decide)
    rw [lex_start hn, e, takeWhile_name hn hd, dropWhile_name hn hd, if_pos hn, ← e,
      lexAttrs_empty h r m (by omega)]
    simp only
    rw [hr m (by omega)]
    rfl

/-- A start tag. -/
theorem lexes_open {n : Text} (hn : isName n = true) {l : List (Text × Text)}
    (h : ∀ p ∈ l, isName p.1 = true ∧ ∀ c ∈ p.2, isXmlChar c = true ∨ c = '\r') {r : Text} {ts : List Token}
    (hr : Lexes r ts) : Lexes ('<' :: (n ++ (attrsText id l ++ '>' :: r))) (Token.start n l :: ts) := by
  intro m hm
  cases m with
  | zero => simp at hm
  | succ m =>
    have hl := attrsText_length l
    simp only [List.length_cons, List.length_append] at hm
    obtain ⟨d, s, e, hd⟩ := headOut_name (l := l) r (c := '>') (by decide)
    rw [lex_start hn, e, takeWhile_name hn hd, dropWhile_name hn hd, if_pos hn, ← e,
      lexAttrs_open h r m (by omega)]
    simp only
    rw [hr m (by omega)]
    rfl

/-- An end tag. -/
theorem lexes_stop {n : Text} (hn : isName n = true) {r : Text} {ts : List Token} (hr : Lexes r ts) :
    Lexes ('<' :: '/' :: (n ++ '>' :: r)) (Token.stop n :: ts) := by
  intro m hm
  cases m with
  | zero => simp at hm
  | succ m =>
    simp only [List.length_cons, List.length_append] at hm
    rw [lex, takeWhile_name hn (by decide), dropWhile_name hn (by decide), if_pos hn]
    simp only
    rw [hr m (by omega)]
    rfl

/-- Text before a tag. -/
theorem lexes_chars {x : Text} (hx : x.all isXmlChar = true) (h0 : x ≠ []) {r : Text} {ts : List Token}
    (hr : Lexes ('<' :: r) ts) : Lexes (x.flatMap escText ++ '<' :: r) (Token.chars x :: ts) := by
  intro m hm
  have hne : x.flatMap escText ≠ [] := by
    obtain ⟨c, x, rfl⟩ := List.exists_cons_of_ne_nil h0
    rw [List.flatMap_cons]
    have : escText c ≠ [] := by
      unfold escText
      split
      · decide +kernel
      split
      · decide +kernel
      split
      · decide +kernel
      · simp
    simp [this]
  have hlt := not_mem_escText x
  have hcd := charData_text hx
  generalize x.flatMap escText = y at hne hlt hcd hm ⊢
  obtain ⟨c, cs, rfl⟩ := List.exists_cons_of_ne_nil hne
  cases m with
  | zero => simp at hm
  | succ m =>
    have h1 : c ≠ '<' := fun e => hlt (by simp [e])
    have h2 := takeWhile_ne hlt r
    have h3 := dropWhile_ne hlt r
    simp only [List.length_cons, List.length_append] at hm
    rw [List.cons_append] at h2 h3 ⊢
    rw [lex]
    · rw [h2, h3, hcd]
      rw [hr m (by simp only [List.length_cons]; omega)]
      rfl
    · rintro t e _
      exact h1 e
    · rintro t e _
      exact h1 e
    · exact h1

theorem afterComment_at {b : Text} (hb : '-' ∉ b) (hx : b.all isXmlChar = true) (r : Text) :
    afterComment (b ++ '-' :: '-' :: '>' :: r) = some r := by
  induction b with
  | nil => rfl
  | cons c b ih =>
    rw [List.all_cons, Bool.and_eq_true] at hx
    have h1 : c ≠ '-' := fun e => hb (by simp [e])
    rw [List.cons_append, afterComment, if_pos hx.1, ih (fun h => hb (by simp [h])) hx.2]
    rintro cs e _
    exact h1 e

/-- A comment. -/
theorem lexes_comment {b : Text} (hb : '-' ∉ b) (hx : b.all isXmlChar = true) {r : Text} {ts : List Token}
    (hr : Lexes r ts) : Lexes ('<' :: '!' :: '-' :: '-' :: (b ++ '-' :: '-' :: '>' :: r)) ts := by
  intro m hm
  cases m with
  | zero => simp at hm
  | succ m =>
    simp only [List.length_cons, List.length_append] at hm
    rw [lex, afterComment_at hb hx]
    simp only
    rw [hr m (by omega)]

mutual

/-- The pieces of an element. -/
def treeTokens (qt qk : Text → Text) (decls : List (Text × Text)) : Xml → List Token
  | .elem t a x ks =>
    Token.start (qt t) (decls ++ a.map (fun p => (qk p.1, p.2))) ::
      ((if x = [] then [] else [Token.chars x]) ++ treeTokensAll qt qk ks ++ [Token.stop (qt t)])

/-- The pieces of a list of elements. -/
def treeTokensAll (qt qk : Text → Text) : List Xml → List Token
  | [] => []
  | k :: ks => treeTokens qt qk [] k ++ treeTokensAll qt qk ks

end

theorem attrsText_append (l l' : List (Text × Text)) : attrsText id (l ++ l') = attrsText id l ++ attrsText id l' := by
  unfold attrsText; rw [List.flatMap_append]

theorem attrsText_map (qk : Text → Text) (a : List (Text × Text)) :
    attrsText id (a.map (fun p => (qk p.1, p.2))) = attrsText qk a := by
  unfold attrsText; rw [List.flatMap_map]; rfl

/-- What the lexer needs at an element. -/
def LexAt (qt qk : Text → Text) (t : Text) (a : List (Text × Text)) (x : Text) : Prop :=
  isName (qt t) = true ∧ (∀ p ∈ a, isName (qk p.1) = true ∧ ∀ c ∈ p.2, isXmlChar c = true ∨ c = '\r') ∧
    x.all isXmlChar = true

theorem elemsText_head (qt qk : Text → Text) (ks : List Xml) (r : Text) :
    ∃ s, elemsText qt qk ks ++ '<' :: r = '<' :: s := by
  cases ks with
  | nil => exact ⟨r, rfl⟩
  | cons k ks =>
    obtain ⟨t, a, x, k'⟩ := k
    rw [elemsText, elemText]; exact ⟨_, rfl⟩

theorem lexes_elem {qt qk : Text → Text} (x : Xml) : ∀ {l : List (Text × Text)},
    (∀ p ∈ l, isName p.1 = true ∧ ∀ c ∈ p.2, isXmlChar c = true ∨ c = '\r') →
    Everywhere (LexAt qt qk) x → ∀ {r : Text} {ts : List Token}, Lexes r ts →
    Lexes (elemText qt qk (attrsText id l) x ++ r) (treeTokens qt qk l x ++ ts) := by
  refine Xml.rec
    (motive_1 := fun x => ∀ {l : List (Text × Text)},
      (∀ p ∈ l, isName p.1 = true ∧ ∀ c ∈ p.2, isXmlChar c = true ∨ c = '\r') →
      Everywhere (LexAt qt qk) x → ∀ {r : Text} {ts : List Token}, Lexes r ts →
      Lexes (elemText qt qk (attrsText id l) x ++ r) (treeTokens qt qk l x ++ ts))
    (motive_2 := fun xs => EverywhereAll (LexAt qt qk) xs → ∀ {r : Text} {ts : List Token}, Lexes r ts →
      Lexes (elemsText qt qk xs ++ r) (treeTokensAll qt qk xs ++ ts)) ?_ ?_ ?_ x
  · intro t a x ks ih l hl hE r ts hr
    rw [Everywhere] at hE
    obtain ⟨⟨ht, ha, hx⟩, hks⟩ := hE
    have hall : ∀ p ∈ l ++ a.map (fun p => (qk p.1, p.2)),
        isName p.1 = true ∧ ∀ c ∈ p.2, isXmlChar c = true ∨ c = '\r' := by
      intro p hp
      rcases List.mem_append.mp hp with hp | hp
      · exact hl p hp
      · obtain ⟨q, hq, rfl⟩ := List.mem_map.mp hp
        exact ha q hq
    rw [elemText, treeTokens]
    by_cases hc : x = [] ∧ ks = []
    · rw [if_pos hc]
      obtain ⟨rfl, rfl⟩ := hc
      have := lexes_empty ht hall hr
      rw [attrsText_append, attrsText_map] at this
      have e : " />".toList = [' ', '/', '>'] := by decide +kernel
      rw [e]
      simpa [treeTokensAll] using this
    · rw [if_neg hc]
      have h1 := lexes_stop ht hr
      have h2 := ih hks h1
      have h3 : Lexes (x.flatMap escText ++ (elemsText qt qk ks ++ '<' :: '/' :: (qt t ++ '>' :: r)))
          ((if x = [] then [] else [Token.chars x]) ++ (treeTokensAll qt qk ks ++ Token.stop (qt t) :: ts)) := by
        by_cases h0 : x = []
        · rw [if_pos h0, h0]; exact h2
        · rw [if_neg h0]
          obtain ⟨s, hs⟩ := elemsText_head qt qk ks ('/' :: (qt t ++ '>' :: r))
          rw [hs] at h2 ⊢
          exact lexes_chars hx h0 h2
      have := lexes_open ht hall h3
      rw [attrsText_append, attrsText_map] at this
      simpa using this
  · intro _ r ts hr; simpa [elemsText, treeTokensAll] using hr
  · intro k ks ih1 ih2 hE r ts hr
    rw [EverywhereAll] at hE
    rw [elemsText, treeTokensAll, List.append_assoc, List.append_assoc]
    exact ih1 (l := []) (by simp) hE.1 (ih2 hE.2 hr)

end Verif
