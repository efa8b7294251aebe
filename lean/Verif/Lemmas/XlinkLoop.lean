import Verif.Lemmas.XlinkText
/-
The loop that replaces periods by links.
-/
namespace Verif
open Spec

theorem noStart_char {c : Char} {pre : Text} (h : c ∉ pre) (rest : Text) : NoStart [c] pre rest := by
  intro s h0 hs hp
  obtain ⟨d, s, rfl⟩ := List.exists_cons_of_ne_nil h0
  rw [List.cons_append, List.cons_prefix_cons] at hp
  exact h (hs.subset (by simp [hp.1]))

/-- The start of a period up to its id. -/
def periodOpen : Text := "<Period id=\"".toList

/-- The end of a period. -/
def periodClose : Text := "</Period>".toList

theorem periodOpen_split : periodOpen = "<Period id=".toList ++ ['"'] := by decide +kernel
theorem periodClose_split : periodClose = '<' :: '/' :: ("Period".toList ++ ['>']) := by decide +kernel

/-- Ids of periods: `p` and a number. -/
def IsId (pid : Text) : Prop := ∃ n : Int, pid = 'p' :: intText n

theorem intText_chars (n : Int) : ∀ c ∈ intText n, c = '-' ∨ IsDigit c := by
  intro c hc
  unfold intText at hc
  split at hc
  · rcases List.mem_cons.mp hc with rfl | hc
    · exact .inl rfl
    · exact .inr (natText_digits _ c hc)
  · exact .inr (natText_digits _ c hc)

theorem IsId.not_mem {pid : Text} (h : IsId pid) {c : Char} (hp : c ≠ 'p') (hm : c ≠ '-')
    (hd : ∀ d < 10, digitChar d ≠ c) : c ∉ pid := by
  obtain ⟨n, rfl⟩ := h
  intro hc
  rcases List.mem_cons.mp hc with h | h
  · exact hp h
  · rcases intText_chars n c h with h | ⟨d, hd', h⟩
    · exact hm h
    · exact hd d hd' h.symm

theorem IsId.quote {pid : Text} (h : IsId pid) : '"' ∉ pid := h.not_mem (by decide) (by decide) (by decide)
theorem IsId.lt {pid : Text} (h : IsId pid) : '<' ∉ pid := h.not_mem (by decide) (by decide) (by decide)
theorem IsId.gt {pid : Text} (h : IsId pid) : '>' ∉ pid := h.not_mem (by decide) (by decide) (by decide)
theorem IsId.line {pid : Text} (h : IsId pid) : '\n' ∉ pid := h.not_mem (by decide) (by decide) (by decide)

theorem IsId.cons {pid : Text} (h : IsId pid) : ∃ c r, pid = 'p' :: c :: r ∧ c ∈ "-0123456789".toList := by
  obtain ⟨n, rfl⟩ := h
  have hne : intText n ≠ [] := by
    unfold intText
    split
    · simp
    · exact natText_ne_nil _
  obtain ⟨c, r, e⟩ := List.exists_cons_of_ne_nil hne
  refine ⟨c, r, by rw [e], ?_⟩
  rcases intText_chars n c (by rw [e]; simp) with rfl | ⟨d, hd, rfl⟩
  · decide +kernel
  · have : ∀ d < 10, digitChar d ∈ "-0123456789".toList := by decide +kernel
    exact this d hd

/-- A fixed text does not contain an id. -/
theorem IsId.fixed {pid : Text} (h : IsId pid) {t : Text}
    (ht : ∀ c ∈ "-0123456789".toList, ¬['p', c] <:+: t) : ¬pid <:+: t := by
  obtain ⟨c, r, rfl, hc⟩ := h.cons
  intro hi
  exact ht c hc (List.IsInfix.trans ⟨[], r, rfl⟩ hi)

theorem flatMap_self {f : Char → Text} {t : Text} (h : ∀ c ∈ t, f c = [c]) : t.flatMap f = t := by
  induction t with
  | nil => rfl
  | cons c t ih => rw [List.flatMap_cons, h c (by simp), ih (fun d hd => h d (by simp [hd]))]; rfl

theorem IsId.escape {pid : Text} (h : IsId pid) : pid.flatMap escAttr = pid := by
  refine flatMap_self ?_
  intro c hc
  unfold escAttr
  have hne : ∀ d : Char, d ∉ pid → c ≠ d := fun d hd e => hd (e ▸ hc)
  rw [if_neg (hne _ (h.not_mem (by decide) (by decide) (by decide))), if_neg (hne _ h.lt), if_neg (hne _ h.gt),
    if_neg (hne _ h.quote), if_neg (hne _ (h.not_mem (by decide) (by decide) (by decide))), if_neg (hne _ h.line),
    if_neg (hne _ (h.not_mem (by decide) (by decide) (by decide)))]

/-- A period with its id first, that is not empty and has no period inside. -/
structure PeriodAt (qt qk : Text → Text) (k : Xml) (pid : Text) : Prop where
  tag : k.tag = "Period".toList
  attrs : ∃ a, k.attrs = ("id".toList, pid) :: a
  full : ¬(k.text = [] ∧ k.kids = [])
  id : IsId pid
  lex : Everywhere (LexAt qt qk) k
  inner : EverywhereAll (fun t a x => LexAt qt qk t a x ∧ Avoids qt ('/' :: ("Period".toList ++ ['>'])) t) k.kids

/-- The start tag of a period, without its `>`. -/
def periodTag (qk : Text → Text) (k : Xml) : Text := '<' :: "Period".toList ++ attrsText qk k.attrs

/-- What is inside of a period. -/
def periodInner (qt qk : Text → Text) (k : Xml) : Text := k.text.flatMap escText ++ elemsText qt qk k.kids

theorem period_text {qt qk : Text → Text} (hq : qt "Period".toList = "Period".toList) {k : Xml} {pid : Text}
    (h : PeriodAt qt qk k pid) :
    elemText qt qk [] k = periodTag qk k ++ '>' :: (periodInner qt qk k ++ periodClose) := by
  obtain ⟨t, a, x, ks⟩ := k
  have ht : t = "Period".toList := h.tag
  have hf : ¬(x = [] ∧ ks = []) := h.full
  rw [elemText, if_neg hf, ht, hq]
  unfold periodTag periodInner
  rw [periodClose_split]
  simp [Xml.attrs, Xml.text, Xml.kids]

theorem periodTag_open {qt qk : Text → Text} (hk : qk "id".toList = "id".toList) {k : Xml} {pid : Text}
    (h : PeriodAt qt qk k pid) : ∃ r, periodTag qk k = periodOpen ++ (pid ++ '"' :: r) := by
  obtain ⟨a, ha⟩ := h.attrs
  refine ⟨attrsText qk a, ?_⟩
  unfold periodTag
  rw [ha]
  have e : attrsText qk (("id".toList, pid) :: a) = attrText (qk "id".toList) pid ++ attrsText qk a := rfl
  rw [e, hk]
  unfold attrText
  rw [h.id.escape]
  have e2 : periodOpen = '<' :: ("Period".toList ++ ' ' :: ("id".toList ++ ['=', '"'])) := by decide +kernel
  rw [e2]
  simp

theorem lexAt_of_everywhere {P : Text → List (Text × Text) → Text → Prop} {k : Xml} (h : Everywhere P k) :
    P k.tag k.attrs k.text := by
  obtain ⟨t, a, x, ks⟩ := k
  rw [Everywhere] at h
  exact h.1

theorem periodTag_gt {qt qk : Text → Text} {k : Xml} {pid : Text} (h : PeriodAt qt qk k pid) :
    '>' ∉ periodTag qk k := by
  unfold periodTag
  have := not_mem_attrsText (c := '>') (.inr rfl) (fun p hp => ((lexAt_of_everywhere h.lex).2.1 p hp).1)
  intro hm
  rw [List.cons_append, List.mem_cons, List.mem_append] at hm
  rcases hm with hm | hm | hm
  · exact absurd hm (by decide)
  · exact absurd hm (by decide +kernel)
  · exact this hm

/-- No end tag of a period before the end of the period. -/
theorem period_close {qt qk : Text → Text} {k : Xml} {pid : Text} (h : PeriodAt qt qk k pid) (rest : Text) :
    NoStart periodClose (periodTag qk k ++ '>' :: periodInner qt qk k) (periodClose ++ rest) := by
  have hq : '<' ∉ '/' :: ("Period".toList ++ ['>']) := by decide +kernel
  have hl := lexAt_of_everywhere h.lex
  have hla : '<' ∉ attrsText qk k.attrs := not_mem_attrsText (.inl rfl) (fun p hp => (hl.2.1 p hp).1)
  have hlx : '<' ∉ k.text.flatMap escText := not_mem_escText _
  have h1 : ¬('<' :: '/' :: ("Period".toList ++ ['>'])) <:+:
      '<' :: ("Period".toList ++ (attrsText qk k.attrs ++ '>' :: k.text.flatMap escText)) := by
    intro hi
    have hlp : '<' ∉ "Period".toList := by decide +kernel
    have := infix_piece (by
      simp only [List.mem_append, List.mem_cons, not_or]
      exact ⟨hlp, hla, by decide, hlx⟩) hi
    have e : "Period".toList = 'P' :: "eriod".toList := by decide +kernel
    rw [e] at this
    have := (List.cons_prefix_cons.mp this).1
    exact absurd this (by decide)
  have h2 := elems_avoid hq h.inner
  have h3 : ¬('<' :: '/' :: ("Period".toList ++ ['>'])) <:+: periodTag qk k ++ '>' :: periodInner qt qk k := by
    unfold periodTag periodInner
    cases hks : k.kids with
    | nil => rw [elemsText]; simpa using h1
    | cons k' ks =>
      obtain ⟨t', a', x', l'⟩ := k'
      obtain ⟨s, hs⟩ : ∃ s, elemsText qt qk (Xml.elem t' a' x' l' :: ks) = '<' :: s := by
        rw [elemsText, elemText]; exact ⟨_, rfl⟩
      rw [hks, hs] at h2
      rw [hs]
      have := infix_next hq h1 h2
      simpa using this
  rw [periodClose_split]
  exact noStart_next hq h3 _

/-- The text of a period with an asset identifier. -/
def assetPeriod (qt qk : Text → Text) (k : Xml) : Text :=
  periodTag qk k ++ '>' :: (assetText ++ (periodInner qt qk k ++ periodClose))

theorem insertAsset_at {qt qk : Text → Text} (hq : qt "Period".toList = "Period".toList) {k : Xml} {pid : Text}
    (h : PeriodAt qt qk k pid) (pre rest : Text) :
    insertAsset (pre ++ (elemText qt qk [] k ++ rest)) (pre.length : Int) = pre ++ (assetPeriod qt qk k ++ rest) := by
  rw [period_text hq h]
  have e1 : pre ++ (periodTag qk k ++ '>' :: (periodInner qt qk k ++ periodClose) ++ rest) =
      pre ++ (periodTag qk k ++ (">".toList ++ (periodInner qt qk k ++ periodClose ++ rest))) := by
    have : ">".toList = ['>'] := by decide +kernel
    rw [this]; simp
  have hns : NoStart ">".toList (periodTag qk k) (">".toList ++ (periodInner qt qk k ++ periodClose ++ rest)) := by
    have : ">".toList = ['>'] := by decide +kernel
    rw [this]
    exact noStart_char (periodTag_gt h) _
  unfold insertAsset
  rw [e1, pyFind_at pre _ hns]
  have e2 : (((pre.length + (periodTag qk k).length : Nat) : Int) + 1) =
      (((pre ++ (periodTag qk k ++ ">".toList)).length : Nat) : Int) := by
    have : ">".toList.length = 1 := by decide +kernel
    rw [List.length_append, List.length_append, this]
    push_cast
    omega
  have e3 : pre ++ (periodTag qk k ++ (">".toList ++ (periodInner qt qk k ++ periodClose ++ rest))) =
      (pre ++ (periodTag qk k ++ ">".toList)) ++ (periodInner qt qk k ++ periodClose ++ rest) := by simp
  simp only
  rw [e2, e3]
  have e4 : textSlice 0 (((pre ++ (periodTag qk k ++ ">".toList)).length : Nat) : Int)
      ((pre ++ (periodTag qk k ++ ">".toList)) ++ (periodInner qt qk k ++ periodClose ++ rest)) =
      pre ++ (periodTag qk k ++ ">".toList) := by
    have := textSlice_mid [] (pre ++ (periodTag qk k ++ ">".toList)) (periodInner qt qk k ++ periodClose ++ rest)
    simpa using this
  rw [e4, pyIndex_nat (by simp), List.drop_left]
  unfold assetPeriod
  have : ">".toList = ['>'] := by decide +kernel
  rw [this]; simp

/-- What replaces a period: the link, with `insertad_5` with the content of the period. -/
def periodLink (qt qk : Text → Text) (base : Option Text) (file : Text) (ad : Int) (k : Xml) (pid : Text) : Py Text :=
  match xlinkPeriod base file ad pid with
  | .error e => .error e
  | .ok l =>
    .ok (if ad = 5 then l.take (l.length - 9) ++ defaultNote ++ (periodInner qt qk k ++ periodClose) else l)

/-- What becomes of a period. -/
def newPeriod (qt qk : Text → Text) (link : Xml → Text → Py Text) (ad : Int) (links : List Text) (n : Nat) (k : Xml)
    (pid : Text) : Py (Text × Nat) :=
  if pid ∈ links then
    match link k pid with
    | .error e => .error e
    | .ok l => if 0 < ad ∧ n = 0 then .ok (assetPeriod qt qk k, n + 1) else .ok (l, n + 1)
  else .ok (if 0 < ad then assetPeriod qt qk k else elemText qt qk [] k, n)

/-- Where the code finds a period. -/
theorem period_found {qt qk : Text → Text} (hq : qt "Period".toList = "Period".toList)
    (hk : qk "id".toList = "id".toList) {k : Xml} {pid : Text} (h : PeriodAt qt qk k pid) {pre : Text} (rest : Text)
    (h1 : ¬pid <:+: pre) :
    pyFind pid (pre ++ (elemText qt qk [] k ++ rest)) 0 - 12 = (pre.length : Int) ∧
    pyFind "</Period>".toList (pre ++ (elemText qt qk [] k ++ rest)) (pre.length : Int) + 9 =
      ((pre.length + (elemText qt qk [] k).length : Nat) : Int) := by
  obtain ⟨r, hr⟩ := periodTag_open hk h
  have hstart : pyFind pid (pre ++ (elemText qt qk [] k ++ rest)) 0 - 12 = (pre.length : Int) := by
    have e : pre ++ (elemText qt qk [] k ++ rest) = [] ++ ((pre ++ periodOpen) ++
        (pid ++ ('"' :: r ++ '>' :: (periodInner qt qk k ++ periodClose) ++ rest))) := by
      rw [period_text hq h, hr]; simp
    have hpre : ¬pid <:+: pre ++ "<Period id=".toList := by
      obtain ⟨c, s, rfl, hc⟩ := h.id.cons
      have e : "<Period id=".toList = '<' :: "Period id=".toList := by decide +kernel
      have hf := h.id.fixed (t := "<Period id=".toList) (by decide +kernel)
      rw [e] at hf ⊢
      exact infix_next (fun hm => h.id.lt (List.mem_cons_of_mem _ hm)) h1 hf
    have hns : NoStart pid (pre ++ periodOpen)
        (pid ++ ('"' :: r ++ '>' :: (periodInner qt qk k ++ periodClose) ++ rest)) := by
      rw [periodOpen_split, ← List.append_assoc]
      exact noStart_last h.id.quote hpre _
    have := pyFind_at [] _ hns
    rw [← e] at this
    have hl : periodOpen.length = 12 := by decide +kernel
    rw [List.length_append, hl] at this
    simp only [List.length_nil, Nat.zero_add] at this
    have e0 : ((0 : Nat) : Int) = 0 := rfl
    rw [e0] at this
    rw [this]
    push_cast
    omega
  have hstop : pyFind "</Period>".toList (pre ++ (elemText qt qk [] k ++ rest)) (pre.length : Int) + 9 =
      ((pre.length + (elemText qt qk [] k).length : Nat) : Int) := by
    have e : pre ++ (elemText qt qk [] k ++ rest) = pre ++ ((periodTag qk k ++ '>' :: periodInner qt qk k) ++
        ("</Period>".toList ++ rest)) := by
      rw [period_text hq h]; unfold periodClose; simp
    have hl : "</Period>".toList.length = 9 := by decide +kernel
    have hc := pyFind_at pre rest (period_close h rest)
    have ec : "</Period>".toList = periodClose := rfl
    rw [e, ec, hc, period_text hq h]
    unfold periodClose
    simp only [List.length_append, List.length_cons, hl]
    push_cast
    omega
  exact ⟨hstart, hstop⟩

theorem linkStep_period {qt qk : Text → Text} (hq : qt "Period".toList = "Period".toList)
    (hk : qk "id".toList = "id".toList) {k : Xml} {pid : Text} (h : PeriodAt qt qk k pid) {pre rest : Text}
    (h1 : ¬pid <:+: pre) (h2 : ¬(periodOpen ++ (pid ++ ['"'])) <:+: rest) (ad : Int)
    (base : Option Text) (file : Text) (links : List Text) (n : Nat) :
    linkStep base file ad links (pre ++ (elemText qt qk [] k ++ rest), n) pid =
      match newPeriod qt qk (periodLink qt qk base file ad) ad links n k pid with
      | .error e => .error e
      | .ok (w, n') => .ok (pre ++ (w ++ rest), n') := by
  obtain ⟨r, hr⟩ := periodTag_open hk h
  obtain ⟨hstart, hstop⟩ := period_found hq hk h rest h1
  unfold linkStep newPeriod periodLink
  simp only [hstart, hstop]
  rw [textSlice_mid]
  by_cases hm : pid ∈ links
  · rw [if_pos hm, if_pos hm]
    cases hx : xlinkPeriod base file ad pid with
    | error e => rfl
    | ok l =>
      simp only
      by_cases hc : 0 < ad ∧ n = 0
      · rw [if_pos hc, if_pos ⟨hc.1, by omega⟩, insertAsset_at hq h]
      · rw [if_neg hc, if_neg (fun h => hc ⟨h.1, by omega⟩)]
        have horig : (elemText qt qk [] k).drop (pyIndex (elemText qt qk [] k).length
            (pyFind ">".toList (elemText qt qk [] k) 0 + 1)) = periodInner qt qk k ++ periodClose := by
          have e0 : ">".toList = ['>'] := by decide +kernel
          have hns : NoStart ">".toList (periodTag qk k) (">".toList ++ (periodInner qt qk k ++ periodClose)) := by
            rw [e0]
            exact noStart_char (periodTag_gt h) _
          have e1 : elemText qt qk [] k = [] ++ (periodTag qk k ++ (">".toList ++ (periodInner qt qk k ++ periodClose))) := by
            rw [period_text hq h, e0]; simp
          have e2 := pyFind_at [] _ hns
          have e3 : elemText qt qk [] k = (periodTag qk k ++ ">".toList) ++ (periodInner qt qk k ++ periodClose) := by
            rw [e1]; simp
          have e4 : (((([] : Text).length + (periodTag qk k).length : Nat) : Int) + 1) =
              (((periodTag qk k ++ ">".toList).length : Nat) : Int) := by
            have : ">".toList.length = 1 := by decide +kernel
            rw [List.length_append, this]
            simp
          rw [← e1] at e2
          have e5 : (([] : Text).length : Int) = 0 := rfl
          rw [e5] at e2
          rw [e2, e4, e3, pyIndex_nat (by simp), List.drop_left]
        rw [horig]
        generalize (if ad = 5 then l.take (l.length - 9) ++ defaultNote ++ (periodInner qt qk k ++ periodClose) else l) = l
        have hne : elemText qt qk [] k ≠ [] := by rw [period_text hq h]; simp
        have hrest : ¬elemText qt qk [] k <:+: rest := by
          intro hi
          refine h2 (List.IsInfix.trans ?_ hi)
          rw [period_text hq h, hr]
          exact ⟨[], r ++ '>' :: (periodInner qt qk k ++ periodClose), by simp⟩
        have hns : NoStart (elemText qt qk [] k) pre (elemText qt qk [] k ++ rest) := by
          intro s h0 hs hp
          have hps : periodOpen ++ pid <+: s ++ (elemText qt qk [] k ++ rest) := by
            refine List.IsPrefix.trans ?_ hp
            rw [period_text hq h, hr]
            exact ⟨'"' :: r ++ '>' :: (periodInner qt qk k ++ periodClose), by simp⟩
          have e3 : periodOpen = '<' :: "Period id=\"".toList := by decide +kernel
          obtain ⟨s', hs'⟩ : ∃ s', elemText qt qk [] k ++ rest = '<' :: s' := by
            rw [period_text hq h, hr, e3]; exact ⟨_, rfl⟩
          have hno : ¬(periodOpen ++ pid) <:+: pre := fun hi =>
            h1 (List.IsInfix.trans ⟨periodOpen, [], by simp⟩ hi)
          rw [hs'] at hps
          rw [e3, List.cons_append] at hps hno
          refine noStart_next ?_ hno s' s h0 hs hps
          intro hm
          rcases List.mem_append.mp hm with hm | hm
          · exact absurd hm (by decide +kernel)
          · exact h.id.lt hm
        unfold pyReplace
        rw [if_neg hne]
        have := rep_at hne l hrest hns
        unfold rep at this
        rw [this]
  · rw [if_neg hm, if_neg hm]
    by_cases ha : 0 < ad
    · rw [if_pos ha, if_pos ha, insertAsset_at hq h]
    · rw [if_neg ha, if_neg ha]

end Verif
