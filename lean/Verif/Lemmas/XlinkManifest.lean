import Verif.Lemmas.XlinkIds
import Verif.Props.XmlText
/-
The reply with links, for a tree.
-/
namespace Verif
open Spec

theorem keyText_id (ns : List (Text × Text)) : keyText ns "id".toList = "id".toList := by
  have : attrName "id".toList = (none, "id".toList) := by decide +kernel
  unfold keyText
  rw [this]

theorem isPeriod_iff {k : Xml} (h : isPeriod dashUri k = true → PeriodOk dashUri k) :
    k.tag = "Period".toList ↔ isPeriod dashUri k = true := by
  refine ⟨fun e => ?_, fun hp => (h hp).1⟩
  have hm : manifestTag dashUri "Period".toList = (some dashUri, "Period".toList) := by decide +kernel
  unfold isPeriod
  exact decide_eq_true (by rw [e, hm])

theorem periodAt_ok {ns : List (Text × Text)} (hn : NamesOk ns) {k : Xml} (hk : Everywhere (Known ns) k)
    (h : PeriodOk dashUri k) : PeriodAt (tagClean ns) (keyText ns) k (idOf k) := by
  obtain ⟨t, a, x, ks⟩ := k
  obtain ⟨h1, h2, h3, h4, h5⟩ := h
  refine ⟨h1, ?_, h3, ⟨_, h4⟩, everywhere_mono (fun t a x hk => lexAt_clean hn hk) hk, ?_⟩
  · cases a with
    | nil => simp [Xml.attrs] at h2
    | cons p a =>
      simp only [Xml.attrs, List.head?_cons, Option.some.injEq] at h2
      exact ⟨a, congrArg (· :: a) h2⟩
  · rw [Everywhere] at hk
    have := avoids_all hn (n := "Period".toList) (by decide +kernel) (by decide +kernel) hk.2 h5
    rw [everywhereAll_mem] at this ⊢
    intro k hm
    exact everywhere_mono (fun t a x hx => ⟨hx.1, hx.2.2⟩) (this k hm)

theorem pairwise_split {α : Type} {R : α → α → Prop} (l : List α) :
    (∀ A k B, l = A ++ k :: B → ∀ k0 ∈ A, R k0 k) → l.Pairwise R := by
  refine List.reverseRecOn l ?_ ?_
  · intro _; exact List.Pairwise.nil
  · intro l k ih h
    rw [List.pairwise_append]
    refine ⟨ih (fun A k' B e => h A k' (B ++ [k]) (by rw [e]; simp)), by simp, ?_⟩
    intro k0 h0 k1 h1
    simp only [List.mem_singleton] at h1
    subst h1
    exact h l k1 [] rfl k0 h0

theorem elemsText_append (qt qk : Text → Text) (A B : List Xml) :
    elemsText qt qk (A ++ B) = elemsText qt qk A ++ elemsText qt qk B := by
  induction A with
  | nil => rfl
  | cons k A ih => rw [List.cons_append, elemsText, ih, elemsText, List.append_assoc]

theorem elemText_infix (qt qk : Text → Text) {k : Xml} {A : List Xml} (h : k ∈ A) :
    elemText qt qk [] k <:+: elemsText qt qk A := by
  obtain ⟨B, C, rfl⟩ := List.append_of_mem h
  rw [elemsText_append, elemsText]
  exact ⟨elemsText qt qk B, elemsText qt qk C, by simp⟩

/-- References do not hide ids. -/
theorem IsId.escaped {pid : Text} (h : IsId pid) : ∀ {s : Text}, ¬pid <:+: s → ¬pid <:+: s.flatMap escText := by
  have hamp : '&' ∉ pid := h.not_mem (by decide) (by decide) (by decide)
  have hsemi : ';' ∉ pid := h.not_mem (by decide) (by decide) (by decide)
  have hpre : ∀ (s q : Text), '&' ∉ q → q <+: s.flatMap escText → q <+: s := by
    intro s
    induction s with
    | nil => intro q _ hq; exact hq
    | cons c s ih =>
      intro q hq hp
      cases q with
      | nil => exact List.nil_prefix
      | cons d q =>
        have key : ∀ w : Text, ('&' :: w) ++ s.flatMap escText = (c :: s).flatMap escText → False := by
          intro w e
          rw [← e] at hp
          exact hq (by rw [(List.cons_prefix_cons.mp hp).1]; simp)
        have e1 : "&amp;".toList = '&' :: "amp;".toList := by decide +kernel
        have e2 : "&lt;".toList = '&' :: "lt;".toList := by decide +kernel
        have e3 : "&gt;".toList = '&' :: "gt;".toList := by decide +kernel
        rw [List.flatMap_cons] at key hp
        unfold escText at key hp
        split at hp
        · exact absurd (by rw [if_pos (by assumption), e1]) (key "amp;".toList)
        · rename_i h1
          rw [if_neg h1] at key
          split at hp
          · exact absurd (by rw [if_pos (by assumption), e2]) (key "lt;".toList)
          · rename_i h2
            rw [if_neg h2] at key
            split at hp
            · exact absurd (by rw [if_pos (by assumption), e3]) (key "gt;".toList)
            · rw [List.singleton_append] at hp
              have := List.cons_prefix_cons.mp hp
              rw [this.1]
              exact List.cons_prefix_cons.mpr ⟨rfl, ih q (fun hm => hq (by simp [hm])) this.2⟩
  intro s
  induction s with
  | nil => intro h; exact h
  | cons c s ih =>
    intro hs
    have h2 := ih (fun hi => hs (hi.trans (List.suffix_cons _ _).isInfix))
    have key : ∀ w : Text, (∀ c ∈ "-0123456789".toList, ¬['p', c] <:+: w ++ [';']) → ¬pid <:+: (w ++ [';']) ++ s.flatMap escText :=
      fun w hw => h.concat hsemi (h.fixed hw) h2
    have e1 : "&amp;".toList = "&amp".toList ++ [';'] := by decide +kernel
    have e2 : "&lt;".toList = "&lt".toList ++ [';'] := by decide +kernel
    have e3 : "&gt;".toList = "&gt".toList ++ [';'] := by decide +kernel
    rw [List.flatMap_cons]
    intro hi
    have hi' := hi
    unfold escText at hi'
    split at hi'
    · rw [e1] at hi'; exact key _ (by decide +kernel) hi'
    split at hi'
    · rw [e2] at hi'; exact key _ (by decide +kernel) hi'
    split at hi'
    · rw [e3] at hi'; exact key _ (by decide +kernel) hi'
    · rw [List.singleton_append, List.infix_cons_iff] at hi'
      rcases hi' with hi' | hi'
      · refine hs (hpre (c :: s) pid hamp ?_).isInfix
        rename_i a b d
        rw [List.flatMap_cons]
        unfold escText
        rw [if_neg a, if_neg b, if_neg d]
        exact hi'
      · exact h2 hi'

/-! ### The new children -/

theorem newKids_links {ns : List (Text × Text)} {ad : Int} (had : ad ≤ 0) {link : Xml → Text → Py Text} {links : List Text}
    {linked : Int → Bool} {url : Text → Text} (hn : NamesOk ns) : ∀ {kids : List Xml} (n : Nat),
    EverywhereAll (Known ns) kids →
    (∀ k ∈ kids, isPeriod dashUri k = true → PeriodOk dashUri k) →
    (∀ k ∈ kids, isPeriod dashUri k = true → linked (idNumber (idAttr k)) = true → ∃ l, link k (idOf k) = .ok l ∧
      Piece (readerScope ns ++ startScope) l (linkEvents dashUri (url (idAttr k))) ∧ ∃ s, l = '<' :: s) →
    (∀ k ∈ kids, isPeriod dashUri k = true → (idOf k ∈ links ↔ linked (idNumber (idAttr k)) = true)) →
    ∃ w, newKids (tagClean ns) (keyText ns) link ad links n kids = .ok w ∧
      Piece (readerScope ns ++ startScope) w (linkedKids dashUri linked url kids) ∧ (w = [] ∨ ∃ s, w = '<' :: s) := by
  intro kids
  induction kids with
  | nil => intro n _ _ _ _; exact ⟨[], rfl, piece_nil _, .inl rfl⟩
  | cons k kids ih =>
    intro n hk hok hl hm
    rw [EverywhereAll] at hk
    have ih := fun n => ih n hk.2 (fun k hk => hok k (by simp [hk])) (fun k hk => hl k (by simp [hk]))
      (fun k hk => hm k (by simp [hk]))
    have hp := isPeriod_iff (hok k (by simp))
    rw [newKids, linkedKids]
    by_cases ht : isPeriod dashUri k = true
    · rw [if_pos (hp.mpr ht)]
      unfold newPeriod
      by_cases hlk : linked (idNumber (idAttr k)) = true
      · obtain ⟨l, hl1, hl2, s, hl3⟩ := hl k (by simp) ht hlk
        obtain ⟨w, hw1, hw2, _⟩ := ih (n + 1)
        rw [if_pos ((hm k (by simp) ht).mpr hlk), hl1]
        simp only
        rw [if_neg (by omega)]
        simp only
        rw [hw1]
        refine ⟨l ++ w, rfl, ?_, .inr ⟨s ++ w, by rw [hl3]; rfl⟩⟩
        rw [if_pos (by rw [ht, hlk]; rfl)]
        exact hl2.append hw2
      · obtain ⟨w, hw1, hw2, _⟩ := ih n
        rw [if_neg (fun h => hlk ((hm k (by simp) ht).mp h))]
        simp only
        rw [if_neg (by omega), hw1]
        obtain ⟨s, hs⟩ := elemText_head (tagClean ns) (keyText ns) [] k
        refine ⟨elemText (tagClean ns) (keyText ns) [] k ++ w, rfl, ?_, .inr ⟨s ++ w, by rw [hs]; rfl⟩⟩
        rw [if_neg (by simp [hlk])]
        exact (piece_elem hn hk.1).append hw2
    · rw [if_neg (fun h => ht (hp.mp h))]
      obtain ⟨w, hw1, hw2, _⟩ := ih n
      rw [hw1]
      obtain ⟨s, hs⟩ := elemText_head (tagClean ns) (keyText ns) [] k
      refine ⟨elemText (tagClean ns) (keyText ns) [] k ++ w, rfl, ?_, .inr ⟨s ++ w, by rw [hs]; rfl⟩⟩
      rw [if_neg (by simp [ht])]
      exact (piece_elem hn hk.1).append hw2

theorem newKids_ads {ns : List (Text × Text)} {ad : Int} (had : 0 < ad) {link : Xml → Text → Py Text} {links : List Text}
    {linked : Int → Bool} {url : Xml → List XmlEvent} (hn : NamesOk ns) : ∀ {kids : List Xml} (n : Nat),
    EverywhereAll (Known ns) kids →
    (∀ k ∈ kids, isPeriod dashUri k = true → PeriodOk dashUri k) →
    (∀ k ∈ kids, isPeriod dashUri k = true → ∃ l, link k (idOf k) = .ok l ∧
      Piece (readerScope ns ++ startScope) l (url k) ∧ ∃ s, l = '<' :: s) →
    (∀ k ∈ kids, isPeriod dashUri k = true → (idOf k ∈ links ↔ linked (idNumber (idAttr k)) = true)) →
    ∃ w, newKids (tagClean ns) (keyText ns) link ad links n kids = .ok w ∧
      Piece (readerScope ns ++ startScope) w (adKids dashUri linked url (n != 0) kids) ∧ (w = [] ∨ ∃ s, w = '<' :: s) := by
  intro kids
  induction kids with
  | nil => intro n _ _ _ _; exact ⟨[], rfl, piece_nil _, .inl rfl⟩
  | cons k kids ih =>
    intro n hk hok hl hm
    rw [EverywhereAll] at hk
    have ih := fun n => ih n hk.2 (fun k hk => hok k (by simp [hk])) (fun k hk => hl k (by simp [hk]))
      (fun k hk => hm k (by simp [hk]))
    have hp := isPeriod_iff (hok k (by simp))
    have hq : tagClean ns "Period".toList = "Period".toList := tagClean_dash (by decide +kernel)
    rw [newKids, adKids]
    by_cases ht : isPeriod dashUri k = true
    · have hpa := piece_asset hn (periodAt_ok hn hk.1 (hok k (by simp) ht)) hq hk.1
      have hpah : ∃ s, assetPeriod (tagClean ns) (keyText ns) k = '<' :: s := ⟨_, rfl⟩
      obtain ⟨sa, hsa⟩ := hpah
      rw [if_pos (hp.mpr ht), if_pos ht]
      unfold newPeriod
      by_cases hlk : linked (idNumber (idAttr k)) = true
      · obtain ⟨l, hl1, hl2, s, hl3⟩ := hl k (by simp) ht
        obtain ⟨w, hw1, hw2, _⟩ := ih (n + 1)
        have e1 : (n + 1 != 0) = true := by simp
        rw [e1] at hw2
        rw [if_pos ((hm k (by simp) ht).mpr hlk), hl1, if_pos hlk]
        simp only
        by_cases h0 : n = 0
        · rw [if_pos ⟨had, h0⟩]
          simp only
          rw [hw1]
          refine ⟨assetPeriod (tagClean ns) (keyText ns) k ++ w, rfl, ?_, .inr ⟨sa ++ w, by rw [hsa]; rfl⟩⟩
          rw [if_neg (by simp [h0])]
          exact hpa.append hw2
        · rw [if_neg (fun h => h0 h.2)]
          simp only
          rw [hw1]
          refine ⟨l ++ w, rfl, ?_, .inr ⟨s ++ w, by rw [hl3]; rfl⟩⟩
          rw [if_pos (by simpa using h0)]
          exact hl2.append hw2
      · obtain ⟨w, hw1, hw2, _⟩ := ih n
        rw [if_neg (fun h => hlk ((hm k (by simp) ht).mp h)), if_neg hlk]
        simp only
        rw [if_pos had, hw1]
        exact ⟨assetPeriod (tagClean ns) (keyText ns) k ++ w, rfl, hpa.append hw2, .inr ⟨sa ++ w, by rw [hsa]; rfl⟩⟩
    · rw [if_neg (fun h => ht (hp.mp h)), if_neg ht]
      obtain ⟨w, hw1, hw2, _⟩ := ih n
      rw [hw1]
      obtain ⟨s, hs⟩ := elemText_head (tagClean ns) (keyText ns) [] k
      exact ⟨elemText (tagClean ns) (keyText ns) [] k ++ w, rfl, (piece_elem hn hk.1).append hw2,
        .inr ⟨s ++ w, by rw [hs]; rfl⟩⟩

/-! ### The whole text -/

/-- The text before the children of the root. -/
def rootPre (ns : List (Text × Text)) (a : List (Text × Text)) (y : Text) : Text :=
  xmlIntro ++ '<' :: ("MPD".toList ++ (attrsText declClean (declPairs ns) ++ (attrsText (keyText ns) a ++
    '>' :: y.flatMap escText)))

/-- The text after the children of the root. -/
def rootPost : Text := '<' :: '/' :: ("MPD".toList ++ ['>'])

theorem fullXml_split {a : List (Text × Text)} {y : Text} {ks : List Xml} (h0 : ks ≠ [])
    (hw : Writable dashUri (.elem "MPD".toList a y ks)) :
    fullXml (.elem "MPD".toList a y ks) = rootPre (namespacesOf (.elem "MPD".toList a y ks)) a y ++
      (elemsText (tagClean (namespacesOf (.elem "MPD".toList a y ks))) (keyText (namespacesOf (.elem "MPD".toList a y ks))) ks ++
        rootPost) := by
  have hn := namespaces_ok hw
  have ht : (tagName "MPD".toList).1 = dashUri := by decide +kernel
  unfold fullXml
  rw [cleanText_tree ht hw (fun p hp => (hn p hp).2), elemText, if_neg (fun h => h0 h.2),
    tagClean_dash (by decide +kernel)]
  unfold rootPre rootPost
  simp

/-- What the code needs of a manifest. -/
structure LinkReady (a : List (Text × Text)) (y : Text) (ks : List Xml) (u : Text) : Prop where
  writable : Writable dashUri (.elem "MPD".toList a y ks)
  base : OneBaseUrl dashUri (.elem "MPD".toList a y ks) u
  period : ∀ k ∈ ks, isPeriod dashUri k = true → PeriodOk dashUri k
  first : ∀ k ∈ ks, isPeriod dashUri k = true → MentionedFirst (fullXml (.elem "MPD".toList a y ks)) (idAttr k)

theorem decls_names {ns : List (Text × Text)} (h : NamesOk ns) (hu : ∀ p ∈ ns, p.1.all isXmlChar = true)
    {c : Char} (hc : c = '<' ∨ c = '>') : c ∉ attrsText declClean (declPairs ns) := by
  refine not_mem_attrsText hc (fun p hp => ?_)
  exact ((decls_facts h hu).1 (declClean p.1, p.2) (List.mem_map.mpr ⟨p, hp, rfl⟩)).1

theorem firstBaseUrl_tree {a : List (Text × Text)} {y : Text} {ks : List Xml} {u : Text}
    (hw : Writable dashUri (.elem "MPD".toList a y ks)) (hb : OneBaseUrl dashUri (.elem "MPD".toList a y ks) u) :
    firstBaseUrl (fullXml (.elem "MPD".toList a y ks)) = some (u.flatMap escText) := by
  obtain ⟨A, B, hks, hu0, hsame, hA, hB⟩ := hb
  have hks : ks = A ++ .elem "BaseURL".toList [] u [] :: B := hks
  have ht : (tagName "MPD".toList).1 = dashUri := by decide +kernel
  have hn := namesOk (a := a) (x := y) (ks := ks) ht
  have hk := uris_known hw
  have hus := fun p hp => (namespaces_ok hw p hp).1
  rw [fullXml_split (by rw [hks]; simp) hw]
  generalize namespacesOf (.elem "MPD".toList a y ks) = ns at hn hk hus
  rw [Everywhere] at hk
  have hkk := hk.2
  rw [hks, everywhereAll_mem] at hkk
  have hkA : EverywhereAll (Known ns) A := everywhereAll_mem.mpr (fun k hm => hkk k (by simp [hm]))
  have hkB : EverywhereAll (Known ns) B := everywhereAll_mem.mpr (fun k hm => hkk k (by simp [hm]))
  have avA := avoids_all hn (n := "BaseURL".toList) (by decide +kernel) (by decide +kernel) hkA hA
  have avB := avoids_all hn (n := "BaseURL".toList) (by decide +kernel) (by decide +kernel) hkB hB
  have e1 : "<BaseURL>".toList = '<' :: ("BaseURL".toList ++ ['>']) := by decide +kernel
  have e2 : "</BaseURL>".toList = '<' :: '/' :: ("BaseURL".toList ++ ['>']) := by decide +kernel
  have nA : ¬"<BaseURL>".toList <:+: elemsText (tagClean ns) (keyText ns) A := by
    rw [e1]
    refine elems_avoid (by decide +kernel) ?_
    rw [everywhereAll_mem] at avA ⊢
    exact fun k hm => everywhere_mono (fun t a x hx => ⟨hx.1, hx.2.1⟩) (avA k hm)
  have nB : ¬"</BaseURL>".toList <:+: elemsText (tagClean ns) (keyText ns) B := by
    rw [e2]
    refine elems_avoid (by decide +kernel) ?_
    rw [everywhereAll_mem] at avB ⊢
    exact fun k hm => everywhere_mono (fun t a x hx => ⟨hx.1, hx.2.2⟩) (avB k hm)
  have nroot : ¬"<BaseURL>".toList <:+: rootPre ns a y := by
    have hlx := lexAt_clean hn hk.1
    have h1 : ¬"<BaseURL>".toList <:+: '<' :: ("MPD".toList ++ (attrsText declClean (declPairs ns) ++
        (attrsText (keyText ns) a ++ '>' :: y.flatMap escText))) := by
      rw [e1]
      intro hi
      have := infix_piece (by
        simp only [List.mem_append, List.mem_cons, not_or]
        exact ⟨by decide +kernel, decls_names hn hus (.inl rfl),
          not_mem_attrsText (.inl rfl) (fun p hp => (hlx.2.1 p hp).1), by decide, not_mem_escText y⟩) hi
      have e3 : "BaseURL".toList = 'B' :: "aseURL".toList := by decide +kernel
      have e4 : "MPD".toList = 'M' :: "PD".toList := by decide +kernel
      rw [e3, e4] at this
      exact absurd (List.cons_prefix_cons.mp this).1 (by decide)
    unfold rootPre
    have h2 : ¬"<BaseURL>".toList <:+: xmlIntro := by decide +kernel
    rw [e1] at h1 h2 ⊢
    exact infix_next (by decide +kernel) h2 h1
  have npre : ¬"<BaseURL>".toList <:+: rootPre ns a y ++ elemsText (tagClean ns) (keyText ns) A := by
    cases A with
    | nil => rw [elemsText, List.append_nil]; exact nroot
    | cons k A =>
      obtain ⟨s, hs⟩ := elemText_head (tagClean ns) (keyText ns) [] k
      have hs' : elemsText (tagClean ns) (keyText ns) (k :: A) = '<' :: (s ++ elemsText (tagClean ns) (keyText ns) A) := by
        rw [elemsText, hs]; rfl
      rw [hs'] at nA ⊢
      rw [e1] at nroot nA ⊢
      exact infix_next (by decide +kernel) nroot nA
  have npost : ¬"</BaseURL>".toList <:+: elemsText (tagClean ns) (keyText ns) B ++ rootPost := by
    have h2 : ¬"</BaseURL>".toList <:+: rootPost := by decide +kernel
    unfold rootPost at h2 ⊢
    rw [e2] at nB h2 ⊢
    exact infix_next (by decide +kernel) nB h2
  have hq : '"' ∉ u.flatMap escText := by
    rw [List.mem_flatMap]
    rintro ⟨c, hc, hm⟩
    unfold escText at hm
    split at hm
    · exact absurd hm (by decide +kernel)
    split at hm
    · exact absurd hm (by decide +kernel)
    split at hm
    · exact absurd hm (by decide +kernel)
    · simp only [List.mem_singleton] at hm
      exact hsame.1 (hm ▸ hc)
  have hbase : elemText (tagClean ns) (keyText ns) [] (.elem "BaseURL".toList [] u []) =
      "<BaseURL>".toList ++ (u.flatMap escText ++ "</BaseURL>".toList) := by
    rw [elemText, if_neg (fun h => hu0 h.1), tagClean_dash (by decide +kernel), e1, e2, elemsText]
    simp [attrsText]
  have := firstBaseUrl_at hq npost npre
  rw [hks, elemsText_append, elemsText, hbase]
  rw [← this]
  congr 1
  simp

/-- Where a period is in the text. -/
theorem period_place {a : List (Text × Text)} {y : Text} {ks : List Xml} {u : Text} (h : LinkReady a y ks u)
    {A B : List Xml} {k : Xml} (hs : ks = A ++ k :: B) (hp : isPeriod dashUri k = true) :
    ¬idOf k <:+: rootPre (namespacesOf (.elem "MPD".toList a y ks)) a y ++
      elemsText (tagClean (namespacesOf (.elem "MPD".toList a y ks))) (keyText (namespacesOf (.elem "MPD".toList a y ks))) A ∧
    ¬(periodOpen ++ (idOf k ++ ['"'])) <:+:
      elemsText (tagClean (namespacesOf (.elem "MPD".toList a y ks))) (keyText (namespacesOf (.elem "MPD".toList a y ks))) B ++
        rootPost := by
  have hm : k ∈ ks := by rw [hs]; simp
  have ht : (tagName "MPD".toList).1 = dashUri := by decide +kernel
  have hn := namesOk (a := a) (x := y) (ks := ks) ht
  have hk := uris_known h.writable
  have hf := h.first k hm hp
  rw [fullXml_split (by rw [hs]; simp) h.writable] at hf
  generalize namespacesOf (.elem "MPD".toList a y ks) = ns at hn hk hf ⊢
  rw [Everywhere] at hk
  have hkk := everywhereAll_mem.mp hk.2 k hm
  have hpa := periodAt_ok hn hkk (h.period k hm hp)
  have hq : tagClean ns "Period".toList = "Period".toList := tagClean_dash (by decide +kernel)
  obtain ⟨r, hr⟩ := periodTag_open (keyText_id ns) hpa
  have es : periodStart (idAttr k) = periodOpen ++ (idOf k ++ ['"']) := by
    unfold periodStart periodOpen
    have : "\"".toList = ['"'] := by decide +kernel
    rw [this, List.append_assoc]; rfl
  have htxt : rootPre ns a y ++ (elemsText (tagClean ns) (keyText ns) ks ++ rootPost) =
      (rootPre ns a y ++ elemsText (tagClean ns) (keyText ns) A) ++ (periodStart (idAttr k) ++
        (r ++ '>' :: (periodInner (tagClean ns) (keyText ns) k ++ periodClose) ++
          (elemsText (tagClean ns) (keyText ns) B ++ rootPost))) := by
    rw [hs, elemsText_append, elemsText, period_text hq hpa, hr, es]
    simp
  rw [htxt] at hf
  have := hf (rootPre ns a y ++ elemsText (tagClean ns) (keyText ns) A).length (by simp)
    (by rw [List.drop_left]; exact ⟨_, rfl⟩)
  rw [List.take_left] at this
  refine ⟨this.1, fun hi => this.2 ?_⟩
  rw [← List.drop_drop, List.drop_left, List.drop_left, es]
  exact hi.trans ⟨r ++ '>' :: (periodInner (tagClean ns) (keyText ns) k ++ periodClose), [], by simp⟩

/-- The loop over all children, for a manifest. -/
theorem loop_manifest {a : List (Text × Text)} {y : Text} {ks : List Xml} {u : Text} (h : LinkReady a y ks u)
    (ad : Int) (base : Option Text) (file : Text) (links : List Text)
    (hl : ∀ k ∈ ks, ∀ k' ∈ ks, [k, k'].Sublist ks → isPeriod dashUri k = true → isPeriod dashUri k' = true →
      ∀ l, periodLink (tagClean (namespacesOf (.elem "MPD".toList a y ks)))
        (keyText (namespacesOf (.elem "MPD".toList a y ks))) base file ad k (idOf k) = .ok l → ¬idOf k' <:+: l) :
    linkLoop base file ad links (idsOf ks) (fullXml (.elem "MPD".toList a y ks), 0) =
      match newKids (tagClean (namespacesOf (.elem "MPD".toList a y ks))) (keyText (namespacesOf (.elem "MPD".toList a y ks)))
          (periodLink (tagClean (namespacesOf (.elem "MPD".toList a y ks)))
            (keyText (namespacesOf (.elem "MPD".toList a y ks))) base file ad) ad links 0 ks with
      | .error e => .error e
      | .ok w => .ok (rootPre (namespacesOf (.elem "MPD".toList a y ks)) a y ++ (w ++ rootPost)) := by
  have ht : (tagName "MPD".toList).1 = dashUri := by decide +kernel
  have hn := namesOk (a := a) (x := y) (ks := ks) ht
  have hk := uris_known h.writable
  rw [Everywhere] at hk
  have h0 : ks ≠ [] := by
    obtain ⟨A, B, e, _⟩ := h.base
    have e : ks = A ++ .elem "BaseURL".toList [] u [] :: B := e
    rw [e]; simp
  have hplace := fun A k B hs hp => period_place (A := A) (B := B) (k := k) h hs hp
  rw [fullXml_split h0 h.writable]
  generalize namespacesOf (.elem "MPD".toList a y ks) = ns at hn hk hplace hl ⊢
  have hiff : ∀ k ∈ ks, k.tag = "Period".toList ↔ isPeriod dashUri k = true := fun k hm => isPeriod_iff (h.period k hm)
  refine linkLoop_kids (tagClean_dash (by decide +kernel)) (keyText_id ns) ad base file links rootPost ks 0 _
    ?_ ?_ ?_ ?_
  · intro k hm hp
    have hp := (hiff k hm).mp hp
    exact periodAt_ok hn (everywhereAll_mem.mp hk.2 k hm) (h.period k hm hp)
  · intro k hm hp hi
    obtain ⟨A, B, hs⟩ := List.append_of_mem hm
    exact (hplace A k B hs ((hiff k hm).mp hp)).1 (hi.trans (List.prefix_append _ _).isInfix)
  · refine pairwise_split ks ?_
    intro A k' B hs k hkA hp
    have hm' : k' ∈ ks := by rw [hs]; simp
    have hm : k ∈ ks := by rw [hs]; simp [hkA]
    have hp' := (hiff k' hm').mp hp
    refine ⟨fun hi => (hplace A k' B hs hp').1 (hi.trans ((elemText_infix _ _ hkA).trans
      (List.suffix_append _ _).isInfix)), fun hpk l hlk => ?_⟩
    refine hl k hm k' hm' ?_ ((hiff k hm).mp hpk) hp' l hlk
    rw [hs]
    have s1 : [k].Sublist A := List.singleton_sublist.mpr hkA
    have s2 : [k'].Sublist (k' :: B) := List.singleton_sublist.mpr (by simp)
    exact s1.append s2
  · intro A k B hs hp
    have hm : k ∈ ks := by rw [hs]; simp
    exact (hplace A k B hs ((hiff k hm).mp hp)).2

theorem idsOf_ids {ks : List Xml} (h : ∀ k ∈ ks, isPeriod dashUri k = true → PeriodOk dashUri k) :
    (∀ pid ∈ idsOf ks, pid = 'p' :: intText (idNumber pid)) ∧
    ∀ k ∈ ks, isPeriod dashUri k = true → idOf k ∈ idsOf ks := by
  induction ks with
  | nil => simp [idsOf]
  | cons k ks ih =>
    have ih := ih (fun k hk => h k (by simp [hk]))
    have hp := isPeriod_iff (h k (by simp))
    rw [idsOf]
    by_cases ht : isPeriod dashUri k = true
    · rw [if_pos (hp.mpr ht)]
      refine ⟨?_, ?_⟩
      · intro pid hm
        rcases List.mem_cons.mp hm with rfl | hm
        · exact (h k (by simp) ht).2.2.2.1
        · exact ih.1 pid hm
      · intro k' hm hp'
        rcases List.mem_cons.mp hm with rfl | hm
        · simp
        · exact List.mem_cons_of_mem _ (ih.2 k' hm hp')
    · rw [if_neg (fun e => ht (hp.mp e))]
      refine ⟨ih.1, ?_⟩
      intro k' hm hp'
      rcases List.mem_cons.mp hm with rfl | hm
      · exact absurd hp' ht
      · exact ih.2 k' hm hp'

/-- The read reply from the new children. -/
theorem read_root {a : List (Text × Text)} {y : Text} {ks : List Xml} (hw : Writable dashUri (.elem "MPD".toList a y ks))
    {w : Text} {ev : List XmlEvent}
    (h1 : Piece (readerScope (namespacesOf (.elem "MPD".toList a y ks)) ++ startScope) w ev)
    (h2 : w = [] ∨ ∃ s, w = '<' :: s) :
    readXml (rootPre (namespacesOf (.elem "MPD".toList a y ks)) a y ++ (w ++ rootPost)) =
      some (rootEvents dashUri (.elem "MPD".toList a y ks) ev) := by
  have ht : (tagName "MPD".toList).1 = dashUri := by decide +kernel
  have hn := namesOk (a := a) (x := y) (ks := ks) ht
  have hk := uris_known hw
  rw [Everywhere] at hk
  have := read_pieces hn hk.1 (fun p hp => (namespaces_ok hw p hp).1) h1 h2
  have e : tagClean (namespacesOf (.elem "MPD".toList a y ks)) "MPD".toList = "MPD".toList :=
    tagClean_dash (by decide +kernel)
  rw [e] at this
  rw [rootEvents, ← this]
  congr 1
  unfold rootPre rootPost
  simp

theorem fmod_dvd {n r : Int} : Int.fmod n r = 0 ↔ r ∣ n := Int.dvd_iff_fmod_eq_zero.symm

/-- Links to the periods themselves. -/
theorem linkManifest_links {a : List (Text × Text)} {y : Text} {ks : List Xml} {u : Text} (h : LinkReady a y ks u)
    {n x ad : Int} (had : ad ≤ 0) (hr : Int.fdiv n x ≠ 0) {file : Text} (hf : NeedsNoReference file)
    (hfresh : ∀ k k', [k, k'].Sublist ks → isPeriod dashUri k = true → isPeriod dashUri k' = true →
      ¬idAttr k' <:+: u ++ file ++ "+".toList ++ idAttr k ++ ".period".toList) :
    ∃ reply, linkManifestText (fullXml (.elem "MPD".toList a y ks)) file n x ad = .ok reply ∧
      readXml reply = some (rootEvents dashUri (.elem "MPD".toList a y ks) (linkedKids dashUri
        (fun i => decide (Int.fdiv n x ∣ i)) (fun pid => u ++ file ++ "+".toList ++ pid ++ ".period".toList) ks)) := by
  have ht : (tagName "MPD".toList).1 = dashUri := by decide +kernel
  have hn := namesOk (a := a) (x := y) (ks := ks) ht
  have hk := uris_known h.writable
  rw [Everywhere] at hk
  have hread := read_fullXml (x := .elem "MPD".toList a y ks) rfl h.writable
  have hids := idsOf_ids h.period
  have hu : ∀ c ∈ u, isXmlChar c = true := by
    obtain ⟨A, B, e, _⟩ := h.base
    have e : ks = A ++ .elem "BaseURL".toList [] u [] :: B := e
    have := everywhereAll_mem.mp hk.2 (.elem "BaseURL".toList [] u []) (by rw [e]; simp)
    rw [Everywhere] at this
    exact List.all_eq_true.mp this.1.1.2.2.2.1
  have hsame : SameInAttribute u := by
    obtain ⟨A, B, _, _, hs, _⟩ := h.base
    exact hs
  have hraw : ∀ pid, IsId pid → u.flatMap escText ++ file ++ '+' :: pid ++ ".period".toList =
      (u ++ file ++ "+".toList ++ pid ++ ".period".toList).flatMap escAttr ∧
      u.flatMap escText ++ file ++ '+' :: pid ++ ".period".toList =
      (u ++ file ++ "+".toList ++ pid ++ ".period".toList).flatMap escText := by
    intro pid hpid
    have h1 : u.flatMap escText = u.flatMap escAttr := by
      have : ∀ (w : Text), (∀ c ∈ w, isXmlChar c = true) → SameInAttribute w → w.flatMap escText = w.flatMap escAttr := by
        intro w
        induction w with
        | nil => intro _ _; rfl
        | cons c w ih =>
          intro hx hs
          rw [List.flatMap_cons, List.flatMap_cons, ih (fun d hd => hx d (by simp [hd]))
            ⟨fun hm => hs.1 (by simp [hm]), fun hm => hs.2.1 (by simp [hm]), fun hm => hs.2.2 (by simp [hm])⟩]
          congr 1
          have c1 : c ≠ '"' := fun e => hs.1 (by simp [e])
          have c2 : c ≠ '\n' := fun e => hs.2.1 (by simp [e])
          have c3 : c ≠ '\t' := fun e => hs.2.2 (by simp [e])
          have c4 : c ≠ '\r' := by
            rintro rfl
            exact absurd (hx '\r' (by simp)) (by decide)
          unfold escText escAttr
          rw [if_neg c1, if_neg c4, if_neg c2, if_neg c3]
      exact this u hu hsame
    have h2 : file.flatMap escText = file ∧ file.flatMap escAttr = file := by
      obtain ⟨f0, f1, f2, f3, f4, f5, f6⟩ := hf
      have hne : ∀ {c d : Char}, c ∈ file → d ∉ file → c ≠ d := fun hc hd e => hd (e ▸ hc)
      refine ⟨flatMap_self (fun c hc => ?_), flatMap_self (fun c hc => ?_)⟩
      · unfold escText
        rw [if_neg (hne hc f1), if_neg (hne hc f2), if_neg (hne hc f3)]
      · have c4 : c ≠ '\r' := by
          rintro rfl
          exact absurd (f0 '\r' hc) (by decide)
        unfold escAttr
        rw [if_neg (hne hc f1), if_neg (hne hc f2), if_neg (hne hc f3), if_neg (hne hc f4), if_neg c4,
          if_neg (hne hc f5), if_neg (hne hc f6)]
    have h3 : pid.flatMap escText = pid := by
      refine flatMap_self (fun c hc => ?_)
      have hne : ∀ d : Char, d ∉ pid → c ≠ d := fun d hd e => hd (e ▸ hc)
      unfold escText
      rw [if_neg (hne _ (hpid.not_mem (by decide) (by decide) (by decide))), if_neg (hne _ hpid.lt),
        if_neg (hne _ hpid.gt)]
    have h4 : "+".toList.flatMap escText = ['+'] ∧ "+".toList.flatMap escAttr = ['+'] := by decide +kernel
    have h5 : ".period".toList.flatMap escText = ".period".toList ∧ ".period".toList.flatMap escAttr = ".period".toList := by
      decide +kernel
    simp only [List.flatMap_append]
    rw [h2.1, h2.2, h3, hpid.escape, h4.1, h4.2, h5.1, h5.2, ← h1]
    simp
  have hlink : ∀ pid, xlinkPeriod (some (u.flatMap escText)) file ad pid = .ok ("<Period xlink:href=\"".toList ++
      (u.flatMap escText ++ file ++ '+' :: pid ++ ".period".toList) ++ linkTail) := by
    intro pid
    unfold xlinkPeriod
    rw [if_neg (by omega), if_neg (by omega), if_neg (by omega), if_neg (by omega)]
    simp
  have hlink' : ∀ qt qk k pid, periodLink qt qk (some (u.flatMap escText)) file ad k pid = .ok ("<Period xlink:href=\"".toList ++
      (u.flatMap escText ++ file ++ '+' :: pid ++ ".period".toList) ++ linkTail) := by
    intro qt qk k pid
    unfold periodLink
    rw [hlink]
    simp only
    rw [if_neg (by omega)]
  have hloop := loop_manifest h ad (some (u.flatMap escText)) file
    ((idsOf ks).filter (fun pid => Int.fmod (idNumber pid) (Int.fdiv n x) = 0)) (by
      intro k hm k' hm' hs hp hp' l hl
      rw [hlink'] at hl
      cases hl
      have hi : IsId (idOf k) := ⟨_, (h.period k hm hp).2.2.2.1⟩
      have hi' : IsId (idOf k') := ⟨_, (h.period k' hm' hp').2.2.2.1⟩
      rw [(hraw _ hi).2]
      have h1 := hi'.escaped (hfresh k k' hs hp hp')
      have e1 : "<Period xlink:href=\"".toList = "<Period xlink:href=".toList ++ ['"'] := by decide +kernel
      have e2 : linkTail = '"' :: " xlink:actuate=\"onLoad\" xmlns:xlink=\"http://www.w3.org/1999/xlink\"></Period>".toList := by
        decide +kernel
      rw [List.append_assoc, e1, e2]
      refine hi'.concat hi'.quote (hi'.fixed (by decide +kernel)) (hi'.append hi'.quote h1 (hi'.fixed (by decide +kernel))))
  obtain ⟨w, hw1, hw2, hw3⟩ := newKids_links (ns := namespacesOf (.elem "MPD".toList a y ks)) had
    (link := periodLink (tagClean (namespacesOf (.elem "MPD".toList a y ks)))
      (keyText (namespacesOf (.elem "MPD".toList a y ks))) (some (u.flatMap escText)) file ad)
    (links := (idsOf ks).filter (fun pid => Int.fmod (idNumber pid) (Int.fdiv n x) = 0))
    (linked := fun i => decide (Int.fdiv n x ∣ i))
    (url := fun pid => u ++ file ++ "+".toList ++ pid ++ ".period".toList) hn 0 hk.2 h.period (by
      intro k hm hp _
      refine ⟨_, hlink' _ _ _ _, ?_, ?_⟩
      · have hi : IsId (idOf k) := ⟨_, (h.period k hm hp).2.2.2.1⟩
        refine piece_link hn ?_ (hraw _ hi).1
        intro c hc
        left
        have hfix : ∀ c ∈ "+".toList ++ ".period".toList, isXmlChar c = true := by decide +kernel
        rcases List.mem_append.mp hc with hc | hc
        · rcases List.mem_append.mp hc with hc | hc
          · rcases List.mem_append.mp hc with hc | hc
            · rcases List.mem_append.mp hc with hc | hc
              · exact hu c hc
              · exact hf.1 c hc
            · exact hfix c (List.mem_append_left _ hc)
          · obtain ⟨m, hm'⟩ := hi
            have hc : c ∈ 'p' :: intText m := hm' ▸ hc
            rcases List.mem_cons.mp hc with rfl | hc
            · decide
            · rcases intText_chars m c hc with rfl | ⟨d, hd, rfl⟩
              · decide
              · have : ∀ d < 10, isXmlChar (digitChar d) = true := by decide
                exact this d hd
        · exact hfix c (List.mem_append_right _ hc)
      · have e1 : "<Period xlink:href=\"".toList = '<' :: "Period xlink:href=\"".toList := by decide +kernel
        rw [e1]
        exact ⟨_, rfl⟩) (by
      intro k hm hp
      rw [List.mem_filter]
      simp only [decide_eq_true_eq, fmod_dvd]
      exact ⟨fun h => h.2, fun h => ⟨hids.2 k hm hp, h⟩⟩)
  rw [hw1] at hloop
  refine ⟨_, ?_, read_root h.writable hw2 hw3⟩
  unfold linkManifestText
  rw [periodIds_tree hread h.period]
  simp only
  rw [xlinkIds_eq hr hids.1]
  simp only
  rw [firstBaseUrl_tree h.writable h.base, hloop]

theorem xlinkPeriod_ad (base : Option Text) (file pid : Text) {ad : Int} (h : ad = 1 ∨ ad = 2 ∨ ad = 3 ∨ ad = 4 ∨ ad = 5) :
    xlinkPeriod base file ad pid = .ok ("<Period xlink:href=\"".toList ++ adUrl ad ++ linkTail) ∧
    adUrl ad = (adUrl ad).flatMap escAttr ∧ (∀ c ∈ adUrl ad, isXmlChar c = true) ∧
    (∀ c ∈ "-0123456789".toList, ¬['p', c] <:+: "<Period xlink:href=\"".toList ++ adUrl ad ++ linkTail) := by
  rcases h with rfl | rfl | rfl | rfl | rfl
  · refine ⟨?_, by decide +kernel, by decide +kernel, by decide +kernel⟩
    unfold xlinkPeriod
    rw [if_neg (by omega), if_neg (by omega), if_neg (by omega), if_pos (by omega)]
    congr 1
  · refine ⟨?_, by decide +kernel, by decide +kernel, by decide +kernel⟩
    unfold xlinkPeriod
    rw [if_neg (by omega), if_neg (by omega), if_pos rfl]
    congr 1
  · refine ⟨?_, by decide +kernel, by decide +kernel, by decide +kernel⟩
    unfold xlinkPeriod
    rw [if_neg (by omega), if_pos rfl]
    congr 1
  · refine ⟨?_, by decide +kernel, by decide +kernel, by decide +kernel⟩
    unfold xlinkPeriod
    rw [if_pos rfl]
    congr 1
  · refine ⟨?_, by decide +kernel, by decide +kernel, by decide +kernel⟩
    unfold xlinkPeriod
    rw [if_neg (by omega), if_neg (by omega), if_neg (by omega), if_pos (by omega)]
    congr 1

/-- The end of the start tag of a link, without the end of the element. -/
def linkEnd : Text := "\" xlink:actuate=\"onLoad\" xmlns:xlink=\"http://www.w3.org/1999/xlink\"".toList

theorem linkTail_split : linkTail = linkEnd ++ '>' :: "</Period>".toList := by decide +kernel

theorem periodLink_ad (qt qk : Text → Text) (base : Option Text) (file pid : Text) (k : Xml) {ad : Int}
    (h : ad = 1 ∨ ad = 2 ∨ ad = 3 ∨ ad = 4 ∨ ad = 5) :
    periodLink qt qk base file ad k pid = .ok (if ad = 5 then
      "<Period xlink:href=\"".toList ++ (adUrl ad ++ linkEnd) ++ '>' ::
        (defaultNote ++ (periodInner qt qk k ++ periodClose))
      else "<Period xlink:href=\"".toList ++ adUrl ad ++ linkTail) := by
  unfold periodLink
  rw [(xlinkPeriod_ad base file pid h).1]
  simp only
  congr 1
  split
  · have e9 : "</Period>".toList.length = 9 := by decide +kernel
    have e1 : "<Period xlink:href=\"".toList ++ adUrl ad ++ linkTail =
        ("<Period xlink:href=\"".toList ++ (adUrl ad ++ linkEnd) ++ ['>']) ++ "</Period>".toList := by
      rw [linkTail_split]
      simp only [List.append_assoc, List.cons_append, List.nil_append]
    rw [e1, List.length_append, e9, Nat.add_sub_cancel, List.take_left]
    simp only [List.append_assoc, List.cons_append, List.nil_append]
  · rfl

/-- Links to ads. -/
theorem linkManifest_ads {a : List (Text × Text)} {y : Text} {ks : List Xml} {u : Text} (h : LinkReady a y ks u)
    {n x ad : Int} (had : ad = 1 ∨ ad = 2 ∨ ad = 3 ∨ ad = 4 ∨ ad = 5) (hr : Int.fdiv n x ≠ 0) (file : Text) :
    ∃ reply, linkManifestText (fullXml (.elem "MPD".toList a y ks)) file n x ad = .ok reply ∧
      readXml reply = some (rootEvents dashUri (.elem "MPD".toList a y ks) (adKids dashUri
        (fun i => decide (Int.fdiv n x ∣ i)) (adEvents dashUri ad) false ks)) := by
  have ht : (tagName "MPD".toList).1 = dashUri := by decide +kernel
  have hn := namesOk (a := a) (x := y) (ks := ks) ht
  have hk := uris_known h.writable
  rw [Everywhere] at hk
  have hread := read_fullXml (x := .elem "MPD".toList a y ks) rfl h.writable
  have hids := idsOf_ids h.period
  have hlink := fun base pid => xlinkPeriod_ad base file pid had
  have hplace := fun A k B hs hp => period_place (A := A) (B := B) (k := k) h hs hp
  have hloop := loop_manifest h ad (firstBaseUrl (fullXml (.elem "MPD".toList a y ks))) file
    ((idsOf ks).filter (fun pid => Int.fmod (idNumber pid) (Int.fdiv n x) = 0)) (by
      intro k hm k' hm' hs hp hp' l hl
      rw [periodLink_ad _ _ _ _ _ _ had] at hl
      have hi' : IsId (idOf k') := ⟨_, (h.period k' hm' hp').2.2.2.1⟩
      have hfix := hi'.fixed (hlink none []).2.2.2
      split at hl
      · cases hl
        -- the content of the period comes before the other period
        have hq : tagClean (namespacesOf (.elem "MPD".toList a y ks)) "Period".toList = "Period".toList :=
          tagClean_dash (by decide +kernel)
        have hpa := periodAt_ok hn (everywhereAll_mem.mp hk.2 k hm) (h.period k hm hp)
        obtain ⟨A, B, e1, hkA⟩ : ∃ A B, ks = A ++ k' :: B ∧ k ∈ A := by
          obtain ⟨A', B', e1, e2, e3⟩ := List.append_sublist_iff.mp (show ([k] ++ [k']).Sublist ks from hs)
          obtain ⟨C, D, rfl⟩ := List.append_of_mem (List.singleton_sublist.mp e3)
          exact ⟨A' ++ C, D, by rw [e1]; simp, List.mem_append_left _ (List.singleton_sublist.mp e2)⟩
        have hno : ¬idOf k' <:+: elemText (tagClean (namespacesOf (.elem "MPD".toList a y ks)))
            (keyText (namespacesOf (.elem "MPD".toList a y ks))) [] k := fun hi =>
          (hplace A k' B e1 hp').1 (hi.trans ((elemText_infix _ _ hkA).trans (List.suffix_append _ _).isInfix))
        rw [period_text hq hpa] at hno
        have h2 : ¬idOf k' <:+: periodInner (tagClean (namespacesOf (.elem "MPD".toList a y ks)))
            (keyText (namespacesOf (.elem "MPD".toList a y ks))) k ++ periodClose := fun hi =>
          hno (hi.trans ⟨periodTag (keyText (namespacesOf (.elem "MPD".toList a y ks))) k ++ ['>'], [], by
            simp only [List.append_assoc, List.cons_append, List.nil_append, List.append_nil]⟩)
        have e3 : defaultNote = "\n<!--Default content that will be played if the xlink is not able to load.--".toList ++
            ['>'] := by decide +kernel
        have h3 : ¬idOf k' <:+: defaultNote := hi'.fixed (by decide +kernel)
        have h4 : ¬idOf k' <:+: defaultNote ++ (periodInner (tagClean (namespacesOf (.elem "MPD".toList a y ks)))
            (keyText (namespacesOf (.elem "MPD".toList a y ks))) k ++ periodClose) := by
          rw [e3] at h3 ⊢
          exact hi'.concat hi'.gt h3 h2
        have h5 : ¬idOf k' <:+: ("<Period xlink:href=\"".toList ++ (adUrl ad ++ linkEnd)) ++ ['>'] := fun hi =>
          hfix (hi.trans ⟨[], "</Period>".toList, by
            rw [linkTail_split]
            simp only [List.append_assoc, List.cons_append, List.nil_append]⟩)
        have h6 := hi'.concat hi'.gt h5 h4
        simp only [List.append_assoc, List.cons_append, List.nil_append] at h6 ⊢
        exact h6
      · cases hl
        exact hfix)
  obtain ⟨w, hw1, hw2, hw3⟩ := newKids_ads (ns := namespacesOf (.elem "MPD".toList a y ks)) (ad := ad) (by omega)
    (link := periodLink (tagClean (namespacesOf (.elem "MPD".toList a y ks)))
      (keyText (namespacesOf (.elem "MPD".toList a y ks))) (firstBaseUrl (fullXml (.elem "MPD".toList a y ks))) file ad)
    (links := (idsOf ks).filter (fun pid => Int.fmod (idNumber pid) (Int.fdiv n x) = 0))
    (linked := fun i => decide (Int.fdiv n x ∣ i)) (url := adEvents dashUri ad) hn 0 hk.2 h.period (by
      intro k hm hp
      have hx : ∀ c ∈ adUrl ad, isXmlChar c = true ∨ c = '\r' := fun c hc => .inl ((hlink none []).2.2.1 c hc)
      have hlk := periodLink_ad (tagClean (namespacesOf (.elem "MPD".toList a y ks)))
        (keyText (namespacesOf (.elem "MPD".toList a y ks))) (firstBaseUrl (fullXml (.elem "MPD".toList a y ks))) file
        (idOf k) k had
      refine ⟨_, hlk, ?_, periodLink_head hlk⟩
      unfold adEvents
      split
      · exact piece_default hn (periodAt_ok hn (everywhereAll_mem.mp hk.2 k hm) (h.period k hm hp))
          (everywhereAll_mem.mp hk.2 k hm) hx (hlink none []).2.1
      · exact piece_link hn hx (hlink none []).2.1) (by
      intro k hm hp
      rw [List.mem_filter]
      simp only [decide_eq_true_eq, fmod_dvd]
      exact ⟨fun h => h.2, fun h => ⟨hids.2 k hm hp, h⟩⟩)
  rw [hw1] at hloop
  refine ⟨_, ?_, read_root h.writable hw2 hw3⟩
  unfold linkManifestText
  rw [periodIds_tree hread h.period]
  simp only
  rw [xlinkIds_eq hr hids.1]
  simp only
  rw [hloop]

end Verif
