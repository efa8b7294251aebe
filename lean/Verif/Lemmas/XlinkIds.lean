import Verif.Lemmas.XlinkRead
/-
The ids and the base URL that the code finds in the text of a manifest.
-/
namespace Verif
open Spec

/-! ### Names -/

theorem tagClean_plain {ns : List (Text × Text)} (h : NamesOk ns) {t a x} (hk : Known ns t a x) {n : Text}
    (hn : ':' ∉ n) (he : tagClean ns t = n) : manifestTag dashUri t = (some dashUri, n) := by
  rw [tagName_treeName hk.1.1]
  unfold tagClean at he
  split at he
  · rename_i e; rw [e, he]
  · obtain ⟨p, hq, _⟩ := h.qualified hk.2.1
    unfold tagText at he
    rw [hq] at he
    exact absurd (he ▸ by simp) hn

theorem tagClean_dash {ns : List (Text × Text)} {n : Text} (h : n.head? ≠ some '{') : tagClean ns n = n := by
  unfold tagClean tagName
  rw [if_neg h, if_pos rfl]

theorem everywhere_and {P Q : Text → List (Text × Text) → Text → Prop} (x : Xml) :
    Everywhere P x → Everywhere Q x → Everywhere (fun t a x => P t a x ∧ Q t a x) x := by
  refine Xml.rec
    (motive_1 := fun x => Everywhere P x → Everywhere Q x → Everywhere (fun t a x => P t a x ∧ Q t a x) x)
    (motive_2 := fun xs => EverywhereAll P xs → EverywhereAll Q xs → EverywhereAll (fun t a x => P t a x ∧ Q t a x) xs)
    ?_ ?_ ?_ x
  · intro t a x ks ih h1 h2
    rw [Everywhere] at *
    exact ⟨⟨h1.1, h2.1⟩, ih h1.2 h2.2⟩
  · intro _ _; trivial
  · intro k ks ih1 ih2 h1 h2
    rw [EverywhereAll] at *
    exact ⟨ih1 h1.1 h2.1, ih2 h1.2 h2.2⟩

theorem everywhereAll_mem {P : Text → List (Text × Text) → Text → Prop} {xs : List Xml} :
    EverywhereAll P xs ↔ ∀ k ∈ xs, Everywhere P k := by
  induction xs with
  | nil => simp [EverywhereAll]
  | cons k ks ih => rw [EverywhereAll, ih]; simp

/-- An element without elements of this name. -/
theorem avoids_all {ns : List (Text × Text)} (h : NamesOk ns) {n : Text} (hn : isName n = true) (hc : ':' ∉ n)
    {ks : List Xml} (hk : EverywhereAll (Known ns) ks)
    (hne : EverywhereAll (fun t _ _ => manifestTag dashUri t ≠ (some dashUri, n)) ks) :
    EverywhereAll (fun t a x => LexAt (tagClean ns) (keyText ns) t a x ∧ Avoids (tagClean ns) (n ++ ['>']) t ∧
      Avoids (tagClean ns) ('/' :: (n ++ ['>'])) t) ks := by
  rw [everywhereAll_mem] at *
  intro k hm
  refine everywhere_mono ?_ (everywhere_and k (hk k hm) (hne k hm))
  intro t a x hx
  have hl := lexAt_clean h hx.1
  have : tagClean ns t ≠ n := fun e => hx.2 (tagClean_plain h hx.1 hc e)
  exact ⟨hl, avoids_start hn hl.1 this, avoids_stop hn hl.1 this⟩

/-! ### Ids -/

theorem idNumber_intText (n : Int) : idNumber ('p' :: intText n) = n := by
  have hf : ∀ m : Nat, (natText m).foldl (fun a c => a * 10 + (c.toNat - 48)) 0 = m := by
    intro m
    have hcongr : ∀ (l : Text), (∀ c ∈ l, IsDigit c) → ∀ b : Nat,
        l.foldl (fun a c => a * 10 + (c.toNat - 48)) b = l.foldl (fun a c => a * 10 + dval c) b := by
      intro l
      induction l with
      | nil => intro _ _; rfl
      | cons c l ih =>
        intro h b
        have hc : c.toNat - 48 = dval c := by
          obtain ⟨d, hd, rfl⟩ := h c (by simp)
          have : ∀ d < 10, (digitChar d).toNat - 48 = dval (digitChar d) := by decide
          exact this d hd
        rw [List.foldl_cons, List.foldl_cons, hc, ih (fun c hc => h c (by simp [hc]))]
    rw [hcongr _ (natText_digits m), foldl_natText]
  unfold intText
  split
  · rw [idNumber, hf]; omega
  · have hne : ∀ ds, natText n.natAbs ≠ '-' :: ds := by
      intro ds e
      obtain ⟨d, hd, h⟩ := natText_digits n.natAbs '-' (by rw [e]; simp)
      revert h
      have : ∀ d < 10, '-' ≠ digitChar d := by decide
      exact this d hd
    rw [idNumber]
    · rw [hf]; omega
    · intro ds e
      exact hne ds e

theorem idsFrom_elem (x : Xml) : ∀ (d : Nat), 2 ≤ d → ∀ r, idsFrom d (treeEvents dashUri x ++ r) = idsFrom d r := by
  refine Xml.rec
    (motive_1 := fun x => ∀ (d : Nat), 2 ≤ d → ∀ r, idsFrom d (treeEvents dashUri x ++ r) = idsFrom d r)
    (motive_2 := fun xs => ∀ (d : Nat), 2 ≤ d → ∀ r, idsFrom d (treeEventsAll dashUri xs ++ r) = idsFrom d r) ?_ ?_ ?_ x
  · intro t a x ks ih d hd r
    rw [treeEvents, List.cons_append, idsFrom, if_neg (by omega), List.append_assoc, List.append_assoc]
    have hc : ∀ r, idsFrom (d + 1) ((if x = [] then [] else [XmlEvent.chars x]) ++ r) = idsFrom (d + 1) r := by
      intro r
      split
      · rfl
      · rw [List.singleton_append, idsFrom]
    rw [hc, ih (d + 1) (by omega), List.singleton_append, idsFrom]
    rfl
  · intro d _ r; rw [treeEventsAll]; rfl
  · intro k ks ih1 ih2 d hd r
    rw [treeEventsAll, List.append_assoc, ih1 d hd, ih2 d hd]

theorem idsFrom_elems (ks : List Xml) (d : Nat) (hd : 2 ≤ d) (r : List XmlEvent) :
    idsFrom d (treeEventsAll dashUri ks ++ r) = idsFrom d r := by
  induction ks with
  | nil => rw [treeEventsAll]; rfl
  | cons k ks ih => rw [treeEventsAll, List.append_assoc, idsFrom_elem k d hd, ih]

theorem idsFrom_kids {kids : List Xml} (h : ∀ k ∈ kids, isPeriod dashUri k = true → PeriodOk dashUri k) :
    idsFrom 1 (treeEventsAll dashUri kids ++ [XmlEvent.stop]) = .ok (idsOf kids) := by
  induction kids with
  | nil => rfl
  | cons k kids ih =>
    have ih := ih (fun k hk => h k (by simp [hk]))
    obtain ⟨t, a, x, ks⟩ := k
    have hin : ∀ r, idsFrom 2 ((if x = [] then [] else [XmlEvent.chars x]) ++ treeEventsAll dashUri ks ++
        [XmlEvent.stop] ++ r) = idsFrom 1 r := by
      intro r
      have hc : ∀ r, idsFrom 2 ((if x = [] then [] else [XmlEvent.chars x]) ++ r) = idsFrom 2 r := by
        intro r
        split
        · rfl
        · rw [List.singleton_append, idsFrom]
      rw [List.append_assoc, List.append_assoc, hc, idsFrom_elems ks 2 (by omega), List.singleton_append, idsFrom]
    rw [treeEventsAll, treeEvents, List.append_assoc, List.cons_append, idsFrom, hin, ih]
    have hm : manifestTag dashUri "Period".toList = (some dashUri, "Period".toList) := by decide +kernel
    by_cases hp : isPeriod dashUri (.elem t a x ks) = true
    · have hok := h _ (by simp) hp
      have hm' : manifestTag dashUri t = (some dashUri, "Period".toList) := by
        unfold isPeriod at hp
        exact of_decide_eq_true hp
      have ht : t = "Period".toList := hok.1
      have hid : a.head? = some ("id".toList, idAttr (.elem t a x ks)) := hok.2.1
      rw [if_pos ⟨rfl, by rw [hm'], by rw [hm']⟩]
      cases a with
      | nil => simp at hid
      | cons p a =>
        simp only [List.head?_cons, Option.some.injEq] at hid
        have e : treeName p.1 = (none, "id".toList) := by
          have : treeName "id".toList = (none, "id".toList) := by decide +kernel
          rw [hid]; exact this
        rw [List.map_cons, List.find?_cons_of_pos (by simp [e])]
        simp only
        rw [idsOf, if_pos (show Xml.tag (.elem t (p :: a) x ks) = _ from ht)]
        have e2 : p.2 = idOf (.elem t (p :: a) x ks) := by rw [hid]; rfl
        rw [e2]
    · rw [if_neg]
      · rw [idsOf, if_neg]
        intro (e : t = "Period".toList)
        refine hp ?_
        unfold isPeriod
        exact decide_eq_true (by show manifestTag dashUri t = _; rw [e, hm])
      · rintro ⟨_, h1, h2⟩
        refine hp ?_
        unfold isPeriod
        exact decide_eq_true (Prod.ext h1 h2)

theorem periodIds_tree {t a x : _} {kids : List Xml} {txt : Text}
    (hr : readXml txt = some (treeEvents dashUri (.elem t a x kids)))
    (h : ∀ k ∈ kids, isPeriod dashUri k = true → PeriodOk dashUri k) : periodIds txt = .ok (idsOf kids) := by
  unfold periodIds
  rw [hr]
  simp only
  rw [treeEvents, idsFrom, if_neg (by omega), List.append_assoc]
  have hc : ∀ r, idsFrom (0 + 1) ((if x = [] then [] else [XmlEvent.chars x]) ++ r) = idsFrom 1 r := by
    intro r
    split
    · rfl
    · rw [List.singleton_append, idsFrom]
  rw [hc, idsFrom_kids h]

theorem xlinkIds_eq {ratio : Int} (hr : ratio ≠ 0) : ∀ {ids : List Text},
    (∀ pid ∈ ids, pid = 'p' :: intText (idNumber pid)) →
    xlinkIds ratio ids = .ok (ids.filter (fun pid => Int.fmod (idNumber pid) ratio = 0)) := by
  intro ids
  induction ids with
  | nil => intro _; rfl
  | cons pid ids ih =>
    intro h
    have h1 := h pid (by simp)
    have hp : pyInt (pid.drop 1) = .ok (idNumber pid) := by
      conv_lhs => rw [h1]
      exact pyInt_intText _
    rw [xlinkIds, hp]
    simp only
    rw [if_neg hr, ih (fun q hq => h q (by simp [hq])), List.filter_cons]
    simp only [decide_eq_true_eq]

/-! ### The base URL -/

theorem infix_skip {f : Char} {q rest : Text} : ∀ {w : Text}, f ∉ w → ¬(f :: q) <:+: rest → ¬(f :: q) <:+: w ++ rest := by
  intro w
  induction w with
  | nil => intro _ h; exact h
  | cons c w ih =>
    intro hf h hi
    rw [List.cons_append, List.infix_cons_iff] at hi
    rcases hi with hi | hi
    · exact hf (by rw [(List.cons_prefix_cons.mp hi).1]; simp)
    · exact ih (fun hm => hf (by simp [hm])) h hi

theorem lastAt_at {f : Char} {q : Text} (hf : f ∉ q) {rest : Text} (hr : ¬(f :: q) <:+: rest) (pre : Text) :
    lastAt (f :: q) (pre ++ (f :: q ++ rest)) = some pre.length := by
  have hnone : ∀ w : Text, ¬(f :: q) <:+: w → lastAt (f :: q) w = none := by
    intro w
    induction w with
    | nil => intro _; rfl
    | cons c w ih =>
      intro h
      rw [lastAt, ih (fun hi => h (hi.trans (List.suffix_cons _ _).isInfix))]
      simp only
      rw [if_neg]
      intro hp
      exact h (List.isPrefixOf_iff_prefix.mp hp).isInfix
  induction pre with
  | nil =>
    rw [List.nil_append, List.cons_append, lastAt, hnone]
    · simp only
      rw [if_pos]
      · rfl
      · exact List.isPrefixOf_iff_prefix.mpr ⟨rest, rfl⟩
    · exact infix_skip hf hr
  | cons c pre ih =>
    rw [List.cons_append, lastAt, ih]
    rfl

theorem firstBaseUrl_at {u rest : Text} (hu : '"' ∉ u) (hr : ¬"</BaseURL>".toList <:+: rest) :
    ∀ {pre : Text}, ¬"<BaseURL>".toList <:+: pre →
    firstBaseUrl (pre ++ ("<BaseURL>".toList ++ (u ++ ("</BaseURL>".toList ++ rest)))) = some u := by
  have e1 : "<BaseURL>".toList = '<' :: "BaseURL>".toList := by decide +kernel
  have e2 : "</BaseURL>".toList = '<' :: "/BaseURL>".toList := by decide +kernel
  have hl9 : "<BaseURL>".toList.length = 9 := by decide +kernel
  intro pre
  induction pre with
  | nil =>
    intro _
    rw [List.nil_append]
    have hd : ("<BaseURL>".toList ++ (u ++ ("</BaseURL>".toList ++ rest))).drop 9 = u ++ ("</BaseURL>".toList ++ rest) := by
      rw [← hl9, List.drop_left]
    have hc : ∀ w, ∃ s, "<BaseURL>".toList ++ w = '<' :: s := fun w => ⟨"BaseURL>".toList ++ w, by rw [e1]; rfl⟩
    obtain ⟨s, hs⟩ := hc (u ++ ("</BaseURL>".toList ++ rest))
    have hp : "<BaseURL>".toList.isPrefixOf ('<' :: s) = true := by
      rw [← hs]; exact List.isPrefixOf_iff_prefix.mpr ⟨_, rfl⟩
    rw [hs] at hd ⊢
    rw [firstBaseUrl, if_pos hp, hd]
    have ht : (u ++ ("</BaseURL>".toList ++ rest)).takeWhile (· ≠ '"') =
        u ++ ('<' :: "/BaseURL>".toList ++ rest.takeWhile (· ≠ '"')) := by
      rw [List.takeWhile_append_of_pos, List.takeWhile_append_of_pos, e2]
      · have : ∀ c ∈ "</BaseURL>".toList, c ≠ '"' := by decide +kernel
        intro c hc; simpa using this c hc
      · intro c hc
        have : c ≠ '"' := fun e => hu (e ▸ hc)
        simpa using this
    have hla := lastAt_at (f := '<') (q := "/BaseURL>".toList) (by decide +kernel) (rest := rest.takeWhile (· ≠ '"'))
      (fun hi => hr (by rw [e2]; exact hi.trans (List.takeWhile_prefix _).isInfix)) u
    rw [ht, e2, hla]
    simp
  | cons c pre ih =>
    intro h
    rw [List.cons_append, firstBaseUrl, if_neg, ih (fun hi => h (hi.trans (List.suffix_cons _ _).isInfix))]
    intro hp
    have hns : NoStart "<BaseURL>".toList (c :: pre) ("<BaseURL>".toList ++ (u ++ ("</BaseURL>".toList ++ rest))) := by
      rw [e1] at h ⊢
      exact noStart_next (by decide +kernel) h _
    exact hns (c :: pre) (by simp) (List.suffix_refl _) (List.isPrefixOf_iff_prefix.mp hp)

end Verif
