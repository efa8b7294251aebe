import Verif.Lemmas.Links
import Verif.Props.MpdRefine
import Verif.Spec.ManifestParts
/-
C67: the profiles of the manifest.
-/
namespace Verif
open Spec

theorem hasPart_iff (k t : Text) : hasPart k t = true ↔ k <:+: t := by
  induction t with
  | nil => simp [hasPart]
  | cons c cs ih =>
    unfold hasPart
    rw [Bool.or_eq_true, ih, List.isPrefixOf_iff_prefix, List.infix_cons_iff]

/-- A part without the separator is a part of one of the pieces. -/
theorem infix_split {c : Char} {k : Text} (hk : c ∉ k) (h0 : k ≠ []) {t : Text} (h : k <:+: t) :
    ∃ p ∈ splitChar c t, k <:+: p := by
  induction t with
  | nil => exact absurd (List.eq_nil_of_infix_nil h) h0
  | cons x xs ih =>
    by_cases hx : x = c
    · rw [splitChar, if_pos hx]
      rcases List.infix_cons_iff.1 h with h | h
      · cases k with
        | nil => exact absurd rfl h0
        | cons y ys =>
          obtain ⟨r, hr⟩ := h
          cases hr
          exact absurd (List.mem_cons_self ..) (hx ▸ hk)
      · obtain ⟨p, hp, hi⟩ := ih h
        exact ⟨p, List.mem_cons_of_mem _ hp, hi⟩
    · rw [splitChar, if_neg hx]
      cases hs : splitChar c xs with
      | nil => exact absurd hs (splitChar_ne_nil c xs)
      | cons y ys =>
        dsimp only
        rcases List.infix_cons_iff.1 h with h | h
        · refine ⟨x :: y, List.mem_cons_self .., ?_⟩
          have hpre : ∀ (k t : Text), c ∉ k → k <+: t → ∃ y ys, splitChar c t = y :: ys ∧ k <+: y := by
            intro k
            induction k with
            | nil =>
              intro t _ _
              cases ht : splitChar c t with
              | nil => exact absurd ht (splitChar_ne_nil c t)
              | cons y ys => exact ⟨y, ys, rfl, List.nil_prefix⟩
            | cons z zs ih2 =>
              intro t hz hp
              obtain ⟨r, rfl⟩ := hp
              rw [List.mem_cons, not_or] at hz
              obtain ⟨y, ys, h1, h2⟩ := ih2 (zs ++ r) hz.2 (List.prefix_append ..)
              refine ⟨z :: y, ys, ?_, List.cons_prefix_cons.2 ⟨rfl, h2⟩⟩
              rw [List.cons_append, splitChar, if_neg (fun e => hz.1 e.symm), h1]
          obtain ⟨y', ys', h1, h2⟩ := hpre k (x :: xs) hk h
          rw [splitChar, if_neg hx, hs] at h1
          cases h1
          exact h2.isInfix
        · obtain ⟨p, hp, hi⟩ := ih h
          rw [hs] at hp
          rcases List.mem_cons.1 hp with rfl | hp
          · exact ⟨_, List.mem_cons_self .., hi.trans (List.suffix_cons ..).isInfix⟩
          · exact ⟨p, List.mem_cons_of_mem _ hp, hi⟩

/-- The first piece is a beginning of the text. -/
theorem splitChar_first (c : Char) (t : Text) : ∃ y ys, splitChar c t = y :: ys ∧ y <+: t := by
  induction t with
  | nil => exact ⟨[], [], rfl, List.nil_prefix⟩
  | cons z zs ih =>
    obtain ⟨y, ys, h1, h2⟩ := ih
    by_cases hz : z = c
    · exact ⟨[], splitChar c zs, by rw [splitChar, if_pos hz], List.nil_prefix⟩
    · exact ⟨z :: y, ys, by rw [splitChar, if_neg hz, h1], List.cons_prefix_cons.2 ⟨rfl, h2⟩⟩

/-- A piece is a part of the text. -/
theorem mem_split_infix {c : Char} {t p : Text} (h : p ∈ splitChar c t) : p <:+: t := by
  induction t generalizing p with
  | nil => simp [splitChar] at h; rw [h]; exact List.infix_refl _
  | cons x xs ih =>
    obtain ⟨y, ys, h1, h2⟩ := splitChar_first c (x :: xs)
    have h' := h
    rw [h1] at h
    rcases List.mem_cons.1 h with rfl | h
    · exact h2.isInfix
    · have hin : p ∈ splitChar c xs := by
        by_cases hx : x = c
        · rw [splitChar, if_pos hx] at h1
          rw [(List.cons.inj h1).2]
          exact h
        · rw [splitChar, if_neg hx] at h1
          cases hs : splitChar c xs with
          | nil => exact absurd hs (splitChar_ne_nil c xs)
          | cons z zs =>
            rw [hs] at h1
            rw [(List.cons.inj h1).2]
            exact List.mem_cons_of_mem _ h
      exact (ih hin).trans (List.suffix_cons ..).isInfix

theorem mem_split_noSep {c : Char} {t p : Text} (h : p ∈ splitChar c t) : c ∉ p := by
  induction t generalizing p with
  | nil => simp [splitChar] at h; rw [h]; simp
  | cons x xs ih =>
    by_cases hx : x = c
    · rw [splitChar, if_pos hx] at h
      rcases List.mem_cons.1 h with rfl | h
      · simp
      · exact ih h
    · rw [splitChar, if_neg hx] at h
      cases hs : splitChar c xs with
      | nil => exact absurd hs (splitChar_ne_nil c xs)
      | cons y ys =>
        rw [hs] at h ih
        rcases List.mem_cons.1 h with rfl | h
        · rw [List.mem_cons, not_or]
          exact ⟨fun e => hx e.symm, ih (List.mem_cons_self ..)⟩
        · exact ih (List.mem_cons_of_mem _ h)

theorem splitChar_joinWith {c : Char} : ∀ {l : List Text}, l ≠ [] → (∀ p ∈ l, c ∉ p) → splitChar c (joinWith c l) = l
  | [], h, _ => absurd rfl h
  | [p], _, h => splitChar_noSep (fun x hx e => h p (List.mem_cons_self ..) (by rw [← e]; exact hx))
  | p :: q :: ps, _, h => by
    rw [joinWith, splitChar_append, splitChar_joinWith (by simp) (fun r hr => h r (List.mem_cons_of_mem _ hr)),
      splitChar_noSep (fun x hx e => h p (List.mem_cons_self ..) (by rw [← e]; exact hx))]
    rfl

/-- Replacing a part goes on in each piece for itself. -/
theorem replaceText_split {c : Char} {k n : Text} (hk : c ∉ k) (h0 : k ≠ []) (hn : c ∉ n) :
    ∀ (fuel : Nat) (t : Text), t.length ≤ fuel →
      List.Forall₂ (Renamed k n) (splitChar c t) (splitChar c (replaceText k n fuel t)) := by
  have happ : ∀ (a t : Text), c ∉ a → ∀ y ys, splitChar c t = y :: ys → splitChar c (a ++ t) = (a ++ y) :: ys := by
    intro a
    induction a with
    | nil => intro t _ y ys h; exact h
    | cons z zs ih =>
      intro t hz y ys h
      rw [List.mem_cons, not_or] at hz
      rw [List.cons_append, splitChar, if_neg (fun e => hz.1 e.symm), ih t hz.2 y ys h]
      rfl
  intro fuel
  induction fuel with
  | zero =>
    intro t ht
    rw [List.length_eq_zero_iff.1 (Nat.le_zero.1 ht)]
    exact .cons (.none (fun h => h0 (List.eq_nil_of_infix_nil h))) .nil
  | succ m ih =>
    intro t ht
    cases t with
    | nil => exact .cons (.none (fun h => h0 (List.eq_nil_of_infix_nil h))) .nil
    | cons x xs =>
      unfold replaceText
      by_cases hp : k.isPrefixOf (x :: xs) = true
      · rw [if_pos hp]
        obtain ⟨r, hr⟩ := List.isPrefixOf_iff_prefix.1 hp
        rw [← hr, List.drop_left]
        have hlen : r.length ≤ m := by
          have : (k ++ r).length = (x :: xs).length := by rw [hr]
          have hk0 : 0 < k.length := List.length_pos_iff.2 h0
          rw [List.length_append, List.length_cons] at this
          rw [List.length_cons] at ht
          omega
        have hi := ih r hlen
        cases h1 : splitChar c r with
        | nil => exact absurd h1 (splitChar_ne_nil c r)
        | cons y ys =>
          rw [h1] at hi
          cases h2 : splitChar c (replaceText k n m r) with
          | nil => exact absurd h2 (splitChar_ne_nil c _)
          | cons z zs =>
            rw [h2] at hi
            rw [happ k r hk y ys h1, happ n _ hn z zs h2]
            cases hi with
            | cons ha hb =>
              refine .cons ?_ hb
              exact Renamed.more (a := []) (fun a' b' _ => Nat.zero_le _) ha
      · rw [if_neg hp]
        have hi := ih xs (by rw [List.length_cons] at ht; omega)
        by_cases hx : x = c
        · rw [splitChar, if_pos hx, splitChar, if_pos hx]
          exact .cons (.none (fun h => h0 (List.eq_nil_of_infix_nil h))) hi
        · cases h1 : splitChar c xs with
          | nil => exact absurd h1 (splitChar_ne_nil c xs)
          | cons y ys =>
            rw [h1] at hi
            cases h2 : splitChar c (replaceText k n m xs) with
            | nil => exact absurd h2 (splitChar_ne_nil c _)
            | cons z zs =>
              rw [h2] at hi
              rw [splitChar, if_neg hx, splitChar, if_neg hx, h1, h2]
              dsimp only
              have hy : y <+: xs := by
                obtain ⟨y', ys', e1, e2⟩ := splitChar_first c xs
                rw [h1] at e1
                cases e1
                exact e2
              have hnp : ¬k <+: x :: y := fun h => hp (List.isPrefixOf_iff_prefix.2
                (h.trans (List.cons_prefix_cons.2 ⟨rfl, hy⟩)))
              cases hi with
              | cons ha hb =>
                refine .cons ?_ hb
                cases ha with
                | none h =>
                  refine .none (fun h' => ?_)
                  rcases List.infix_cons_iff.1 h' with h' | h'
                  · exact hnp h'
                  · exact h h'
                | more h hr =>
                  rename_i a b c'
                  refine Renamed.more (a := x :: a) ?_ hr
                  intro a' b' he
                  cases a' with
                  | nil =>
                    exact absurd ⟨b', he.symm⟩ hnp
                  | cons w ws =>
                    rw [List.cons_append, List.cons_append, List.cons_append, List.cons_append, List.cons.injEq] at he
                    exact Nat.succ_le_succ (h ws b' he.2)

/-! ### The steps -/

theorem scteStep_profiles {p : ProcCfg} {x y : Xml} {old : Text} (ho : x.get "profiles".toList = some old)
    (hsub : ∀ q ∈ splitChar ',' old, scteProfile <:+: q → q = scteProfile) (h : scteStep p x = .ok y) :
    ∃ new, y.get "profiles".toList = some new ∧
      splitChar ',' new = (if p.scte35 then withProfile scteProfile (splitChar ',' old) else splitChar ',' old) := by
  unfold scteStep at h
  by_cases hp : p.scte35 = true
  · rw [if_pos hp, ho] at h
    rw [if_pos hp]
    cases h
    unfold withProfile
    by_cases hh : hasPart scteProfile old = true
    · obtain ⟨q, hq, hi⟩ := infix_split (c := ',') (by decide +kernel) (by decide +kernel) ((hasPart_iff _ _).1 hh)
      rw [if_pos hh, if_pos (by rw [← hsub q hq hi]; exact hq)]
      exact ⟨old, ho, rfl⟩
    · rw [if_neg hh, if_neg (fun hm => hh ((hasPart_iff _ _).2 (mem_split_infix hm)))]
      refine ⟨_, Xml.get_set_same .., ?_⟩
      rw [splitChar_append]
      rfl
  · rw [if_neg hp] at h
    rw [if_neg hp]
    cases h
    exact ⟨old, ho, rfl⟩

theorem lossStep_profiles {p : ProcCfg} {x y : Xml} {old : Text} (ho : x.get "profiles".toList = some old)
    (h : lossStep p x = .ok y) :
    ∃ new, y.get "profiles".toList = some new ∧
      (if p.loss then List.Forall₂ (Renamed "dash-if-simple".toList "dash-if-main".toList) (splitChar ',' old)
        (splitChar ',' new) else new = old) := by
  unfold lossStep at h
  by_cases hp : p.loss = true
  · rw [if_pos hp, ho] at h
    cases h
    by_cases hh : hasPart "dash-if-simple".toList old = true
    · rw [if_pos hh]
      refine ⟨_, Xml.get_set_same .., ?_⟩
      rw [if_pos hp]
      exact replaceText_split (by decide +kernel) (by decide +kernel) (by decide +kernel) _ _ (Nat.le_refl _)
    · rw [if_neg hh]
      refine ⟨old, ho, ?_⟩
      rw [if_pos hp]
      refine List.forall₂_same.2 (fun q hq => .none (fun hi => hh ?_))
      exact (hasPart_iff _ _).2 (hi.trans (mem_split_infix hq))
  · rw [if_neg hp] at h
    cases h
    refine ⟨old, ho, ?_⟩
    rw [if_neg hp]

theorem profilesStep_profiles {d : MpdData} {x y : Xml} {old : Text} (ho : x.get "profiles".toList = some old)
    (hd : ∀ l ∈ d.addProfiles, ∀ q ∈ l, ',' ∉ q) (h : profilesStep d x = .ok y) :
    ∃ new, y.get "profiles".toList = some new ∧
      splitChar ',' new = (d.addProfiles.getD []).foldl (fun l q => withProfile q l) (splitChar ',' old) := by
  unfold profilesStep at h
  cases hl : d.addProfiles with
  | none => rw [hl] at h; cases h; exact ⟨old, ho, rfl⟩
  | some l =>
    rw [hl, ho] at h
    cases h
    refine ⟨_, Xml.get_set_same .., ?_⟩
    have key : ∀ (l acc : List Text), acc ≠ [] → (∀ q ∈ acc, ',' ∉ q) → (∀ q ∈ l, ',' ∉ q) →
        addProfs acc l = l.foldl (fun l q => withProfile q l) acc ∧ addProfs acc l ≠ [] ∧
        ∀ q ∈ addProfs acc l, ',' ∉ q := by
      intro l
      induction l with
      | nil => intro acc h1 h2 _; exact ⟨rfl, h1, h2⟩
      | cons z zs ih =>
        intro acc h1 h2 h3
        show addProfs (withProfile z acc) zs = _ ∧ addProfs (withProfile z acc) zs ≠ [] ∧
          ∀ q ∈ addProfs (withProfile z acc) zs, ',' ∉ q
        refine ih _ ?_ ?_ (fun q hq => h3 q (List.mem_cons_of_mem _ hq))
        · unfold withProfile; split
          · exact h1
          · simp
        · unfold withProfile; split
          · exact h2
          · intro q hq
            rcases List.mem_append.1 hq with hq | hq
            · exact h2 q hq
            · rw [List.mem_singleton.1 hq]; exact h3 z (List.mem_cons_self ..)
    obtain ⟨k1, k2, k3⟩ := key l (splitChar ',' old) (splitChar_ne_nil _ _) (fun q hq => mem_split_noSep hq)
      (hd l hl)
    rw [splitChar_joinWith k2 k3, k1]
    rfl

theorem attrsStep_profiles {p : ProcCfg} {c : Cfg} {e : MpdEnv} {t now : Int} {x : Xml} :
    (attrsStep p (mpdDataOf c e t now) x).get "profiles".toList = x.get "profiles".toList := by
  rw [attrsStep_get (by decide +kernel), get_setFromDict, if_neg]
  unfold mpdKeys
  generalize (mpdDataOf c e t now).static = s
  generalize (dictGet (mpdDataOf c e t now).attrs "mediaPresentationDuration".toList).isSome = t
  revert s t
  decide +kernel

/-- **C67.** The profiles of the live manifest are those of the VoD manifest, then the profile for
SCTE-35 ad insertion if the service has it, then that of low latency if the service has chunks, no
profile twice that was there once; for services with lost segments `dash-if-simple` is `dash-if-main`.
Missing: VoD manifests with a longer profile that contains the name of the profile for ad insertion
(`C67_longer_violation`). -/
theorem C67_profiles_partial {c : Cfg} {e : MpdEnv} {now : Int} {vod out : Xml} {infos rest : List Xml}
    {base : Option Xml} {period : Xml} (hs : VodShape vod.kids infos base period rest) (hd : 0 ≤ c.segDur)
    (hb : ∀ t ∈ c.tsbd, 0 ≤ t) {old : Text} (ho : vod.get "profiles".toList = some old)
    (hsub : ∀ q ∈ splitChar ',' old, "http://dashif.org/guidelines/adin/app".toList <:+: q →
      q = "http://dashif.org/guidelines/adin/app".toList)
    (h : generateXml c e now vod = .ok out) :
    ∃ (l l' : List Text) (new : Text),
      l = (if 0 < c.scte35 then withProfile "http://dashif.org/guidelines/adin/app".toList (splitChar ',' old)
        else splitChar ',' old) ∧
      (if c.segtimelineloss then List.Forall₂ (Renamed "dash-if-simple".toList "dash-if-main".toList) l l'
        else l' = l) ∧
      out.get "profiles".toList = some new ∧
      splitChar ',' new = (if ∃ x, c.chunkDur = some x ∧ 0 < x then
        withProfile "http://www.dashif.org/guidelines/low-latency-live-v5".toList l' else l') := by
  obtain ⟨m⟩ := generateXml_parts hs hd hb h
  obtain ⟨-, x1, x2, x3, h1, h2, h3, hroot⟩ := processRoot_eq m.hroot
  obtain ⟨o1, g1, s1⟩ := scteStep_profiles (old := old) (by rw [Xml.get_set_ne (by decide +kernel)]; exact ho)
    hsub h1
  obtain ⟨o2, g2, s2⟩ := lossStep_profiles g1 h2
  have hadd : (mpdDataOf c e m.tsbd now).addProfiles = (if ∃ x, c.chunkDur = some x ∧ 0 < x then
      some ["http://www.dashif.org/guidelines/low-latency-live-v5".toList] else none) := by
    show (match c.chunkDur with
      | some x => if 0 < x then some ["http://www.dashif.org/guidelines/low-latency-live-v5".toList] else none
      | none => none) = _
    cases hc : c.chunkDur with
    | none => rw [if_neg (by simp)]
    | some x => simp only [Option.some.injEq, exists_eq_left']
  obtain ⟨o3, g3, s3⟩ := profilesStep_profiles (d := mpdDataOf c e m.tsbd now) g2 (by
    rw [hadd]
    intro l hl q hq
    split at hl
    · cases hl
      rw [List.mem_singleton.1 hq]
      decide +kernel
    · cases hl) h3
  refine ⟨splitChar ',' o1, splitChar ',' o2, o3, ?_, ?_, ?_, ?_⟩
  · rw [s1]
    show (if decide (0 < c.scte35) = true then _ else _) = _
    simp only [decide_eq_true_eq]
    rfl
  · have e1 : (procCfgOf c e m.tsbd now).loss = c.segtimelineloss := rfl
    rw [e1] at s2
    split
    · rename_i hh; rw [if_pos hh] at s2; exact s2
    · rename_i hh; rw [if_neg hh] at s2; rw [s2]
  · refine (congrArg (fun x => Xml.get x "profiles".toList) m.hout).trans ?_
    rw [Xml.get_setKids, hroot, attrsStep_profiles, g3]
  · rw [s3, hadd]
    split <;> rfl

/-- A VoD manifest with these profiles. -/
def profileVod (profiles : String) : Xml := (sampleVod [samplePeriod]).set "profiles".toList profiles.toList

/-- The profiles of the live manifest. -/
def liveProfiles (c : Cfg) (profiles : String) : Option (List String) :=
  (generateXml c sampleEnv 1000000 (profileVod profiles)).toOption.bind fun x =>
    (x.get "profiles".toList).map fun t => (splitChar ',' t).map String.ofList

/-- C67: ad insertion and low latency with lost segments. -/
example : liveProfiles { sampleCfg with scte35 := 1, chunkDur := some (1 / 2), segtimelineloss := true }
      "urn:mpeg:dash:profile:isoff-live:2011,http://dashif.org/guidelines/dash-if-simple" =
    some ["urn:mpeg:dash:profile:isoff-live:2011", "http://dashif.org/guidelines/dash-if-main",
      "http://dashif.org/guidelines/adin/app", "http://www.dashif.org/guidelines/low-latency-live-v5"] ∧
    liveProfiles { sampleCfg with scte35 := 1 } "http://dashif.org/guidelines/adin/app" =
      some ["http://dashif.org/guidelines/adin/app"] := by
  decide +kernel

/-- **C67 fails** for a VoD manifest with a longer profile that contains the name of the profile for
ad insertion: the code looks for the name anywhere in the text, and does not add it. -/
theorem C67_longer_violation :
    liveProfiles { sampleCfg with scte35 := 1 } "http://dashif.org/guidelines/adin/app-v2" =
      some ["http://dashif.org/guidelines/adin/app-v2"] := by
  decide +kernel

end Verif
