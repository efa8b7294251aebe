import Verif.Lemmas.XlinkLoop
/-
The loop that replaces periods by links, over all children of the root.
-/
namespace Verif
open Spec

/-- The id of a period. -/
def idOf (k : Xml) : Text := (k.get "id".toList).getD []

/-- The ids of the periods among elements. -/
def idsOf : List Xml → List Text
  | [] => []
  | k :: ks => if k.tag = "Period".toList then idOf k :: idsOf ks else idsOf ks

/-- What becomes of the children of the root. -/
def newKids (qt qk : Text → Text) (link : Xml → Text → Py Text) (ad : Int) (links : List Text) : Nat → List Xml → Py Text
  | _, [] => .ok []
  | n, k :: ks =>
    if k.tag = "Period".toList then
      match newPeriod qt qk link ad links n k (idOf k) with
      | .error e => .error e
      | .ok (w, n') =>
        match newKids qt qk link ad links n' ks with
        | .error e => .error e
        | .ok v => .ok (w ++ v)
    else
      match newKids qt qk link ad links n ks with
      | .error e => .error e
      | .ok v => .ok (elemText qt qk [] k ++ v)

theorem elemText_head (qt qk : Text → Text) (d : Text) (k : Xml) : ∃ s, elemText qt qk d k = '<' :: s := by
  obtain ⟨t, a, x, ks⟩ := k
  rw [elemText]; exact ⟨_, rfl⟩

theorem xlinkPeriod_head {base : Option Text} {file : Text} {ad : Int} {pid l : Text}
    (h : xlinkPeriod base file ad pid = .ok l) : ∃ s, l = '<' :: s := by
  have key : ∀ s t : String, ∀ r : Text, s.toList = '<' :: t.toList → ∃ u, s.toList ++ r = '<' :: u :=
    fun s t r e => ⟨t.toList ++ r, by rw [e]; rfl⟩
  unfold xlinkPeriod at h
  split at h
  · cases h; exact key _ "Period xlink:href=\"http://vm1.dashif.org/dynamicxlink/invalidurl.php" _ (by decide +kernel)
  split at h
  · cases h
    exact key _ "Period xlink:href=\"http://vm1.dashif.org/dynamicxlink/ad.php?id=6_ad_twoperiods_withremote" _
      (by decide +kernel)
  split at h
  · cases h
    exact key _ "Period xlink:href=\"http://vm1.dashif.org/dynamicxlink/ad.php?id=6_ad_twoperiods" _ (by decide +kernel)
  split at h
  · cases h; exact key _ "Period xlink:href=\"http://vm1.dashif.org/dynamicxlink/ad.php?id=6_ad" _ (by decide +kernel)
  · cases base with
    | none => cases h
    | some b =>
      cases h
      simp only [List.append_assoc]
      exact key _ "Period xlink:href=\"" _ (by decide +kernel)

theorem periodLink_head {qt qk : Text → Text} {base : Option Text} {file : Text} {ad : Int} {k : Xml} {pid l : Text}
    (h : periodLink qt qk base file ad k pid = .ok l) : ∃ s, l = '<' :: s := by
  unfold periodLink at h
  cases hx : xlinkPeriod base file ad pid with
  | error e => rw [hx] at h; cases h
  | ok l' =>
    rw [hx] at h
    cases h
    obtain ⟨s, hs⟩ := xlinkPeriod_head hx
    split
    · rename_i h5
      subst h5
      have e : l' = "<Period xlink:href=\"http://vm1.dashif.org/dynamicxlink/ad.php?id=6_ad".toList ++ linkTail :=
        (Except.ok.inj hx).symm
      have e1 : l'.take (l'.length - 9) = '<' :: (l'.take (l'.length - 9)).drop 1 := by
        rw [e]
        decide +kernel
      rw [e1]
      exact ⟨_, rfl⟩
    · exact ⟨s, hs⟩

theorem IsId.append {pid : Text} (h : IsId pid) {a b : Text} {d : Char} (hd : d ∉ pid) (h1 : ¬pid <:+: a)
    (h2 : ¬pid <:+: d :: b) : ¬pid <:+: a ++ d :: b := by
  obtain ⟨c, r, e, _⟩ := h.cons
  rw [e] at hd h1 h2 ⊢
  exact infix_next (fun hm => hd (List.mem_cons_of_mem _ hm)) h1 h2

theorem IsId.concat {pid : Text} (_h : IsId pid) {a b : Text} {d : Char} (hd : d ∉ pid) (h1 : ¬pid <:+: a ++ [d])
    (h2 : ¬pid <:+: b) : ¬pid <:+: (a ++ [d]) ++ b := by
  rintro ⟨u, v, e⟩
  rw [List.append_assoc] at e
  rcases List.append_eq_append_iff.mp e with ⟨w, hw, hv⟩ | ⟨w, hw, hv⟩
  · by_cases h0 : w = []
    · rw [h0, List.nil_append] at hv
      exact h2 ⟨[], v, by simpa using hv⟩
    · have hp : ¬pid <:+: a := fun hi => h1 (List.IsInfix.trans hi ⟨[], [d], rfl⟩)
      exact noStart_last hd hp b w h0 ⟨u, hw.symm⟩ ⟨v, hv⟩
  · exact h2 ⟨w, v, by rw [List.append_assoc]; exact hv.symm⟩

theorem asset_fresh {qt qk : Text → Text} (hq : qt "Period".toList = "Period".toList) {k : Xml} {pid : Text}
    (h : PeriodAt qt qk k pid) {pid' : Text} (h' : IsId pid') (hf : ¬pid' <:+: elemText qt qk [] k) :
    ¬pid' <:+: assetPeriod qt qk k := by
  rw [period_text hq h] at hf
  have h1 : ¬pid' <:+: periodTag qk k ++ ['>'] := fun hi => hf (List.IsInfix.trans hi
    ⟨[], periodInner qt qk k ++ periodClose, by simp⟩)
  have h2 : ¬pid' <:+: periodInner qt qk k ++ periodClose := fun hi => hf (List.IsInfix.trans hi
    ⟨periodTag qk k ++ ['>'], [], by simp⟩)
  have ea : assetText = "\n<AssetIdentifier schemeIdUri=\"urn:org:dashif:asset-id:2013\" value=\"md:cid:EIDR:10.5240%2f0EFB-02CD-126E-8092-1E49-W\"></AssetIdentifier".toList ++ ['>'] := by
    decide +kernel
  have h3 : ¬pid' <:+: assetText := h'.fixed (by decide +kernel)
  have h4 : ¬pid' <:+: assetText ++ (periodInner qt qk k ++ periodClose) := by
    rw [ea] at h3 ⊢
    exact h'.concat h'.gt h3 h2
  have h5 := h'.concat h'.gt h1 h4
  unfold assetPeriod
  simpa using h5

theorem newPeriod_fresh {qt qk : Text → Text} (hq : qt "Period".toList = "Period".toList) {k : Xml} {pid : Text}
    (h : PeriodAt qt qk k pid) {pid' : Text} (h' : IsId pid') (hf : ¬pid' <:+: elemText qt qk [] k)
    {link : Xml → Text → Py Text} {ad : Int} {links : List Text} {n n' : Nat} {w : Text}
    (hl : ∀ l, link k pid = .ok l → ¬pid' <:+: l)
    (hw : newPeriod qt qk link ad links n k pid = .ok (w, n')) : ¬pid' <:+: w := by
  unfold newPeriod at hw
  split at hw
  · cases hx : link k pid with
    | error e => rw [hx] at hw; cases hw
    | ok l =>
      rw [hx] at hw
      simp only at hw
      split at hw
      · cases hw; exact asset_fresh hq h h' hf
      · cases hw; exact hl _ hx
  · cases hw
    split
    · exact asset_fresh hq h h' hf
    · exact hf

theorem newPeriod_head {qt qk : Text → Text} {k : Xml} {pid : Text}
    {link : Xml → Text → Py Text} (hlk : ∀ p l, link k p = .ok l → ∃ s, l = '<' :: s) {ad : Int} {links : List Text} {n n' : Nat}
    {w : Text} (hw : newPeriod qt qk link ad links n k pid = .ok (w, n')) : ∃ s, w = '<' :: s := by
  have ha : ∃ s, assetPeriod qt qk k = '<' :: s := ⟨_, rfl⟩
  unfold newPeriod at hw
  split at hw
  · cases hx : link k pid with
    | error e => rw [hx] at hw; cases hw
    | ok l =>
      rw [hx] at hw
      simp only at hw
      split at hw
      · cases hw; exact ha
      · cases hw; exact hlk _ _ hx
  · cases hw
    split
    · exact ha
    · exact elemText_head ..

theorem linkLoop_kids {qt qk : Text → Text} (hq : qt "Period".toList = "Period".toList)
    (hk : qk "id".toList = "id".toList) (ad : Int) (base : Option Text) (file : Text)
    (links : List Text) (post : Text) : ∀ (kids : List Xml) (n : Nat) (pre : Text),
    (∀ k ∈ kids, k.tag = "Period".toList → PeriodAt qt qk k (idOf k)) →
    (∀ k ∈ kids, k.tag = "Period".toList → ¬idOf k <:+: pre) →
    kids.Pairwise (fun k k' => k'.tag = "Period".toList → ¬idOf k' <:+: elemText qt qk [] k ∧
      (k.tag = "Period".toList → ∀ l, periodLink qt qk base file ad k (idOf k) = .ok l → ¬idOf k' <:+: l)) →
    (∀ A k B, kids = A ++ k :: B → k.tag = "Period".toList →
      ¬(periodOpen ++ (idOf k ++ ['"'])) <:+: elemsText qt qk B ++ post) →
    linkLoop base file ad links (idsOf kids) (pre ++ (elemsText qt qk kids ++ post), n) =
      match newKids qt qk (periodLink qt qk base file ad) ad links n kids with
      | .error e => .error e
      | .ok w => .ok (pre ++ (w ++ post)) := by
  intro kids
  induction kids with
  | nil => intro n pre _ _ _ _; simp [idsOf, newKids, linkLoop, elemsText]
  | cons k kids ih =>
    intro n pre hper hpre hpw hrest
    have hpw' := List.pairwise_cons.mp hpw
    have hper' : ∀ k' ∈ kids, k'.tag = "Period".toList → PeriodAt qt qk k' (idOf k') :=
      fun k' hm => hper k' (List.mem_cons_of_mem _ hm)
    have hrest' : ∀ A k' B, kids = A ++ k' :: B → k'.tag = "Period".toList →
        ¬(periodOpen ++ (idOf k' ++ ['"'])) <:+: elemsText qt qk B ++ post := by
      intro A k' B e; exact hrest (k :: A) k' B (by rw [e]; rfl)
    have hfresh : ∀ w s, w = '<' :: s → (∀ k' ∈ kids, k'.tag = "Period".toList → ¬idOf k' <:+: w) →
        ∀ k' ∈ kids, k'.tag = "Period".toList → ¬idOf k' <:+: pre ++ w := by
      rintro w s rfl hw k' hm ht
      exact (hper' k' hm ht).id.append (hper' k' hm ht).id.lt (hpre k' (List.mem_cons_of_mem _ hm) ht) (hw k' hm ht)
    by_cases ht : k.tag = "Period".toList
    · have hp := hper k (by simp) ht
      rw [idsOf, if_pos ht, linkLoop, newKids, if_pos ht, elemsText, List.append_assoc,
        linkStep_period hq hk hp (hpre k (by simp) ht) (hrest [] k kids rfl ht) ad]
      cases hn : newPeriod qt qk (periodLink qt qk base file ad) ad links n k (idOf k) with
      | error e => rfl
      | ok wn =>
        obtain ⟨w, n'⟩ := wn
        simp only
        obtain ⟨s, hs⟩ := newPeriod_head (fun p l h => periodLink_head h) hn
        have hf := hfresh w s hs (fun k' hm ht' => newPeriod_fresh hq hp (hper' k' hm ht').id
          (hpw'.1 k' hm ht').1 (fun l hl => (hpw'.1 k' hm ht').2 ht l hl) hn)
        have := ih n' (pre ++ w) hper' hf hpw'.2 hrest'
        rw [List.append_assoc] at this
        rw [this]
        cases newKids qt qk (periodLink qt qk base file ad) ad links n' kids with
        | error e => rfl
        | ok v => simp
    · obtain ⟨s, hs⟩ := elemText_head qt qk [] k
      have hf := hfresh _ s hs (fun k' hm ht' => (hpw'.1 k' hm ht').1)
      have := ih n (pre ++ elemText qt qk [] k) hper' hf hpw'.2 hrest'
      rw [List.append_assoc] at this
      rw [idsOf, if_neg ht, newKids, if_neg ht, elemsText, List.append_assoc, this]
      cases newKids qt qk (periodLink qt qk base file ad) ad links n kids with
      | error e => rfl
      | ok v => simp

end Verif
