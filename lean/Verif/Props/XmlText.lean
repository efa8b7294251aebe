import Verif.Lemmas.XmlResolve
import Verif.Props.MpdLinks
/-
C70: a reader of the text of the manifest gets the elements that were made.
-/
namespace Verif
open Spec

theorem foldUri_keys (us : List Text) (ns : List (Text × Text)) :
    ∀ q ∈ us.foldl addUri ns, q ∈ ns ∨ q.1 ∈ us := by
  induction us generalizing ns with
  | nil => intro q hq; exact .inl hq
  | cons u us ih =>
    intro q hq
    rcases ih _ q hq with h | h
    · unfold addUri at h
      split at h
      · exact .inl h
      · dsimp only at h
        split at h
        · exact .inl h
        · rcases List.mem_append.mp h with h | h
          · exact .inl h
          · right
            simp only [List.mem_singleton] at h
            rw [h]; simp
    · exact .inr (by simp [h])

theorem everywhere_uriOk {S : Text → Prop} (hd : S dashUri) (x : Xml) :
    Everywhere (fun t a _ => (NameOk t ∧ ∀ u ∈ (treeName t).1, S u) ∧
      ∀ p ∈ a, NameOk p.1 ∧ ∀ u ∈ (treeName p.1).1, S u) x → ∀ u ∈ nameUris x, S u := by
  refine Xml.rec
    (motive_1 := fun x => Everywhere (fun t a _ => (NameOk t ∧ ∀ u ∈ (treeName t).1, S u) ∧
      ∀ p ∈ a, NameOk p.1 ∧ ∀ u ∈ (treeName p.1).1, S u) x → ∀ u ∈ nameUris x, S u)
    (motive_2 := fun xs => EverywhereAll (fun t a _ => (NameOk t ∧ ∀ u ∈ (treeName t).1, S u) ∧
      ∀ p ∈ a, NameOk p.1 ∧ ∀ u ∈ (treeName p.1).1, S u) xs → ∀ u ∈ nameUrisAll xs, S u) ?_ ?_ ?_ x
  · intro t a x ks ih hE u hu
    rw [Everywhere] at hE
    obtain ⟨⟨⟨hn, ht⟩, ha⟩, hks⟩ := hE
    rw [nameUris, List.cons_append, List.mem_cons, List.mem_append] at hu
    rcases hu with rfl | hu | hu
    · have := tagName_treeName hn
      unfold manifestTag at this
      split at this
      · simp only [Prod.mk.injEq, Option.some.injEq] at this; rw [← this.1]; exact hd
      · rename_i v l e
        simp only [Prod.mk.injEq, Option.some.injEq] at this
        rw [← this.1]; exact ht v (by rw [e]; rfl)
    · obtain ⟨p, hp, h⟩ := List.mem_filterMap.mp hu
      rw [attrName_treeName (ha p hp).1] at h
      exact (ha p hp).2 u h
    · exact ih hks u hu
  · intro _ u hu; simp [nameUrisAll] at hu
  · intro k ks ih1 ih2 hE u hu
    rw [EverywhereAll] at hE
    rw [nameUrisAll, List.mem_append] at hu
    rcases hu with hu | hu
    · exact ih1 hE.1 u hu
    · exact ih2 hE.2 u hu

/-- The namespaces of a tree that can be written. -/
theorem namespaces_ok {x : Xml} (hw : Writable dashUri x) :
    ∀ p ∈ namespacesOf x, p.1.all isXmlChar = true ∧ Untouched p.1 := by
  intro p hp
  rcases foldUri_keys _ _ p hp with h | h
  · simp at h
  · refine everywhere_uriOk (S := fun u => u.all isXmlChar = true ∧ Untouched u) ?_ x ?_ p.1 h
    · unfold Untouched; decide +kernel
    · exact everywhere_mono (fun t a x h => ⟨⟨h.1, fun u hu => (h.1.2.2 u hu).2⟩,
        fun p hp => ⟨(h.2.1 p hp).1, fun u hu => ((h.2.1 p hp).1.2.2 u hu).2⟩⟩) hw

/-- The text of any tree of a manifest that can be written. -/
theorem read_fullXml {x : Xml} (ht : x.tag = "MPD".toList) (hw : Writable dashUri x) :
    readXml (fullXml x) = some (treeEvents dashUri x) := by
  obtain ⟨t, a, y, ks⟩ := x
  have hn := namespaces_ok hw
  have ht' : (tagName t).1 = dashUri := by
    have ht : t = "MPD".toList := ht
    rw [ht]; decide +kernel
  unfold fullXml
  rw [cleanText_tree ht' hw (fun p hp => (hn p hp).2)]
  exact read_clean (namesOk ht') (uris_known hw) (fun p hp => (hn p hp).1)

theorem generateXml_tag {c : Cfg} {e : MpdEnv} {now : Int} {vod out : Xml} (h : generateXml c e now vod = .ok out) :
    out.tag = "MPD".toList := by
  unfold generateXml at h
  cases ht : c.tsbd with
  | none => rw [ht] at h; simp [bind, Except.bind] at h
  | some tsbd =>
    rw [ht] at h
    simp only [bind, Except.bind, pure, Except.pure] at h
    cases hf : c.adjustedStartNumber with
    | error x => rw [hf] at h; cases h
    | ok first =>
      rw [hf] at h
      cases hp : periodData c now with
      | error x => rw [hp] at h; cases h
      | ok pds =>
        rw [hp] at h
        simp only [processMpd, bind, Except.bind, pure, Except.pure] at h
        cases hr : processRoot (procCfgOf c e tsbd now) (mpdDataOf c e tsbd now) vod with
        | error x => rw [hr] at h; cases h
        | ok root =>
          rw [hr] at h
          simp only at h
          cases hk : processKids (procCfgOf c e tsbd now) (mpdDataOf c e tsbd now) pds root.kids with
          | error x => rw [hk] at h; cases h
          | ok kids =>
            rw [hk] at h
            simp only [Except.ok.injEq] at h
            rw [← h, Xml.tag_setKids, (processRoot_kept hr).1.1]
            exact (processRoot_eq hr).1

/-- **C70.** A reader of XML that knows namespaces gets from the text of the manifest exactly the
elements, attributes and texts that were made, in the namespace of DASH, whatever characters the
texts contain.
Missing: texts with characters that XML does not allow, and texts with `ns0:`, which the code removes
everywhere (`C70_host_violation`, `C70_character_violation`). -/
theorem C70_text_partial {c : Cfg} {e : MpdEnv} {now : Int} {vod x : Xml} {t : Text}
    (hx : generateXml c e now vod = .ok x) (ht : generateText c e now vod = .ok t) (hw : Writable dashUri x) :
    readXml t = some (treeEvents dashUri x) := by
  unfold generateText at ht
  rw [hx] at ht
  simp only [bind, Except.bind, pure, Except.pure, Except.ok.injEq] at ht
  rw [← ht]
  exact read_fullXml (generateXml_tag hx) hw

/-- The manifest for a request, as a tree and as what a reader gets, with the addresses of the parts of
the server in `start`. -/
def textManifest (start : String) (parts : List String) (pos : Nat) (now : Int) (vod : Xml) :
    Py (Xml × Option (List XmlEvent)) :=
  match processUrl (fun _ => none) vod6 (parts.map String.toList) now with
  | .error e => .error e
  | .ok c =>
    let env := { sampleEnv with start := start.toList, parts := parts.map String.toList, pos := pos }
    match generateXml c env now vod, generateText c env now vod with
    | .ok x, .ok t => .ok (x, readXml t)
    | .error e, _ => .error e
    | _, .error e => .error e

/-- The texts of the elements `BaseURL` in a list of events. -/
def baseTexts : List XmlEvent → List String
  | .start _ n _ :: .chars t :: r =>
    if n = "BaseURL".toList then String.ofList t :: baseTexts r else baseTexts r
  | _ :: r => baseTexts r
  | [] => []

instance (t : Text) : Decidable (Untouched t) := inferInstanceAs (Decidable (_ ∧ _))
instance (t : Text) : Decidable (LocalName t) := inferInstanceAs (Decidable (_ ∧ _))
instance (t : Text) : Decidable (NameOk t) := inferInstanceAs (Decidable (_ ∧ _))
instance (d t : Text) (a : List (Text × Text)) (x : Text) : Decidable (NodeOk d t a x) :=
  inferInstanceAs (Decidable (_ ∧ _))

mutual

/-- Whether a tree can be written. -/
def decWritable (d : Text) : (x : Xml) → Decidable (Everywhere (NodeOk d) x)
  | .elem t a x ks =>
    have := decWritableAll d ks
    inferInstanceAs (Decidable (NodeOk d t a x ∧ EverywhereAll (NodeOk d) ks))

/-- The same for a list of trees. -/
def decWritableAll (d : Text) : (ks : List Xml) → Decidable (EverywhereAll (NodeOk d) ks)
  | [] => .isTrue trivial
  | k :: ks =>
    have := decWritable d k
    have := decWritableAll d ks
    inferInstanceAs (Decidable (Everywhere (NodeOk d) k ∧ EverywhereAll (NodeOk d) ks))

end

instance (d : Text) (x : Xml) : Decidable (Writable d x) := decWritable d x

example : ∃ x t c, processUrl (fun _ => none) vod6 ["tsbd_60".toList, "testpic".toList, "Manifest.mpd".toList]
        1000000 = .ok c ∧
      generateXml c { sampleEnv with parts := ["tsbd_60".toList, "testpic".toList, "Manifest.mpd".toList] } 1000000
        (sampleVod [.elem "ProgramInformation".toList [("note".toList, "a<b & \"c\"\n".toList)] "x > y".toList [],
          samplePeriod]) = .ok x ∧
      generateText c { sampleEnv with parts := ["tsbd_60".toList, "testpic".toList, "Manifest.mpd".toList] } 1000000
        (sampleVod [.elem "ProgramInformation".toList [("note".toList, "a<b & \"c\"\n".toList)] "x > y".toList [],
          samplePeriod]) = .ok t ∧
      Writable dashUri x ∧
      "<ProgramInformation note=\"a&lt;b &amp; &quot;c&quot;&#10;\">x &gt; y</ProgramInformation>".toList <:+: t := by
  refine ⟨_, _, _, rfl, rfl, rfl, ?_⟩
  decide +kernel

/-- **C70 fails** when a text contains `ns0:`: the code removes it everywhere, not only where it is a
prefix, so that on a server with the address `dns0:8080` the element `BaseURL` names another server. -/
theorem C70_host_violation :
    (textManifest "http://dns0:8080/livesim/" ["tsbd_60", "testpic", "Manifest.mpd"] 1 1000000
      (sampleVod [samplePeriod])).toOption.map (fun p =>
        (baseTexts (treeEvents dashUri p.1), p.2.map baseTexts)) =
      some (["http://dns0:8080/livesim/tsbd_60/testpic/"], some ["http://d8080/livesim/tsbd_60/testpic/"]) := by
  decide +kernel

/-- **C70 fails** when the URL of the request contains a control character: it is copied to the manifest, and
a reader rejects the manifest. -/
theorem C70_character_violation :
    (textManifest "http://h/livesim/" ["sid_\x01", "testpic", "Manifest.mpd"] 1 1000000
      (sampleVod [samplePeriod])).toOption.map (·.2) = some none := by
  decide +kernel

end Verif
