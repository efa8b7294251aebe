import Verif.Lemmas.WritableMpd
import Verif.Props.Xlink
/-
C70: a manifest that is made from a readable manifest can be read.
-/
namespace Verif
open Spec

theorem good_procCfg {c : Cfg} {e : MpdEnv} (hl : c.segtimelineloss = false) (hs : GoodText e.start)
    (hp : ∀ q ∈ e.parts, GoodText q) (hu : GoodText e.utcHead) (hd : GoodText e.direct)
    (hm : ∀ u ∈ c.multiUrl, GoodText u) {tsbd now : Int} (hsl : e.start.getLast? = some '/') :
    GoodProc (procCfgOf c e tsbd now) (mpdDataOf c e tsbd now) := by
  have hjoin : ∀ l : List Text, (∀ q ∈ l, GoodText q) → GoodText (e.start ++ joinSlash l) := by
    intro l hl
    obtain ⟨pre, hpre⟩ := List.getLast?_eq_some_iff.mp hsl
    rw [hpre]
    have h1 : GoodText pre := hs.infix (by rw [hpre]; exact (List.prefix_append _ _).isInfix)
    have := h1.slash (goodText_joinSlash hl)
    simpa using this
  have e1 : "/".toList = ['/'] := by decide +kernel
  refine ⟨hl, ?_, ?_, ?_, hm, ?_, hu.value, hd.value, hjoin _ hp, goodValue_calm (calm_makeTimestamp _), ?_⟩
  · intro q hq
    have iso : ∀ x : Rat, GoodValue (secondsToIso x) := fun x => goodValue_calm (calm_secondsToIso x)
    have stamp : ∀ x : Rat, GoodValue (makeTimestamp x) := fun x => goodValue_calm (calm_makeTimestamp x)
    have pt : ∀ x : Int, GoodValue (ptText x) := fun x => goodValue_calm (calm_ptText x)
    have mup : GoodValue (mupText c) := by
      unfold mupText
      dsimp only
      split
      · exact pt _
      · split
        · exact iso _
        · decide +kernel
    unfold mpdDataOf at hq
    dsimp only at hq
    rcases List.mem_append.mp hq with hq | hq
    · rcases List.mem_append.mp hq with hq | hq
      · rcases List.mem_append.mp hq with hq | hq
        · simp only [List.mem_cons, List.not_mem_nil, or_false] at hq
          rcases hq with rfl | rfl | rfl | rfl
          · exact stamp _
          · exact mup
          · exact iso _
          · exact pt _
        · split at hq
          · split at hq
            · cases hq
            · rw [List.mem_singleton.mp hq]; exact stamp _
          · cases hq
      · split at hq
        · rw [List.mem_singleton.mp hq]; exact iso _
        · cases hq
    · split at hq
      · rw [List.mem_singleton.mp hq]; exact iso _
      · cases hq
  · intro l hl q hq
    unfold mpdDataOf at hl
    dsimp only at hl
    split at hl
    · split at hl
      · simp only [Option.mem_def, Option.some.injEq] at hl
        rw [← hl] at hq
        rw [List.mem_singleton.mp hq]; decide +kernel
      · cases hl
    · cases hl
  · show GoodText (e.start ++ joinSlash (e.parts.take (e.pos + 1)) ++ "/".toList)
    rw [e1]
    exact (hjoin _ (fun q hq => hp q (List.mem_of_mem_take hq))).slash goodText_nil
  · intro a ha
    unfold mpdDataOf at ha
    dsimp only at ha
    split at ha
    · simp only [Option.mem_def, Option.some.injEq] at ha
      rw [← ha]; exact goodValue_calm (calm_fText _)
    · cases ha
  · intro a ha
    unfold procCfgOf at ha
    dsimp only at ha
    split at ha
    · cases ha
    · simp only [Option.mem_def, Option.some.injEq] at ha
      rw [← ha]; exact goodValue_calm (calm_fText _)

/-- The manifest made from a manifest that can be written, in a service with an address that can be written, can be
written. -/
theorem writable_generateXml {c : Cfg} {e : MpdEnv} {now : Int} {vod x : Xml}
    (hx : generateXml c e now vod = .ok x) (hw : Writable dashUri vod) (hl : c.segtimelineloss = false)
    (hs : GoodText e.start) (hsl : e.start.getLast? = some '/')
    (hp : ∀ q ∈ e.parts, GoodText q) (hu : GoodText e.utcHead) (hd : GoodText e.direct)
    (hm : ∀ u ∈ c.multiUrl, GoodText u) : Writable dashUri x := by
  unfold generateXml at hx
  simp only [Py.bind_ok] at hx
  obtain ⟨tsbd, -, -, -, pds, -, h⟩ := hx
  exact writable_processMpd (good_procCfg hl hs hp hu hd hm hsl) hw h

/-- **C70.** Whatever the options (except that segments are left out of timelines): when the VoD manifest and the parts of
the address of the request have only characters of XML, and nowhere the text that `get_full_xml` replaces, then a reader of
XML gets from the text of the manifest exactly the elements, attributes and texts that were made.
Missing: texts with other characters and texts with `ns0:` (`C70_host_violation`, `C70_character_violation`); option
`segtimelineloss`, which replaces `dash-if-simple` in the profiles and can make a text with `ns0:` (`C70_loss_violation`). -/
theorem C70_inputs_partial {c : Cfg} {e : MpdEnv} {now : Int} {vod x : Xml} {t : Text}
    (hx : generateXml c e now vod = .ok x) (ht : generateText c e now vod = .ok t) (hw : Writable dashUri vod)
    (hl : c.segtimelineloss = false) (hs : GoodText e.start) (hsl : e.start.getLast? = some '/')
    (hp : ∀ q ∈ e.parts, GoodText q) (hu : GoodText e.utcHead) (hd : GoodText e.direct)
    (hm : ∀ u ∈ c.multiUrl, GoodText u) :
    readXml t = some (treeEvents dashUri x) :=
  C70_text_partial hx ht (writable_generateXml hx hw hl hs hsl hp hu hd hm)

/-- Options for several periods, advertisement events and clocks. -/
def richOptions : List Text := ["periods_60".toList, "scte35_1".toList, "utc_direct-head".toList, "testpic".toList,
  "Manifest.mpd".toList]

/-- The manifest with these options can be read. -/
example : ∃ c x t, processUrl (fun _ => none) vod6 richOptions 1000000 = .ok c ∧
    generateXml c { sampleEnv with parts := richOptions } 1000000 (sampleVod [samplePeriod]) = .ok x ∧
    generateText c { sampleEnv with parts := richOptions } 1000000 (sampleVod [samplePeriod]) = .ok t ∧
    readXml t = some (treeEvents dashUri x) := by
  have hc : (match processUrl (fun _ => none) vod6 richOptions 1000000 with
      | .ok c => decide (c.segtimelineloss = false ∧ c.multiUrl = [] ∧
        (generateXml c { sampleEnv with parts := richOptions } 1000000 (sampleVod [samplePeriod])).toOption.isSome = true)
      | .error _ => false) = true := by decide +kernel
  cases h : processUrl (fun _ => none) vod6 richOptions 1000000 with
  | error e => rw [h] at hc; cases hc
  | ok c =>
    rw [h] at hc
    obtain ⟨h1, h2, h3⟩ := of_decide_eq_true hc
    cases hx : generateXml c { sampleEnv with parts := richOptions } 1000000 (sampleVod [samplePeriod]) with
    | error e => rw [hx] at h3; cases h3
    | ok x =>
      have ht := generateText_eq hx
      exact ⟨c, x, _, rfl, hx, ht, C70_inputs_partial hx ht (by decide +kernel) h1 (by decide +kernel)
        (by decide +kernel) (by decide +kernel) (by decide +kernel) (by decide +kernel) (by rw [h2]; simp)⟩

/-- The attribute `profiles` of the first element in a list of events. -/
def profilesIn : List XmlEvent → Option String
  | .start _ _ a :: _ => (a.find? (fun p => p.1.2 = "profiles".toList)).map (fun p => String.ofList p.2)
  | _ => none

/-- **C70 fails** for content with the profile `urn:dash-if-simples0:a` when segments are left out of the timeline: the code
makes `urn:dash-if-mains0:a` of it, and then removes `ns0:`. -/
theorem C70_loss_violation :
    (textManifest "http://h/livesim/" ["segtimelineloss_1", "testpic", "Manifest.mpd"] 1 1000000
      ((sampleVod [samplePeriod]).set "profiles".toList "urn:dash-if-simples0:a".toList)).toOption.map (fun p =>
        (profilesIn (treeEvents dashUri p.1), p.2.map profilesIn)) =
      some (some "urn:dash-if-mains0:a", some (some "urn:dash-if-maia")) := by
  decide +kernel

end Verif
