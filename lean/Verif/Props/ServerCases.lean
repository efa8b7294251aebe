import Verif.Props.Server

/-!
# Requests to the whole server: cases of other properties
-/

namespace Verif

/-- `a` occurs in `b`. -/
def occursIn (a : Bytes) : Bytes → Bool
  | [] => a.isEmpty
  | x :: l => a.isPrefixOf (x :: l) || occursIn a l

/-- **C73 fails for the callback itself.** The manifest tells clients to call `http://h/livesim/mpdcallback/`, and the server
answers that URL with 404: `mpdcallback` is taken as an option, which has no value. -/
theorem C73_handler_violation :
    (got tinySite (tinyGet ["livesim", "periods_60", "mpdcallback_30", "tsbd_40", "tiny", "Manifest.mpd"]) 1000000).any
      (fun x => x.1 == 200 && occursIn (utf8 " messageData=\"http://h/livesim/mpdcallback/\"".toList) x.2.2) = true ∧
    Spec.Asks (tinyGet ["livesim", "mpdcallback", ""]) "http://h/livesim/mpdcallback/".toList ∧
    (got tinySite (tinyGet ["livesim", "mpdcallback", ""]) 1000000).map (·.1) = some 404 := by
  refine ⟨by decide +kernel, ⟨by decide +kernel, rfl, "livesim/mpdcallback/".toList, by decide +kernel, by decide +kernel⟩,
    by decide +kernel⟩

/-! ### C43: default durations -/

/-- A segment with `n` samples whose duration is the one in the initialization segment. -/
def untimedSegment (nr time n : Nat) : Bytes :=
  boxBytes tyMoof
    (boxBytes tyMfhd ([0, 0, 0, 0] ++ beBytes 4 nr) ++
      boxBytes tyTraf
        (boxBytes tyTfhd ([0, 2, 0, 0] ++ beBytes 4 2) ++
          boxBytes tyTfdt ([1, 0, 0, 0] ++ beBytes 8 time) ++
          boxBytes tyTrun ([0, 0, 0, 1] ++ beBytes 4 n ++ beBytes 4 92))) ++
  boxBytes tyMdat [1, 2, 3]

def untimedDir (id : String) : Text × List (Text × Bytes) :=
  (id.toList, ("init.mp4".toList, (infoInit false).bytes) ::
    (List.range 3).map fun k => (m4s (natText (k + 1)), untimedSegment (k + 1) (k * 180000) 100))

def untimedFiles : Files := filesOf [untimedDir "V1", untimedDir "A1"]

def untimedSite : Site := { tinySite with
  files := fun _ => untimedFiles
  vodOf := vodAfter "tiny".toList untimedFiles tinyContent }

/-- **C43 fails for durations from the initialization segment.** Content with segments of 100 samples of 1800 units, where
only the initialization segment tells the 1800.  The analyser knows that the segments last 2 s, but the index in a reply
says that the segment lasts 0. -/
theorem C43_default_violation :
    (initInfo (infoInit false).bytes).toOption.map (·.defDur) = some (some 1800) ∧
    (untimedSite.vodOf "tiny".toList).toOption.map (·.segDurS) = some 2 ∧
    got untimedSite (tinyGet ["livesim", "sidx_1", "tsbd_40", "tiny", "V1", "47.m4s"]) 100 =
      some (200, some "video/iso.segment".toList,
        sidxOne 90000 8460000 (untimedSegment 47 8460000 100).length 0 ++ untimedSegment 47 8460000 100) ∧
    (100 * 1800 : Nat) ≠ 0 := by
  decide +kernel

end Verif
