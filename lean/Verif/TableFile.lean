import Verif.VodConfig
import Verif.Analyzer
/-
Model of the constructor of `SegmentTimeLineGenerator` of dashlib/segtimeline.py.
-/
namespace Verif

/-- segtimeline.py 49-68 `SegmentTimeLineGenerator.__init__` for `media_data[content_type]` (mpdprocessor.py 314) and a
directory with the files of the analyser; configprocessor.py 145-150 for the values of the configuration.  Simplification:
negative numbers in the configuration are taken for 0. -/
def openTable (f : VodFile) (dir : Text → Option Bytes) (kind : Text) : Py SegTable :=
  match f.media.find? fun m => decide (m.1 = kind) with
  | none => .error .keyError
  | some (_, m) =>
    match m.dat with
    | none => .error .unbound
    | some d =>
      match dir d with
      | none => .error .osError
      | some b =>
        match readDat b with
        | .error e => .error e
        | .ok es =>
          .ok ⟨es, m.timescale.toNat, (f.segDurS * f.nrSegs).toNat, f.nrSegs.toNat, f.firstSeg.toNat⟩

end Verif
