import Verif.Emsg
import Verif.Spec.Attribute
import Verif.Text
/-
What a client learns from an event message box about a splice (DASH-IF ad insertion with SCTE 35 XML messages;
ISO/IEC 23009-1 clause 5.10.3.3: version 0, times relative to the start of the segment).
-/
namespace Verif.Spec
open Verif

/-- The characters of ASCII bytes. -/
def textOf (b : Bytes) : Text := b.map fun x => Char.ofNat x.toNat

/-- The box `box`, in a segment that starts at the media time `start`, announces a break of `len` seconds that begins at
the media time `t` (seconds): in its own fields, and in the text of the message, whose clock has 33 bits. -/
structure TellsSplice (box : Bytes) (start t len : Int) : Prop where
  size : beVal (box.take 4) = box.length
  type : slice box 4 8 = "emsg".toList.map (fun c => UInt8.ofNat c.toNat)
  read : ∃ m, readEmsg box = .ok m ∧ m.scheme = "urn:scte:scte35:2013:xml".toList ∧ m.value = "999".toList ∧
    m.timescale = 90000 ∧ start * 90000 + m.delta = t * 90000 ∧ (m.duration : Int) = len * 90000 ∧ (m.id : Int) = t / 10 ∧
    attrValue "spliceEventId".toList (textOf m.message) = some (intText (t / 10)) ∧
    attrValue "ptsTime".toList (textOf m.message) = some (intText (t * 90000 % 2 ^ 33)) ∧
    attrValue "duration".toList (textOf m.message) = some (intText (len * 90000))

end Verif.Spec
