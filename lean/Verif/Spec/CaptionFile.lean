import Verif.Spec.Captions
/-
What a caption file (Scenarist SCC) says, and what a directory of captioned segments is.
-/
namespace Verif.Spec

/-- The value of digits in a base. -/
def baseVal (b : Nat) (t : Text) : Nat := t.foldl (fun a c => a * b + "0123456789abcdef".toList.idxOf c.toLower) 0

/-- Decimal digits, at least one. -/
def Decimal (t : Text) : Prop := t ≠ [] ∧ ∀ c ∈ t, c ∈ "0123456789".toList

/-- Hexadecimal digits, at least one. -/
def Hexadecimal (t : Text) : Prop := t ≠ [] ∧ ∀ c ∈ t, c ∈ "0123456789abcdefABCDEF".toList

/-- A line with captions: hours, minutes, seconds, frames and words. -/
structure Cue where
  h : Text
  m : Text
  s : Text
  f : Text
  words : List Text

/-- Numbers in decimal with frames below 30, words in hexadecimal, of two bytes. -/
def Cue.Ok (c : Cue) : Prop :=
  Decimal c.h ∧ Decimal c.m ∧ Decimal c.s ∧ Decimal c.f ∧ baseVal 10 c.f < 30 ∧ ∀ w ∈ c.words, Hexadecimal w ∧ baseVal 16 w < 65536

/-- The line: `hh:mm:ss:ff`, and every word after a space. -/
def Cue.text (c : Cue) : Text :=
  c.h ++ [':'] ++ c.m ++ [':'] ++ c.s ++ [':'] ++ c.f ++ c.words.flatMap (fun w => ' ' :: w)

/-- The time of a cue in seconds, with 29.97 frames a second. -/
def Cue.time (c : Cue) : Rat :=
  ((baseVal 10 c.h * 3600 + baseVal 10 c.m * 60 + baseVal 10 c.s : Nat) : Rat) + (baseVal 10 c.f : Rat) / (2997 / 100)

/-- White space at the end of a line. -/
def Blank (t : Text) : Prop := ∀ c ∈ t, c ∈ [' ', '\n', '\r', '\t']

/-- The lines of a caption file with these cues; lines without a colon say nothing. -/
inductive CueFile : List Text → List Cue → Prop
  | nil : CueFile [] []
  | other (l : Text) (ls : List Text) (cs : List Cue) (hl : ':' ∉ l) (h : CueFile ls cs) : CueFile (l :: ls) cs
  | cue (c : Cue) (tail : Text) (ls : List Text) (cs : List Cue) (hc : c.Ok) (ht : Blank tail) (h : CueFile ls cs) :
      CueFile ((c.text ++ tail) :: ls) (c :: cs)

/-- The captions of a cue: its words in order in messages of at most 31, at its time cut to milliseconds. -/
def CaptionsOf (c : Cue) (caps : List Caption) : Prop :=
  (caps.map Caption.words).flatten = c.words.map (baseVal 16) ∧
    ∀ x ∈ caps, 0 < x.words.length ∧ x.words.length ≤ 31 ∧ x.start ≤ c.time ∧ c.time < x.start + 1 / 1000 ∧
      ∃ ms : Nat, x.start = (ms : Rat) / 1000

/-- A stored segment of one run: its parts, its samples and its decode time. -/
structure StoredRun where
  g : RunSegment
  ss : List VideoSample
  tfdt : Nat

/-- The duration of the samples. -/
def StoredRun.dur (s : StoredRun) : Nat := (s.ss.map VideoSample.duration).sum

/-- Every segment starts where the one before ends. -/
def BackToBack : List StoredRun → Prop
  | a :: b :: rest => b.tfdt = a.tfdt + a.dur ∧ BackToBack (b :: rest)
  | _ => True

/-- A segment that can take the captions: fields in range before and after. -/
def StoredRun.Ok (caps : List Caption) (timescale : Nat) (s : StoredRun) : Prop :=
  s.g.Ok ∧ (∀ x ∈ s.ss, x.Ok) ∧ s.g.offset s.ss < 2 ^ 32 ∧
    8 + s.g.pre.length + captionedLength caps timescale s.tfdt s.ss + s.g.post.length < 2 ^ 32

end Verif.Spec
