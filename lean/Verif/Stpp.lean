import Verif.Ttml
/-
Model of dashlib/stpp_generator: stpp_creator.py and make_stpp_segments.py.
-/
namespace Verif

/-- stpp_creator.py 38-41 `TTML_MEDIA_TMPL`, a text (`str`), by the numbers of its characters. -/
def stppMediaTmpl : Text := (
  [0, 0, 0, 24, 115, 116, 121, 112, 109, 115, 100, 104, 0, 0, 0, 0, 109, 115, 100, 104, 100, 97, 115, 104, 0,
    0, 0, 96, 109, 111, 111, 102, 0, 0, 0, 16, 109, 102, 104, 100, 0, 0, 0, 0, 0, 0, 0, 1, 0, 0, 0, 72, 116,
    114, 97, 102, 0, 0, 0, 24, 116, 102, 104, 100, 0, 2, 0, 24, 0, 0, 0, 3, 0, 0, 3, 232, 0, 0, 0, 9, 0, 0,
    0, 20, 116, 102, 100, 116, 1, 0, 0, 0, 0, 0, 0, 0, 0, 0, 0, 0, 0, 0, 0, 20, 116, 114, 117, 110, 0, 0, 0,
    1, 0, 0, 0, 1, 0, 0, 0, 104, 0, 0, 0, 8, 109, 100, 97, 116] : List Nat).map Char.ofNat

/-- stpp_creator.py 46-62 `TTML_INIT`, a text (`str`). -/
def stppInitTmpl : Text := (
  [0, 0, 0, 24, 102, 116, 121, 112, 105, 115, 111, 54, 0, 0, 0, 1, 105, 115, 111, 109, 100, 97, 115, 104, 0,
    0, 2, 157, 109, 111, 111, 118, 0, 0, 0, 108, 109, 118, 104, 100, 0, 0, 0, 0, 0, 0, 0, 0, 0, 0, 0, 0, 0,
    0, 0, 200, 0, 0, 0, 0, 0, 1, 0, 0, 1, 0, 0, 0, 0, 0, 0, 0, 0, 0, 0, 0, 0, 1, 0, 0, 0, 0, 0, 0, 0, 0, 0,
    0, 0, 0, 0, 0, 0, 1, 0, 0, 0, 0, 0, 0, 0, 0, 0, 0, 0, 0, 0, 0, 64, 0, 0, 0, 0, 0, 0, 0, 0, 0, 0, 0, 0, 0,
    0, 0, 0, 0, 0, 0, 0, 0, 0, 0, 0, 0, 0, 0, 0, 0, 0, 2, 0, 0, 0, 40, 109, 118, 101, 120, 0, 0, 0, 32, 116,
    114, 101, 120, 0, 0, 0, 0, 0, 0, 0, 1, 0, 0, 0, 1, 0, 0, 0, 0, 0, 0, 0, 0, 0, 0, 0, 0, 0, 0, 2, 1, 116,
    114, 97, 107, 0, 0, 0, 92, 116, 107, 104, 100, 0, 0, 0, 7, 0, 0, 0, 0, 0, 0, 0, 0, 0, 0, 0, 3, 0, 0, 0,
    0, 0, 0, 0, 0, 0, 0, 0, 0, 0, 0, 0, 0, 0, 0, 0, 0, 0, 0, 0, 0, 0, 1, 0, 0, 0, 0, 0, 0, 0, 0, 0, 0, 0, 0,
    0, 0, 0, 1, 0, 0, 0, 0, 0, 0, 0, 0, 0, 0, 0, 0, 0, 0, 64, 0, 0, 0, 0, 0, 0, 0, 0, 0, 0, 0, 0, 0, 1, 157,
    109, 100, 105, 97, 0, 0, 0, 32, 109, 100, 104, 100, 0, 0, 0, 0, 0, 0, 0, 0, 0, 0, 0, 0, 0, 0, 3, 232, 0,
    0, 0, 0, 21, 199, 0, 0, 0, 0, 0, 45, 104, 100, 108, 114, 0, 0, 0, 0, 0, 0, 0, 0, 115, 117, 98, 116, 0, 0,
    0, 0, 0, 0, 0, 0, 0, 0, 0, 0, 68, 65, 83, 72, 45, 73, 70, 32, 84, 84, 77, 76, 0, 0, 0, 1, 72, 109, 105,
    110, 102, 0, 0, 0, 12, 115, 116, 104, 100, 0, 0, 0, 0, 0, 0, 0, 36, 100, 105, 110, 102, 0, 0, 0, 28, 100,
    114, 101, 102, 0, 0, 0, 0, 0, 0, 0, 1, 0, 0, 0, 12, 117, 114, 108, 32, 0, 0, 0, 1, 0, 0, 1, 16, 115, 116,
    98, 108, 0, 0, 0, 196, 115, 116, 115, 100, 0, 0, 0, 0, 0, 0, 0, 1, 0, 0, 0, 180, 115, 116, 112, 112, 0,
    0, 0, 0, 0, 0, 0, 1, 104, 116, 116, 112, 58, 47, 47, 119, 119, 119, 46, 119, 51, 46, 111, 114, 103, 47,
    110, 115, 47, 116, 116, 109, 108, 35, 112, 97, 114, 97, 109, 101, 116, 101, 114, 32, 104, 116, 116, 112,
    58, 47, 47, 119, 119, 119, 46, 119, 51, 46, 111, 114, 103, 47, 110, 115, 47, 116, 116, 109, 108, 32, 104,
    116, 116, 112, 58, 47, 47, 119, 119, 119, 46, 119, 51, 46, 111, 114, 103, 47, 110, 115, 47, 116, 116,
    109, 108, 35, 115, 116, 121, 108, 105, 110, 103, 32, 104, 116, 116, 112, 58, 47, 47, 119, 119, 119, 46,
    119, 51, 46, 111, 114, 103, 47, 110, 115, 47, 116, 116, 109, 108, 35, 109, 101, 116, 97, 100, 97, 116,
    97, 32, 117, 114, 110, 58, 101, 98, 117, 58, 109, 101, 116, 97, 100, 97, 116, 97, 32, 117, 114, 110, 58,
    101, 98, 117, 58, 115, 116, 121, 108, 101, 0, 0, 0, 0, 0, 0, 16, 115, 116, 116, 115, 0, 0, 0, 0, 0, 0, 0,
    0, 0, 0, 0, 16, 115, 116, 115, 99, 0, 0, 0, 0, 0, 0, 0, 0, 0, 0, 0, 20, 115, 116, 115, 122, 0, 0, 0, 0,
    0, 0, 0, 0, 0, 0, 0, 0, 0, 0, 0, 16, 115, 116, 99, 111, 0, 0, 0, 0, 0, 0, 0, 0] : List Nat).map Char.ofNat

/-- mp4filter.py 71-94 `filter` when `self.data` is a text: as soon as there is a character,
`check_box` (65-69) hands a text to `struct.unpack` (structops.py 37), which takes bytes only.  What the methods of the
filters do to boxes is therefore not reached and left out. -/
def strFilter (data : Text) : Py Bytes := if data = [] then .ok [] else .error .typeError

/-- stpp_creator.py 266-270 `create_init_segment` and `StppInitFilter.filter`; the arguments are the fields of the filter. -/
def stppInit (_lang : Text) (_trackId _timescale : Int) : Py Bytes := strFilter stppInitTmpl

/-- stpp_creator.py 260-263 `create_media_segment`. -/
def stppMedia (_trackId _seqNr _dur _time : Int) (_ttml : Bytes) : Py Bytes := strFilter stppMediaTmpl

/-- `"%03d" % n`. -/
def pad3 (n : Int) : Bytes := if 0 ≤ n ∧ n < 100 then 48 :: pad2 n else decInt n

/-- make_stpp_segments.py 123-128 `create_time_string`, as UTF-8. -/
def timeString (ms : Int) : Bytes :=
  let hours := Int.fdiv ms 3600000
  let ms := Int.fmod ms 3600000
  let minutes := Int.fdiv ms 60000
  let ms := Int.fmod ms 60000
  pad2 hours ++ [58] ++ pad2 minutes ++ [58] ++ pad2 (Int.fdiv ms 1000) ++ [46] ++ pad3 (Int.fmod ms 1000)

/-- `range(0, stop, step)`; a step of 0 raises ValueError. -/
def pyRange0 (stop step : Int) : Py (List Int) :=
  if step = 0 then .error .valueError
  else .ok ((List.range (if 0 < step then (Int.fdiv (stop + step - 1) step).toNat
    else (Int.fdiv (-stop + -step - 1) (-step)).toNat)).map fun i : Nat => (i : Int) * step)

/-- `"%05d" % n`. -/
def pad5 (n : Int) : Bytes :=
  if n < 0 then 45 :: (List.replicate (4 - (decBytes n.natAbs).length) 48 ++ decBytes n.natAbs)
  else List.replicate (5 - (decBytes n.natAbs).length) 48 ++ decBytes n.natAbs

/-- A paragraph of a subtitle text (make_stpp_segments.py 108). -/
structure StppPar where
  begin' : Bytes
  end' : Bytes
  id : Bytes
  text : Bytes
  deriving DecidableEq, Repr

/-- make_stpp_segments.py 99-108: the paragraphs of the segment at `time`. -/
def stppPars (lang : Bytes) (time dur res : Int) : Py (List StppPar) :=
  match pyRange0 dur res with
  | .error e => .error e
  | .ok l => .ok (l.map fun rel =>
      ⟨timeString (time + rel), timeString (time + rel + res), [115, 117, 98] ++ pad5 (time + rel),
        lang ++ [32, 58, 32] ++ timeString (time + rel)⟩)

/-- The arguments of `SegmentCreator` (make_stpp_segments.py 61-69). -/
structure StppArgs where
  count : Int
  dur : Int
  res : Int
  lang : Bytes
  trackId : Int

/-- make_stpp_segments.py 91-119, the loop over the segments, with the files written.  `name` gives the path of a
segment, `render` the text that the template engine makes of the paragraphs.  A file is opened before its content is made,
so a failure leaves an empty file. -/
def stppLoop (a : StppArgs) (name : Int → Text) (render : List StppPar → Bytes) :
    Nat → Int → Int → List (Text × Bytes) → List (Text × Bytes) × Py Unit
  | 0, _, _, fs => (fs, .ok ())
  | n + 1, nr, time, fs =>
    match stppPars a.lang time a.dur a.res with
    | .error e => (fs, .error e)
    | .ok ps =>
      match stppMedia a.trackId nr a.dur time (render ps) with
      | .error e => (fs ++ [(name nr, [])], .error e)
      | .ok b => stppLoop a name render n (nr + 1) (time + a.dur) (fs ++ [(name nr, b)])

/-- make_stpp_segments.py 72-119 `create_segments`: the files written, in order, and how it ended.  The directory is taken
to exist or to be made; `initName` is the path of init.mp4. -/
def stppSegments (a : StppArgs) (initName : Text) (name : Int → Text) (render : List StppPar → Bytes) :
    List (Text × Bytes) × Py Unit :=
  match stppInit (a.lang.map fun b => Char.ofNat b.toNat) a.trackId a.res with
  | .error e => ([(initName, [])], .error e)
  | .ok b => stppLoop a name render a.count.toNat 1 0 [(initName, b)]

end Verif
