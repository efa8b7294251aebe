import Verif.Config
import Verif.Xml
/-
Model of `VodConfig` of dashlib/configprocessor.py: the file that describes VoD content, written by
the analyser and read by the server, with the part of Python's `configparser` that it uses.
-/
namespace Verif

/-- The lines of a file opened as text, as iteration over the file gives them, without the newline
at their ends: `\n`, `\r\n` and `\r` end a line.  Simplification: a last line that is empty is given
too; the reader below does nothing with it that stripping does not undo. -/
def fileLines : Text → List Text
  | [] => [[]]
  | '\r' :: '\n' :: cs => [] :: fileLines cs
  | c :: cs =>
    if c = '\n' ∨ c = '\r' then [] :: fileLines cs
    else match fileLines cs with
      | [] => [[c]]
      | l :: ls => (c :: l) :: ls

/-- Sections with their options; the value of an option is kept as lines until the end
(`_sections` of `RawConfigParser`; the section `DEFAULT` is kept with the others). -/
abbrev IniLines := List (Text × List (Text × List Text))

/-- The local variables of `RawConfigParser._read` (configparser.py of Python 3): sections read so
far, `sectname` (with `cursect`), `optname`, `indent_level`, and whether an error is stored in `e`.
`elements_added` holds what is in the sections, as the parser is new. -/
structure IniState where
  secs : IniLines := []
  sect : Option Text := none
  opt : Option Text := none
  indent : Nat := 0
  bad : Bool := false
  deriving DecidableEq, Repr

/-- `cursect[optname].append(v)`. -/
def IniLines.append (secs : IniLines) (s o v : Text) : IniLines :=
  secs.map fun x => if x.1 = s then (x.1, x.2.map fun y => if y.1 = o then (y.1, y.2 ++ [v]) else y) else x

/-- `cursect[optname] = [v]` for a new option. -/
def IniLines.add (secs : IniLines) (s o v : Text) : IniLines :=
  secs.map fun x => if x.1 = s then (x.1, x.2 ++ [(o, [v])]) else x

/-- `(sectname, optname) in elements_added`. -/
def IniLines.has (secs : IniLines) (s o : Text) : Bool :=
  secs.any fun x => decide (x.1 = s) && x.2.any fun y => decide (y.1 = o)

/-- `text.lower()` (ASCII letters only). -/
def lowerText (t : Text) : Text := t.map Char.toLower

/-- `SECTCRE` `\[(?P<header>.+)\]`, matched at the start: everything between the first bracket and
the last closing one. -/
def sectHeader : Text → Option Text
  | '[' :: r =>
    match (r.reverse.dropWhile (· ≠ ']')).reverse with
    | [] => none
    | h => if h.dropLast = [] then none else some h.dropLast
  | _ => none

/-- `OPTCRE` `(?P<option>.*?)\s*(?P<vi>=|:)\s*(?P<value>.*)$`: name and value at the first delimiter;
the value is stripped afterwards. -/
def optionLine (t : Text) : Option (Text × Text) :=
  let k := t.takeWhile fun c => c ≠ '=' && c ≠ ':'
  match t.dropWhile fun c => c ≠ '=' && c ≠ ':' with
  | [] => none
  | _ :: v => some (((k.reverse.dropWhile isPySpace).reverse), pyStrip v)

/-- One line in `RawConfigParser._read`, no inline comments, comment prefixes `#` and `;`, empty
lines allowed in values, strict.  All errors of the parser are given as `valueError`. -/
def iniLine (st : IniState) (line : Text) : Py IniState :=
  match pyStrip line with
  | [] =>
    match st.sect, st.opt with
    | some s, some o => .ok (if o = [] then st else { st with secs := st.secs.append s o [] })
    | _, _ => .ok st
  | c :: v =>
    if c = '#' ∨ c = ';' then .ok st
    else
      let ind := (line.takeWhile isPySpace).length
      match st.sect, st.opt, decide (st.opt ≠ some [] ∧ ind > st.indent) with
      | some s, some o, true => .ok { st with secs := st.secs.append s o (c :: v) }
      | _, _, _ =>
        match sectHeader (c :: v) with
        | some h =>
          if st.secs.any fun x => decide (x.1 = h) then
            if h = "DEFAULT".toList then .ok { st with sect := some h, opt := none, indent := ind }
            else .error .valueError
          else .ok { st with secs := st.secs ++ [(h, [])], sect := some h, opt := none, indent := ind }
        | none =>
          match st.sect with
          | none => .error .valueError
          | some s =>
            match optionLine (c :: v) with
            | none => .ok { st with indent := ind, bad := true }
            | some (k, x) =>
              if st.secs.has s (lowerText k) then .error .valueError
              else .ok { secs := st.secs.add s (lowerText k) x, sect := some s, opt := some (lowerText k),
                         indent := ind, bad := st.bad || decide (k = []) }

/-- The loop over the lines. -/
def iniLoop : List Text → IniState → Py IniState
  | [], st => .ok st
  | l :: ls, st =>
    match iniLine st l with
    | .error e => .error e
    | .ok st => iniLoop ls st

/-- Sections with the values of their options. -/
abbrev Ini := List (Text × List (Text × Text))

/-- `'\n'.join(val).rstrip()` (`_join_multiline_values`). -/
def joinLines (v : List Text) : Text := ((joinWith '\n' v).reverse.dropWhile isPySpace).reverse

/-- `RawConfigParser.read` of a file with the given text. -/
def readIni (t : Text) : Py Ini :=
  match iniLoop (fileLines t) {} with
  | .error e => .error e
  | .ok st =>
    if st.bad then .error .valueError
    else .ok (st.secs.map fun x => (x.1, x.2.map fun y => (y.1, joinLines y.2)))

/-- `str(value).replace('\n', '\n\t')`. -/
def iniValue (v : Text) : Text := v.flatMap fun c => if c = '\n' then ['\n', '\t'] else [c]

/-- `RawConfigParser._write_section`. -/
def writeSection (x : Text × List (Text × Text)) : Text :=
  '[' :: x.1 ++ "]\n".toList ++ x.2.flatMap (fun y => y.1 ++ " = ".toList ++ iniValue y.2 ++ ['\n']) ++ ['\n']

/-- `RawConfigParser.write`. -/
def writeIni (x : Ini) : Text := x.flatMap writeSection

/-- `config.get(section, option)`; `none` stands for `NoSectionError` and `NoOptionError`. -/
def Ini.get (x : Ini) (s o : Text) : Option Text :=
  match x.find? fun y => decide (y.1 = s) with
  | none => none
  | some y =>
    match y.2.find? fun z => decide (z.1 = o) with
    | some z => some z.2
    | none =>
      ((x.find? fun y => decide (y.1 = "DEFAULT".toList)).bind
        fun d => d.2.find? fun z => decide (z.1 = o)).map (·.2)

/-- `config.getint(section, option)`; a missing section or option is given as `keyError`. -/
def Ini.getInt (x : Ini) (s o : Text) : Py Int :=
  match x.get s o with
  | none => .error .keyError
  | some t => pyInt t

/-- `media_data[content_type]` (configprocessor.py 296-299, and dashanalyzer.py 258-261 where the
keys are `totalDuration` and `datFile`). -/
structure MediaEntry where
  reps : List Text
  timescale : Int
  total : Option Int
  dat : Option Text
  deriving DecidableEq, Repr

/-- The fields of `VodConfig` (configprocessor.py 256-264). -/
structure VodFile where
  firstSeg : Int
  nrSegs : Int
  segDurS : Int
  segDurMs : Int
  tsbd : Int
  media : List (Text × MediaEntry)
  deriving DecidableEq, Repr

/-- configprocessor.py 263 `possible_media`. -/
def possibleMedia : List Text := ["video".toList, "audio".toList, "subtitles".toList, "image".toList]

/-- configprocessor.py 292-301: one content type.  A missing option or section ends the block without
error and leaves what was stored before. -/
def readMedia (x : Ini) (v11 : Bool) (m : Text) : Py (Option MediaEntry) :=
  match x.get m "representations".toList, x.get m "timescale".toList with
  | some r, some t =>
    match pyInt t with
    | .error e => .error e
    | .ok ts =>
      let reps := (splitChar ',' r).map pyStrip
      if v11 then
        match x.get m "total_duration".toList with
        | none => .ok (some ⟨reps, ts, none, none⟩)
        | some d =>
          match pyInt d with
          | .error e => .error e
          | .ok n => .ok (some ⟨reps, ts, some n, x.get m "dat_file".toList⟩)
      else .ok (some ⟨reps, ts, none, none⟩)
  | _, _ => .ok none

/-- configprocessor.py 291-301, the loop over the content types. -/
def readMedias (x : Ini) (v11 : Bool) : List Text → Py (List (Text × MediaEntry))
  | [] => .ok []
  | m :: ms =>
    match readMedia x v11 m with
    | .error e => .error e
    | .ok o =>
      match readMedias x v11 ms with
      | .error e => .error e
      | .ok l => .ok (match o with
        | some y => (m, y) :: l
        | none => l)

/-- configprocessor.py 275-288: the optional durations; a value in milliseconds resets the one in
seconds.  The result is (seconds, milliseconds). -/
def readDurations (x : Ini) : Py (Int × Int) :=
  match x.get "Setup".toList "segment_duration_s".toList with
  | none =>
    match x.get "Setup".toList "segment_duration_ms".toList with
    | none => .error .configError
    | some t =>
      match pyInt t with
      | .error e => .error e
      | .ok n => if n = 0 then .error .configError else .ok (0, n)
  | some t =>
    match pyInt t with
    | .error e => .error e
    | .ok s =>
      match x.get "Setup".toList "segment_duration_ms".toList with
      | none => if s = 0 then .error .configError else .ok (s, 0)
      | some t =>
        match pyInt t with
        | .error e => .error e
        | .ok n => if n = 0 then .error .configError else .ok (0, n)

/-- configprocessor.py 266-301 `read_config`; `none` is a file that does not exist, which
`config.read` takes for an empty one.  The printed warning is left out. -/
def readConfig (file : Option Text) : Py VodFile := do
  let x ← readIni (file.getD [])
  let version ← (match x.get "General".toList "version".toList with
    | none => .error .keyError
    | some v => .ok v)
  if version ≠ "1.0".toList ∧ version ≠ "1.1".toList then .error .configError else do
  let first ← x.getInt "Setup".toList "first_segment_in_loop".toList
  let (s, ms) ← readDurations x
  let nr ← x.getInt "Setup".toList "nr_segments_in_loop".toList
  let tsbd ← x.getInt "Setup".toList "default_tsbd_secs".toList
  let media ← readMedias x (decide (version = "1.1".toList)) possibleMedia
  return ⟨first, nr, s, ms, tsbd, media⟩

/-- The `data` of `write_config`: a missing key is `none`. -/
structure VodData where
  tsbd : Option Int := none
  segDurS : Option Int := none
  nrSegs : Option Int := none
  firstSeg : Option Int := none
  media : List (Text × MediaEntry) := []
  deriving DecidableEq, Repr

/-- configprocessor.py 319-324: the section of a content type.  A missing `totalDuration` or
`datFile` is a `KeyError`. -/
def mediaSection (m : Text) (y : MediaEntry) : Py (Text × List (Text × Text)) :=
  match y.total, y.dat with
  | some n, some d =>
    .ok (m, [("representations".toList, joinWith ',' y.reps), ("timescale".toList, intText y.timescale),
      ("total_duration".toList, intText n), ("dat_file".toList, d)])
  | _, _ => .error .keyError

/-- configprocessor.py 316-324, the loop over the content types that are written. -/
def mediaSections (media : List (Text × MediaEntry)) : List Text → Py Ini
  | [] => .ok []
  | m :: ms =>
    match media.find? fun y => decide (y.1 = m) with
    | none => mediaSections media ms
    | some y =>
      match mediaSection m y.2 with
      | .error e => .error e
      | .ok s =>
        match mediaSections media ms with
        | .error e => .error e
        | .ok l => .ok (s :: l)

/-- configprocessor.py 308-315: the sections written by a new `VodConfig`; its own
`first_segment_in_loop` is `None` and its `media_data` empty. -/
def configIni (d : VodData) : Py Ini :=
  match mediaSections d.media ["video".toList, "audio".toList, "subtitles".toList] with
  | .error e => .error e
  | .ok l =>
    .ok (("General".toList, [("version".toList, "1.1".toList)]) ::
      ("Setup".toList, [("default_tsbd_secs".toList, intText (d.tsbd.getD 300)),
        ("segment_duration_s".toList, intText (d.segDurS.getD 0)),
        ("nr_segments_in_loop".toList, intText (d.nrSegs.getD 0)),
        ("first_segment_in_loop".toList, (d.firstSeg.map intText).getD "None".toList)]) :: l)

/-- configprocessor.py 305-326 `write_config`: the text of the file. -/
def writeConfig (d : VodData) : Py Text :=
  match configIni d with
  | .error e => .error e
  | .ok x => .ok (writeIni x)

/-- What the server uses of the file (configprocessor.py 134-150, 328-334). -/
def VodFile.toCfg (f : VodFile) : VodCfg :=
  { firstSeg := f.firstSeg, nrSegs := f.nrSegs, segDurS := f.segDurS, defaultTsbd := f.tsbd,
    media := f.media.map fun m => (m.1, m.2.timescale, m.2.reps) }

end Verif
