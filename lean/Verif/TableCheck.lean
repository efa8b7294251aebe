import Verif.Analyzer
/-
Model of vodanalyzer/parse_dat_file.py, the checker of the duration tables of the analyser.
-/
namespace Verif

/-- A line that the checker prints: parse_dat_file.py 16 (the start of an entry and the end of the
one before) or 18 (an entry).  Simplification: the text of the line is left out. -/
inductive DatLine where
  | mismatch (start lastEnd : Nat)
  | entry (e : SegEntry)
  deriving DecidableEq, Repr

/-- parse_dat_file.py 13-16.  A named tuple with fields is true, so `if lste` asks only whether there
was an entry before. -/
def datMismatch (last : Option SegEntry) (ste : SegEntry) : List DatLine :=
  match last with
  | none => []
  | some l =>
    let lastEnd := l.start + l.dur * (l.repeats + 1)
    if lastEnd ≠ ste.start then [.mismatch ste.start lastEnd] else []

/-- parse_dat_file.py 11-20, the loop, with the lines printed and how it ended; `fuel` bounds the
number of reads.  `unpack` fails when fewer than twelve bytes were read. -/
def parseDatLoop (verbosity : Nat) : Nat → Option SegEntry → Bytes → List DatLine × Py Unit
  | 0, _, d => ([], if d = [] then .ok () else .error .hang)
  | fuel + 1, last, d =>
    if d = [] then ([], .ok ())
    else if d.length < 12 then ([], .error .structError)
    else
      let ste : SegEntry :=
        ⟨leVal (slice d 0 2), leVal (slice d 2 4), leVal (slice d 4 8), leVal (slice d 8 12)⟩
      let rest := parseDatLoop verbosity fuel (some ste) (d.drop 12)
      (datMismatch last ste ++ (if verbosity > 0 then [.entry ste] else []) ++ rest.1, rest.2)

/-- parse_dat_file.py 8-20 `parse_dat_file`. -/
def parseDat (d : Bytes) (verbosity : Nat) : List DatLine × Py Unit :=
  parseDatLoop verbosity d.length none d

end Verif
