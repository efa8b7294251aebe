import Verif.Py
/-
Model of the generic box filter, dashlib/mp4filter.py.
-/
namespace Verif

/-- A four-character box type of the file, as bytes. -/
abbrev BoxType := Bytes

/-- The class attributes that a subclass of `MP4Filter` sets (mp4filter.py 58-59), together
with the method table reached through `getattr(self, "process_" + type)` (mp4filter.py
121-126).  `leaf ty data s` is the result of that method for a box of type `ty` whose bytes
are `data`, when the filter object's own attributes are `s`; for a type without a method it
returns `data` and `s`.  A type that is not UTF-8 makes `leaf` raise (`boxtype.decode`). -/
structure FilterRules (σ : Type) where
  top : List BoxType
  composite : List BoxType
  leaf : BoxType → Bytes → σ → Py (Bytes × σ)

mutual

/-- mp4filter.py 96-127 `MP4Filter.filter_box`.  The recursion and the `while` loop are run
with fuel; `hang` stands for "no fuel left".  Simplified: `moof_start`, `mdat_start` and
`path` are not tracked (only `cc_inserter` reads them). -/
def filterBox (r : FilterRules σ) : Nat → BoxType → Bytes → σ → Py (Bytes × σ)
  | 0, _, _, _ => .error .hang
  | n + 1, ty, data, s =>
    if ty ∈ r.composite then
      match filterKids r n (data.drop 8) s with
      | .error e => .error e
      | .ok (kids, s') =>
        let output := data.take 8 ++ kids
        if output.length ≠ data.length then
          match uint32ToStr output.length with
          | .error e => .error e
          | .ok size => .ok (size ++ output.drop 4, s')
        else .ok (output, s')
    else r.leaf ty data s

/-- mp4filter.py 111-116, the `while pos < len(data)` loop of `filter_box` over the children;
`rest` is `data[pos:]`. -/
def filterKids (r : FilterRules σ) : Nat → Bytes → σ → Py (Bytes × σ)
  | _, [], s => .ok ([], s)
  | 0, _ :: _, _ => .error .hang
  | n + 1, b :: rest, s =>
    match strToUint32 (((b :: rest).take 8).take 4) with
    | .error e => .error e
    | .ok size =>
      match filterBox r n (slice (b :: rest) 4 8) ((b :: rest).take size) s with
      | .error e => .error e
      | .ok (child, s') =>
        match filterKids r n ((b :: rest).drop size) s' with
        | .error e => .error e
        | .ok (others, s'') => .ok (child ++ others, s'')

end

/-- mp4filter.py 71-88, the `while` loop of `MP4Filter.filter`: the output and the list
`output_top_level_boxes` (new length and type of every box that is not empty in the output).
The multi-phase part 89-92 (`next_phase_data`, only used by `cc_inserter`) is not
modelled. -/
def filterTop (r : FilterRules σ) : Nat → Bytes → σ → Py ((Bytes × List (Nat × BoxType)) × σ)
  | _, [], s => .ok (([], []), s)
  | 0, _ :: _, _ => .error .hang
  | n + 1, b :: rest, s =>
    match strToUint32 (((b :: rest).take 8).take 4) with
    | .error e => .error e
    | .ok size =>
      let ty := slice (b :: rest) 4 8
      let boxdata := (b :: rest).take size
      match (if ty ∈ r.top then filterBox r n ty boxdata s else .ok (boxdata, s)) with
      | .error e => .error e
      | .ok (box, s') =>
        match filterTop r n ((b :: rest).drop size) s' with
        | .error e => .error e
        | .ok ((others, boxes), s'') =>
          .ok ((box ++ others,
                if 0 < box.length then (box.length, ty) :: boxes else boxes), s'')

/-- mp4filter.py 71-94 `MP4Filter.filter` with a fuel that suffices whenever the code
terminates (`C09_terminates`). -/
def filterFile (r : FilterRules σ) (data : Bytes) (s : σ) :
    Py ((Bytes × List (Nat × BoxType)) × σ) :=
  filterTop r (2 * data.length + 1) data s

/-- Whether a box type is valid UTF-8 (RFC 3629); `bytes.decode('utf-8')` in mp4filter.py 121
raises otherwise. -/
def utf8Valid : Bytes → Bool
  | [] => true
  | a :: rest =>
    let cont (b : UInt8) : Bool := 0x80 ≤ b && b ≤ 0xBF
    if a < 0x80 then utf8Valid rest
    else match rest with
      | [] => false
      | b :: rest2 =>
        if 0xC2 ≤ a && a ≤ 0xDF then cont b && utf8Valid rest2
        else match rest2 with
          | [] => false
          | c :: rest3 =>
            if 0xE0 ≤ a && a ≤ 0xEF then
              cont b && cont c && (a != 0xE0 || 0xA0 ≤ b) && (a != 0xED || b ≤ 0x9F)
                && utf8Valid rest3
            else match rest3 with
              | [] => false
              | d :: rest4 =>
                0xF0 ≤ a && a ≤ 0xF4 && cont b && cont c && cont d
                  && (a != 0xF0 || 0x90 ≤ b) && (a != 0xF4 || b ≤ 0x8F) && utf8Valid rest4

end Verif
