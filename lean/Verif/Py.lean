/-
Base layer: Python exceptions as values, bytes, slices, `struct` packing.
-/
namespace Verif

/-- Python exceptions that the modelled code can raise.  `hang` is not a Python
exception: it marks a loop of the code that never terminates. -/
inductive PyErr where
  | valueError
  | zeroDivision
  | structError
  | indexError
  | typeError
  | keyError
  | assertion
  | unicodeError
  | configError
  | proxyError
  | filterError
  | scteError
  | unbound
  | overflow
  | timelineError
  | analyzerError
  | attributeError
  | mpdError
  | osError
  | hang
  deriving DecidableEq, Repr

/-- Result of Python code: a value or an exception. -/
abbrev Py (α : Type) := Except PyErr α

deriving instance DecidableEq for Except

/-- Python `bytes`. -/
abbrev Bytes := List UInt8

/-- Python text, character by character. -/
abbrev Text := List Char

/-- Python slice `data[a:b]` with `0 ≤ a`, `0 ≤ b` (out-of-range ends are clipped). -/
def slice (data : List α) (a b : Nat) : List α := (data.drop a).take (b - a)

/-- Python `//` on ints, raising `ZeroDivisionError`. -/
def pyDiv (a b : Int) : Py Int := if b = 0 then .error .zeroDivision else .ok (Int.fdiv a b)

/-- Python `%` on ints, raising `ZeroDivisionError`. -/
def pyMod (a b : Int) : Py Int := if b = 0 then .error .zeroDivision else .ok (Int.fmod a b)

/-- Python `int(x)` for a float `x` (truncation towards zero). -/
def pyTrunc (x : Rat) : Int := if 0 ≤ x then x.floor else x.ceil

/-- Python `round(x)` for a float `x` (banker's rounding: ties to even). -/
def pyRound (x : Rat) : Int :=
  let f := x.floor
  let d := x - f
  if d < 1/2 then f
  else if 1/2 < d then f + 1
  else if f % 2 = 0 then f else f + 1

/-! ### structops.py -/

/-- The value of a big-endian byte string. -/
def beVal : Bytes → Nat
  | [] => 0
  | b :: bs => b.toNat * 256 ^ bs.length + beVal bs

/-- Big-endian bytes of `n`, `k` bytes long (value taken modulo `256^k`). -/
def beBytes : Nat → Nat → Bytes
  | 0, _ => []
  | k + 1, n => UInt8.ofNat (n / 256 ^ k) :: beBytes k n

/-- structops.py 35-37 `str_to_uint32` (`unpack(">I", s)`): exactly four bytes or
`struct.error`. -/
def strToUint32 (s : Bytes) : Py Nat :=
  if s.length = 4 then .ok (beVal s) else .error .structError

/-- structops.py 40-42 `str_to_sint32` (`unpack(">i", s)`). -/
def strToSint32 (s : Bytes) : Py Int :=
  if s.length = 4 then
    let v := beVal s
    .ok (if v < 2^31 then (v : Int) else (v : Int) - 2^32)
  else .error .structError

/-- structops.py 45-47 `str_to_uint64` (`unpack(">Q", s)`). -/
def strToUint64 (s : Bytes) : Py Nat :=
  if s.length = 8 then .ok (beVal s) else .error .structError

/-- structops.py 50-52 `uint32_to_str` (`pack(">I", v)`): `struct.error` outside
`0 ≤ v < 2^32` (the upper bound is written with `toNat`, which the kernel evaluates cheaply). -/
def uint32ToStr (v : Int) : Py Bytes :=
  if 0 ≤ v ∧ v.toNat < 2^32 then .ok (beBytes 4 v.toNat) else .error .structError

/-- structops.py 55-57 `sint32_to_str` (`pack(">i", v)`). -/
def sint32ToStr (v : Int) : Py Bytes :=
  if -2^31 ≤ v ∧ v.toNat < 2^31 then
    .ok (beBytes 4 (if 0 ≤ v then v.toNat else (v + 2^32).toNat))
  else .error .structError

/-- structops.py 60-62 `uint64_to_str` (`pack(">Q", v)`). -/
def uint64ToStr (v : Int) : Py Bytes :=
  if 0 ≤ v ∧ v.toNat < 2^64 then .ok (beBytes 8 v.toNat) else .error .structError

end Verif
