import Verif.Lemmas.Bits
/-
C38: writing and reading bits.  C39: Exp-Golomb codes.
-/
namespace Verif

theorem newWriter_ok : ({} : BitWriter).Ok := ⟨by decide, by decide⟩

/-- A writer that can be reached by adding fields (and whole bytes) to a new one. -/
inductive BitWriter.Reached : BitWriter → Prop
  | new : Reached {}
  | add {w w' : BitWriter} {v n : Nat} : Reached w → v < 2 ^ n → w.addBits v n = .ok w' → Reached w'
  | bytes {w : BitWriter} (l : Bytes) : Reached w → Reached (w.addBytes l)

theorem addBits_cases (w : BitWriter) (hw : w.Ok) (v n : Nat) (hv : v < 2 ^ n) :
    if n + w.inNew < 42 then
      ∃ w', w.addBits v n = .ok w' ∧ w'.Ok ∧ w'.bits = w.bits ++ bitString n v
    else w.addBits v n = .error .indexError := by
  split
  · rename_i h
    exact addLoop_ok (n + 1) w hw v n hv (by omega) h
  · rename_i h
    exact addLoop_wide n w hw v n hv (by omega)

theorem reached_ok {w : BitWriter} (h : w.Reached) : w.Ok := by
  induction h with
  | new => exact newWriter_ok
  | @add w w' v n hr hv e ih =>
    have := addBits_cases w ih v n hv
    split at this
    · obtain ⟨w2, e2, h2, _⟩ := this
      rw [e] at e2
      cases e2
      exact h2
    · rw [e] at this; cases this
  | bytes l hr ih => exact ⟨ih.cur, ih.few⟩

/-- **C38 (one field).** For every writer that can occur, every width and every value that fits
the width: the field is appended bit by bit, most significant first, if the bits waiting and the
width are 41 together at most, and `IndexError` is raised otherwise. -/
theorem C38_add (w : BitWriter) (hw : w.Reached) (v n : Nat) (hv : v < 2 ^ n) :
    if n + w.inNew < 42 then
      ∃ w', w.addBits v n = .ok w' ∧ w'.bits = w.bits ++ bitString n v
    else w.addBits v n = .error .indexError := by
  have := addBits_cases w (reached_ok hw) v n hv
  split at this
  · rename_i h
    rw [if_pos h]
    obtain ⟨w', e, _, hb⟩ := this
    exact ⟨w', e, hb⟩
  · rename_i h
    rw [if_neg h]
    exact this

/-- Fields whose values fit and whose widths are 34 bits at most. -/
def FieldsFit (l : List (Nat × Nat)) : Prop := ∀ f ∈ l, f.1 < 2 ^ f.2 ∧ f.2 ≤ 34

theorem addAll_ok (l : List (Nat × Nat)) (hl : FieldsFit l) (w : BitWriter) (hw : w.Ok) :
    ∃ w', w.addAll l = .ok w' ∧ w'.Ok ∧ w'.bits = w.bits ++ fieldsBits l := by
  induction l generalizing w with
  | nil => exact ⟨w, rfl, hw, by simp [fieldsBits]⟩
  | cons f l ih =>
    obtain ⟨v, n⟩ := f
    have hf := hl (v, n) (by simp)
    have := addBits_cases w hw v n hf.1
    rw [if_pos (by have := hw.few; have := hf.2; simp only at this; omega)] at this
    obtain ⟨w1, e1, h1, b1⟩ := this
    obtain ⟨w2, e2, h2, b2⟩ := ih (fun x hx => hl x (by simp [hx])) w1 h1
    unfold BitWriter.addAll
    rw [e1]
    refine ⟨w2, e2, h2, ?_⟩
    rw [b2, b1]
    simp [fieldsBits]

/-- Total width of fields. -/
def fieldsWidth (l : List (Nat × Nat)) : Nat := (l.map Prod.snd).sum

theorem fieldsBits_length (l : List (Nat × Nat)) : (fieldsBits l).length = fieldsWidth l := by
  induction l with
  | nil => rfl
  | cons f l ih =>
    have : fieldsBits (f :: l) = bitString f.2 f.1 ++ fieldsBits l := by simp [fieldsBits]
    rw [this, List.length_append, bitString_length, ih]
    simp [fieldsWidth]

theorem bits_length (w : BitWriter) : w.bits.length = 8 * w.bytes.length + w.inNew := by
  rw [BitWriter.bits, List.length_append, bytesBits_length, bitString_length]

theorem newWriter_bits : ({} : BitWriter).bits = [] := rfl

/-- **C38 (bytes).** For every sequence of fields that fit, the writer produces as many whole
bytes as the total width has, and their bits are the first bits of the fields written one after
another. -/
theorem C38_bytes (l : List (Nat × Nat)) (hl : FieldsFit l) :
    ∃ w, ({} : BitWriter).addAll l = .ok w ∧ w.bytes.length = fieldsWidth l / 8 ∧
      bytesBits w.bytes = (fieldsBits l).take (8 * (fieldsWidth l / 8)) := by
  obtain ⟨w, e, hw, hb⟩ := addAll_ok l hl {} newWriter_ok
  rw [newWriter_bits, List.nil_append] at hb
  have hlen := bits_length w
  rw [hb, fieldsBits_length] at hlen
  have hf := hw.few
  have hlen' : w.bytes.length = fieldsWidth l / 8 := by omega
  refine ⟨w, e, hlen', ?_⟩
  rw [← hb, BitWriter.bits, ← hlen', List.take_left' (bytesBits_length _)]

theorem getAll_at (l : List (Nat × Nat)) (hv : ∀ f ∈ l, f.1 < 2 ^ f.2) (b : Bytes) (k : Nat)
    (rest : List Bool) (h : (bytesBits b).drop k = fieldsBits l ++ rest) :
    (readerAt b k).getAll (l.map Prod.snd) = (l.map Prod.fst, readerAt b (k + fieldsWidth l)) := by
  induction l generalizing k with
  | nil => rfl
  | cons f l ih =>
    have hf : fieldsBits (f :: l) = bitString f.2 f.1 ++ fieldsBits l := by simp [fieldsBits]
    rw [hf, List.append_assoc] at h
    have h1 := bitsFrom_eq b k _ _ h
    rw [bitString_length] at h1
    have h2 := ih (fun x hx => hv x (by simp [hx])) (k + f.2) (by
      rw [← List.drop_drop, h, List.drop_left' (bitString_length _ _)])
    rw [List.map_cons, List.map_cons, BitReader.getAll, getBits_at, h1, h2, bitValue_bitString,
      Nat.mod_eq_of_lt (hv f (by simp))]
    simp [fieldsWidth, Nat.add_assoc]

theorem new_at (b : Bytes) (h : b ≠ []) : BitReader.new b = .ok (readerAt b 0) := by
  cases b with
  | nil => exact absurd rfl h
  | cons x l => rfl

/-- **C38 (round trip).** For every non-empty sequence of fields that fit and fill whole bytes:
reading the same widths from the bytes written gives the values back.  Missing for the full
claim: fields wider than 34 bits and sequences that end within a byte, for which
`C38_wide_violation` and `C38_pending_violation` show it false. -/
theorem C38_roundtrip_partial (l : List (Nat × Nat)) (hl : FieldsFit l) (h0 : 0 < fieldsWidth l)
    (h8 : fieldsWidth l % 8 = 0) :
    ∃ w r, ({} : BitWriter).addAll l = .ok w ∧ BitReader.new w.bytes = .ok r ∧
      (r.getAll (l.map Prod.snd)).1 = l.map Prod.fst ∧ (r.getAll (l.map Prod.snd)).2.remaining = 0 := by
  obtain ⟨w, e, hlen, hb⟩ := C38_bytes l hl
  have hne : w.bytes ≠ [] := by
    intro h
    rw [h, List.length_nil] at hlen
    omega
  rw [List.take_of_length_le (by rw [fieldsBits_length]; omega)] at hb
  have := getAll_at l (fun f hf => (hl f hf).1) w.bytes 0 [] (by rw [List.drop_zero, hb, List.append_nil])
  refine ⟨w, _, e, new_at _ hne, ?_⟩
  rw [this]
  refine ⟨rfl, ?_⟩
  unfold BitReader.remaining readerAt
  simp only
  omega

/-- **C38 (round trip with more after it).** The fields that lie within whole bytes are read back
from the bytes written whatever is written after them. -/
theorem C38_prefix (l more : List (Nat × Nat)) (tail : Bytes) (hl : FieldsFit l) (hm : FieldsFit more)
    (h0 : 0 < fieldsWidth l) (hw : fieldsWidth l ≤ 8 * (fieldsWidth (l ++ more) / 8)) :
    ∃ w r, ({} : BitWriter).addAll (l ++ more) = .ok w ∧
      BitReader.new (w.addBytes tail).bytes = .ok r ∧
      (r.getAll (l.map Prod.snd)).1 = l.map Prod.fst := by
  have hall : FieldsFit (l ++ more) := by
    intro f hf
    rcases List.mem_append.mp hf with h | h
    · exact hl f h
    · exact hm f h
  obtain ⟨w, e, hlen, hb⟩ := C38_bytes (l ++ more) hall
  have hsplit : fieldsBits (l ++ more) = fieldsBits l ++ fieldsBits more := by simp [fieldsBits]
  have hne : (w.addBytes tail).bytes ≠ [] := by
    unfold BitWriter.addBytes
    intro h
    have := congrArg List.length h
    rw [List.length_append, List.length_nil] at this
    omega
  have hbits : (bytesBits (w.addBytes tail).bytes).drop 0 = fieldsBits l ++
      ((fieldsBits more).take (8 * (fieldsWidth (l ++ more) / 8) - fieldsWidth l) ++ bytesBits tail) := by
    unfold BitWriter.addBytes
    rw [List.drop_zero, bytesBits_append, hb, hsplit, List.take_append, fieldsBits_length,
      List.take_of_length_le (by rw [fieldsBits_length]; exact hw), List.append_assoc]
  have := getAll_at l (fun f hf => (hl f hf).1) _ 0 _ hbits
  refine ⟨w, _, e, new_at _ hne, ?_⟩
  rw [this]

example : ∃ w r, ({} : BitWriter).addAll [(1, 3), (0x1234567, 29), (5, 8)] = .ok w ∧
    w.bytes.length = 5 ∧ BitReader.new w.bytes = .ok r ∧
    (r.getAll [3, 29, 8]).1 = [1, 0x1234567, 5] := by
  obtain ⟨w, r, e, n, g, _⟩ := C38_roundtrip_partial [(1, 3), (0x1234567, 29), (5, 8)]
    (by unfold FieldsFit; decide) (by decide) (by decide)
  obtain ⟨w', e', hl, _⟩ := C38_bytes [(1, 3), (0x1234567, 29), (5, 8)] (by unfold FieldsFit; decide)
  rw [e] at e'
  cases e'
  exact ⟨w, r, e, hl, n, g⟩

/-- Fields followed by a field that ends within a byte, and whole bytes after them. -/
example : ∃ w r, ({} : BitWriter).addAll ([(5, 3), (300, 9)] ++ [(15, 5), (1, 1)]) = .ok w ∧
    BitReader.new (w.addBytes [7, 8]).bytes = .ok r ∧ (r.getAll [3, 9]).1 = [5, 300] :=
  C38_prefix [(5, 3), (300, 9)] [(15, 5), (1, 1)] [7, 8] (by unfold FieldsFit; decide)
    (by unfold FieldsFit; decide) (by decide) (by decide)

/-- **C38 fails for wide fields.** A field of 42 bits cannot be written at all. -/
theorem C38_wide_violation : ({} : BitWriter).addBits 0 42 = .error .indexError := by decide +kernel

/-- **C38 fails when the last byte is not full.** There is no way to get the bits that wait for
their byte, so that the value of the last field is not read back. -/
theorem C38_pending_violation : ∃ w r, ({} : BitWriter).addAll [(255, 8), (7, 3)] = .ok w ∧
    BitReader.new w.bytes = .ok r ∧ (r.getAll [8, 3]).1 = [255, 0] :=
  ⟨⟨[255], 7, 3⟩, readerAt [255] 0, by decide +kernel, by decide +kernel, by decide +kernel⟩

/-- **C38 (whole bytes).** With no bits waiting, `step_bytes` gives the next bytes of the buffer
and the reader goes on after them. -/
theorem C38_step_bytes (b : Bytes) (p n : Nat) :
    (readerAt b (8 * p)).stepBytes n = ((b.drop p).take n, readerAt b (8 * (p + n))) := by
  have hg : ∀ n k, ((readerAt b k).getAll (List.replicate n 8)).2 = readerAt b (k + 8 * n) := by
    intro n
    induction n with
    | zero => intro k; rfl
    | succ n ih =>
      intro k
      rw [List.replicate_succ, BitReader.getAll, getBits_at, ih, show k + 8 * (n + 1) = k + 8 + 8 * n by omega]
  unfold BitReader.stepBytes
  rw [hg, show 8 * (p + n) = 8 * p + 8 * n by omega]
  congr 1
  unfold slice readerAt
  simp only
  rw [show 8 * p / 8 + 1 - 1 = p by omega]
  congr 1
  omega

/-! ### Exp-Golomb -/

theorem ueLoop_zeros (b : Bytes) (z k fuel zeros : Nat) (h : ∀ i, i < z → bitAt b (k + i) = false) :
    ueLoop (fuel + z) (readerAt b k) zeros = ueLoop fuel (readerAt b (k + z)) (zeros + z) := by
  induction z generalizing k zeros with
  | zero => rfl
  | succ z ih =>
    rw [← Nat.add_assoc, ueLoop, getBits_at]
    have h0 : bitAt b k = false := h 0 (by omega)
    have e : bitValue (bitsFrom b k 1) = 0 := by simp [bitsFrom, h0, bitValue]
    rw [e, if_pos rfl]
    simp only
    rw [ih (k + 1) (zeros + 1) (fun i hi => by have := h (i + 1) (by omega); rwa [show k + (i + 1) = k + 1 + i by omega] at this),
      show k + (z + 1) = k + 1 + z by omega, show zeros + (z + 1) = zeros + 1 + z by omega]

theorem bitsFrom_get (b : Bytes) (k n i : Nat) (h : i < n) : (bitsFrom b k n)[i]? = some (bitAt b (k + i)) := by
  induction n generalizing k i with
  | zero => omega
  | succ n ih =>
    rw [bitsFrom]
    cases i with
    | zero => rfl
    | succ i => rw [List.getElem?_cons_succ, ih (k + 1) i (by omega), show k + 1 + i = k + (i + 1) by omega]

/-- **C39.** For every number and every place of its Exp-Golomb code word in a buffer, whatever is
before and after it: `ue` returns the number and leaves the reader right after the code word. -/
theorem C39_decodes (v : Nat) (b : Bytes) (k : Nat) (rest : List Bool)
    (h : (bytesBits b).drop k = expGolomb v ++ rest) :
    ue (readerAt b k) = .ok (v, readerAt b (k + (expGolomb v).length)) := by
  obtain ⟨z, hz⟩ : ∃ z, z = Nat.log2 (v + 1) := ⟨_, rfl⟩
  have hlo : 2 ^ z ≤ v + 1 := by rw [hz]; exact Nat.log2_self_le (by omega)
  have hhi : v + 1 < 2 ^ (z + 1) := by rw [hz]; exact Nat.lt_log2_self
  have hcode : expGolomb v = List.replicate z false ++ (true :: bitString z (v + 1)) := by
    unfold expGolomb
    rw [← hz, bitString, Nat.testBit_eq_decide_div_mod_eq]
    congr 2
    have : (v + 1) / 2 ^ z = 1 := by
      apply Nat.div_eq_of_lt_le
      · omega
      · rw [Nat.pow_succ] at hhi; omega
    simp [this]
  have hclen : (expGolomb v).length = 2 * z + 1 := by
    rw [hcode]; simp [bitString_length]; omega
  have hall := bitsFrom_eq b k _ _ h
  rw [hclen] at hall
  have hlen : k + (2 * z + 1) ≤ 8 * b.length := by
    have := congrArg List.length h
    rw [List.length_drop, bytesBits_length, List.length_append, hclen] at this
    omega
  have hzero : ∀ i, i < z → bitAt b (k + i) = false := by
    intro i hi
    have := bitsFrom_get b k (2 * z + 1) i (by omega)
    rw [hall, hcode, List.getElem?_append_left (by simpa using hi)] at this
    simpa [hi] using this.symm
  have hone : bitAt b (k + z) = true := by
    have := bitsFrom_get b k (2 * z + 1) z (by omega)
    rw [hall, hcode, List.getElem?_append_right (by simp)] at this
    simpa using this.symm
  have hrest : bitsFrom b (k + z + 1) z = bitString z (v + 1) := by
    have := bitsFrom_eq b (k + z + 1) (bitString z (v + 1)) rest (by
      rw [hcode] at h
      rw [Nat.add_assoc, ← List.drop_drop, h, List.append_assoc,
        show List.replicate z false ++ (true :: bitString z (v + 1) ++ rest) =
          (List.replicate z false ++ [true]) ++ (bitString z (v + 1) ++ rest) by simp,
        List.drop_left' (by simp)])
    rwa [bitString_length] at this
  unfold ue
  rw [show 8 * (readerAt b k).buffer.length + 1 = (8 * b.length - z) + 1 + z by
    show 8 * b.length + 1 = _; omega, ueLoop_zeros b z k _ 0 hzero, ueLoop, getBits_at]
  have e : bitValue (bitsFrom b (k + z) 1) = 1 := by simp [bitsFrom, hone, bitValue]
  rw [e, if_neg (by omega)]
  simp only [Nat.zero_add]
  rw [getBits_at, hrest, bitValue_bitString, hclen, show k + z + 1 + z = k + (2 * z + 1) by omega]
  simp only
  congr 2
  have hp := Nat.two_pow_pos z
  have : (v + 1) % 2 ^ z = v + 1 - 2 ^ z := by
    rw [Nat.mod_eq_sub_mod hlo, Nat.mod_eq_of_lt (by rw [Nat.pow_succ] at hhi; omega)]
  omega

/-- **C39 (no code word).** When all bits from the reader's place on are zeros, `ue` does not
come to an end, however long it runs. -/
theorem C39_hang (b : Bytes) (k : Nat) (h : ∀ i, k ≤ i → bitAt b i = false) :
    ue (readerAt b k) = .error .hang ∧ ∀ fuel zeros, ueLoop fuel (readerAt b k) zeros = .error .hang := by
  have hall : ∀ fuel zeros, ueLoop fuel (readerAt b k) zeros = .error .hang := by
    intro fuel zeros
    have := ueLoop_zeros b fuel k 0 zeros (fun i _ => h (k + i) (by omega))
    rw [Nat.zero_add] at this
    rw [this]
    rfl
  refine ⟨?_, hall⟩
  unfold ue
  rw [hall]

/-- **C39 (ends otherwise).** When there is a one bit, `ue` comes to an end. -/
theorem C39_ends (b : Bytes) (k i : Nat) (hi : bitAt b (k + i) = true) : ue (readerAt b k) ≠ .error .hang := by
  have hex : ∃ i, bitAt b (k + i) = true := ⟨i, hi⟩
  obtain ⟨z, hz, hmin⟩ : ∃ z, bitAt b (k + z) = true ∧ ∀ j, j < z → bitAt b (k + j) = false := by
    refine ⟨Nat.find hex, Nat.find_spec hex, fun j hj => ?_⟩
    have := Nat.find_min hex hj
    simpa using this
  have hlt : k + z < 8 * b.length := by
    by_contra hc
    have : bitAt b (k + z) = false := by
      unfold bitAt
      rw [List.getElem?_eq_none (by rw [bytesBits_length]; omega)]
      rfl
    rw [this] at hz
    cases hz
  unfold ue
  rw [show 8 * (readerAt b k).buffer.length + 1 = (8 * b.length - z) + 1 + z by
    show 8 * b.length + 1 = _; omega, ueLoop_zeros b z k _ 0 hmin, ueLoop, getBits_at]
  have e : bitValue (bitsFrom b (k + z) 1) = 1 := by simp [bitsFrom, hz, bitValue]
  rw [e, if_neg (by omega)]
  intro hc
  cases hc

/-- Three bits, the code word for 9 (`0001010`), and zeros. -/
example : ue (readerAt [0b10100010, 0b10000000] 3) = .ok (9, readerAt [0b10100010, 0b10000000] 10) :=
  C39_decodes 9 _ 3 [false, false, false, false, false, false] (by decide +kernel)

example : ue (readerAt [0x80, 0] 1) = .error .hang := by decide +kernel

end Verif
