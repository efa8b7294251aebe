import Verif.Spec.Descriptor
import Verif.Lemmas.MovieBox
/-
C57, the descriptors in an `esds` box.
-/
namespace Verif

theorem starts_short (tag n : Nat) (content rest : Bytes) (ht : tag < 256) (hn : n = content.length)
    (hl : n < 128) : StartsDescriptor tag content rest (beBytes 1 tag ++ (beBytes 1 n ++ (content ++ rest))) := by
  have e : ∀ k, k < 256 → beBytes 1 k = [UInt8.ofNat k] := by
    intro k _
    show [UInt8.ofNat (k / 256 ^ 0)] = _
    rw [Nat.pow_zero, Nat.div_one]
  have en : (UInt8.ofNat n).toNat = n := by rw [UInt8.toNat_ofNat']; omega
  refine ⟨UInt8.ofNat tag, UInt8.ofNat n :: (content ++ rest), ?_, ?_, ?_⟩
  · rw [e tag ht, e n (by omega)]
    rfl
  · rw [UInt8.toNat_ofNat']
    omega
  · rw [readExpandable, if_pos (by omega), en, hn]
    congr 2
    omega

/-- **C57 (descriptors).** For every decoder configuration of at most 104 bytes the `esds` box
holds an ES descriptor of exactly the rest of the box, in it a decoder configuration descriptor
(AAC, audio stream) with the configuration as decoder specific information, and a sync layer
descriptor after it.  Missing for the full claim: longer configurations
(`C57_esds_violation`). -/
theorem C57_esds_partial (config : Bytes) (h : config.length ≤ 104) :
    ∃ bytes es dc sl, (esdsObj config).iter = .ok (boxBytes [101, 115, 100, 115] bytes) ∧
      fieldAt bytes 0 4 = 0 ∧ StartsDescriptor 3 es [] (bytes.drop 4) ∧
      fieldAt es 0 2 = 1 ∧ StartsDescriptor 4 dc sl (es.drop 3) ∧
      fieldAt dc 0 1 = 0x40 ∧ fieldAt dc 1 1 = 0x15 ∧ StartsDescriptor 5 config [] (dc.drop 13) ∧
      StartsDescriptor 6 [2] [] sl := by
  let info : Bytes := beBytes 1 5 ++ (beBytes 1 config.length ++ (config ++ []))
  let dc : Bytes := [0x40, 0x15, 0, 0, 0, 0, 0, 0, 0, 0, 0, 0, 0] ++ info
  let sl : Bytes := [6, 1, 2]
  let es : Bytes := [0, 1, 0] ++ (beBytes 1 4 ++ (beBytes 1 (15 + config.length) ++ (dc ++ sl)))
  let bytes : Bytes := [0, 0, 0, 0] ++ (beBytes 1 3 ++ (beBytes 1 (23 + config.length) ++ (es ++ [])))
  have hi : info.length = 2 + config.length := by
    simp only [info, List.length_append, beBytes_length, List.length_nil]; omega
  have hd : dc.length = 15 + config.length := by
    simp only [dc, List.length_append, hi, List.length_cons, List.length_nil]; omega
  have he : es.length = 23 + config.length := by
    simp only [es, sl, List.length_append, beBytes_length, hd, List.length_cons, List.length_nil]; omega
  have hb : bytes.length = 29 + config.length := by
    simp only [bytes, List.length_append, beBytes_length, he, List.length_cons, List.length_nil]; omega
  refine ⟨bytes, es, dc, sl, ?_, field_of rfl (by decide), starts_short 3 _ es [] (by decide) he.symm (by omega),
    field_of rfl (by decide), starts_short 4 _ dc sl (by decide) hd.symm (by omega),
    field_of rfl (by decide), field_of rfl (by decide), starts_short 5 _ config [] (by decide) rfl (by omega),
    starts_short 6 1 [2] [] (by decide) rfl (by decide)⟩
  refine boxObj_box (r := bytes) ?_ rfl ?_ ?_
  · have e1 : y8 (23 + (config.length : Int)) = .ok (beBytes 1 (23 + config.length)) :=
      y8_nat (n := 23 + config.length) (by omega)
    have e2 : y8 (15 + (config.length : Int)) = .ok (beBytes 1 (15 + config.length)) :=
      y8_nat (n := 15 + config.length) (by omega)
    rw [e1, e2, y8_nat (n := config.length) (by omega)]
    have : joinPy [y32 0, y8 3, .ok (beBytes 1 (23 + config.length)), y16 1, y8 0,
        y8 4, .ok (beBytes 1 (15 + config.length)), y8 0x40, y8 0x15, y8 0, y8 0, y8 0, y32 0, y32 0,
        y8 5, .ok (beBytes 1 config.length), .ok config, y8 6, y8 1, y8 2]
        = .ok ([0, 0, 0, 0] ++ ([3] ++ (beBytes 1 (23 + config.length) ++ ([0, 1] ++ ([0] ++
          ([4] ++ (beBytes 1 (15 + config.length) ++ ([0x40] ++ ([0x15] ++ ([0] ++ ([0] ++ ([0] ++
          ([0, 0, 0, 0] ++ ([0, 0, 0, 0] ++ ([5] ++ (beBytes 1 config.length ++ (config ++
          ([6] ++ ([1] ++ ([2] ++ [])))))))))))))))))))) := rfl
    rw [this]
    simp only [bytes, es, dc, sl, info, List.append_assoc, List.append_nil]
    rfl
  · rw [hb]; omega
  · rw [hb]; omega

/-- An AAC configuration of two bytes. -/
example : ([0x11, 0x90] : Bytes).length ≤ 104 ∧
    (esdsObj [0x11, 0x90]).iter = .ok ([0, 0, 0, 39, 101, 115, 100, 115, 0, 0, 0, 0,
      3, 25, 0, 1, 0, 4, 17, 0x40, 0x15, 0, 0, 0, 0, 0, 0, 0, 0, 0, 0, 0, 5, 2, 0x11, 0x90, 6, 1, 2]) := by
  decide +kernel

/-- **C57 fails for longer configurations.** With 105 bytes the length of the ES descriptor is
written with a continuation bit, and reads as nothing like the 128 bytes that follow. -/
theorem C57_esds_violation :
    (esdsObj (List.replicate 105 0)).iter.map
      (fun b => (b.length, (readExpandable 0 (b.drop 13)).map (fun x => (x.1, x.2.length))))
      = .ok (142, some (0, 127)) := by
  decide +kernel

end Verif
