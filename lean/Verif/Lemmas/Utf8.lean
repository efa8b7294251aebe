import Verif.Mp4Filter
/-
The check of box types is UTF-8.
-/
namespace Verif

theorem u8_le {a : UInt8} {n : Nat} (hn : n < 256) : (a ≤ UInt8.ofNat n) ↔ a.toNat ≤ n := by
  rw [UInt8.le_iff_toNat_le, UInt8.toNat_ofNat', Nat.mod_eq_of_lt hn]

theorem u8_ge {a : UInt8} {n : Nat} (hn : n < 256) : (UInt8.ofNat n ≤ a) ↔ n ≤ a.toNat := by
  rw [UInt8.le_iff_toNat_le, UInt8.toNat_ofNat', Nat.mod_eq_of_lt hn]

theorem u8_lt {a : UInt8} {n : Nat} (hn : n < 256) : (a < UInt8.ofNat n) ↔ a.toNat < n := by
  rw [UInt8.lt_iff_toNat_lt, UInt8.toNat_ofNat', Nat.mod_eq_of_lt hn]

theorem u8_eq {a : UInt8} {n : Nat} (hn : n < 256) : (a = UInt8.ofNat n) ↔ a.toNat = n := by
  rw [← UInt8.toNat_inj, UInt8.toNat_ofNat', Nat.mod_eq_of_lt hn]

/-- The first character of valid UTF-8, by cases on the number of bytes. -/
def FirstChar (l : Bytes) : Prop :=
  (∃ a rest, l = a :: rest ∧ a.toNat < 128 ∧ utf8Valid rest = true) ∨
  (∃ a b rest, l = a :: b :: rest ∧ 194 ≤ a.toNat ∧ a.toNat ≤ 223 ∧ 128 ≤ b.toNat ∧ b.toNat ≤ 191 ∧
    utf8Valid rest = true) ∨
  (∃ a b c rest, l = a :: b :: c :: rest ∧ 224 ≤ a.toNat ∧ a.toNat ≤ 239 ∧ 128 ≤ b.toNat ∧ b.toNat ≤ 191 ∧
    128 ≤ c.toNat ∧ c.toNat ≤ 191 ∧ (a.toNat = 224 → 160 ≤ b.toNat) ∧ (a.toNat = 237 → b.toNat ≤ 159) ∧
    utf8Valid rest = true) ∨
  (∃ a b c d rest, l = a :: b :: c :: d :: rest ∧ 240 ≤ a.toNat ∧ a.toNat ≤ 244 ∧ 128 ≤ b.toNat ∧ b.toNat ≤ 191 ∧
    128 ≤ c.toNat ∧ c.toNat ≤ 191 ∧ 128 ≤ d.toNat ∧ d.toNat ≤ 191 ∧ (a.toNat = 240 → 144 ≤ b.toNat) ∧
    (a.toNat = 244 → b.toNat ≤ 143) ∧ utf8Valid rest = true)

theorem utf8Valid_first {l : Bytes} (hl : l ≠ []) : utf8Valid l = true ↔ FirstChar l := by
  unfold FirstChar
  match l with
  | [] => exact absurd rfl hl
  | a :: rest =>
    rw [utf8Valid.eq_def]
    simp only [show (0x80 : UInt8) = UInt8.ofNat 128 from rfl, show (0xBF : UInt8) = UInt8.ofNat 191 from rfl,
      show (0xC2 : UInt8) = UInt8.ofNat 194 from rfl, show (0xDF : UInt8) = UInt8.ofNat 223 from rfl,
      show (0xE0 : UInt8) = UInt8.ofNat 224 from rfl, show (0xEF : UInt8) = UInt8.ofNat 239 from rfl,
      show (0xA0 : UInt8) = UInt8.ofNat 160 from rfl, show (0xED : UInt8) = UInt8.ofNat 237 from rfl,
      show (0x9F : UInt8) = UInt8.ofNat 159 from rfl, show (0xF0 : UInt8) = UInt8.ofNat 240 from rfl,
      show (0xF4 : UInt8) = UInt8.ofNat 244 from rfl, show (0x90 : UInt8) = UInt8.ofNat 144 from rfl,
      show (0x8F : UInt8) = UInt8.ofNat 143 from rfl]
    by_cases h1 : a.toNat < 128
    · rw [if_pos ((u8_lt (by omega)).2 h1)]
      constructor
      · intro h; exact Or.inl ⟨a, rest, rfl, h1, h⟩
      · rintro (⟨_, _, h, _, hv⟩ | ⟨_, _, _, h, h2, _⟩ | ⟨_, _, _, _, h, h2, _⟩ | ⟨_, _, _, _, _, h, h2, _⟩) <;>
          (cases h; first | exact hv | omega)
    · rw [if_neg (fun h => h1 ((u8_lt (by omega)).1 h))]
      match rest with
      | [] =>
        simp only [Bool.false_eq_true, false_iff]
        rintro (⟨_, _, h, h2, _⟩ | ⟨_, _, _, h, _⟩ | ⟨_, _, _, _, h, _⟩ | ⟨_, _, _, _, _, h, _⟩) <;> cases h
        exact h1 h2
      | b :: rest2 =>
        simp only [Bool.and_eq_true, decide_eq_true_eq, u8_le (show 191 < 256 by omega),
          u8_le (show 223 < 256 by omega), u8_ge (show 194 < 256 by omega), u8_ge (show 128 < 256 by omega)]
        by_cases h2 : 194 ≤ a.toNat ∧ a.toNat ≤ 223
        · rw [if_pos h2]
          simp only [Bool.and_eq_true, decide_eq_true_eq]
          constructor
          · rintro ⟨⟨x, y⟩, z⟩; exact Or.inr (Or.inl ⟨a, b, rest2, rfl, h2.1, h2.2, x, y, z⟩)
          · rintro (⟨_, _, h, h3, _⟩ | ⟨_, _, _, h, _, _, x, y, z⟩ | ⟨_, _, _, _, h, h3, _⟩ |
              ⟨_, _, _, _, _, h, h3, _⟩) <;> cases h
            · omega
            · exact ⟨⟨x, y⟩, z⟩
            · omega
            · omega
        · rw [if_neg h2]
          match rest2 with
          | [] =>
            simp only [Bool.false_eq_true, false_iff]
            rintro (⟨_, _, h, h3, _⟩ | ⟨_, _, _, h, x, y, _⟩ | ⟨_, _, _, _, h, _⟩ | ⟨_, _, _, _, _, h, _⟩) <;> cases h
            · exact h1 h3
            · exact h2 ⟨x, y⟩
          | c :: rest3 =>
            dsimp only
            simp only [u8_ge (show 224 < 256 by omega), u8_le (show 239 < 256 by omega)]
            by_cases h3 : 224 ≤ a.toNat ∧ a.toNat ≤ 239
            · rw [if_pos h3]
              simp only [Bool.and_eq_true, Bool.or_eq_true, decide_eq_true_eq, bne_iff_ne, ne_eq,
                u8_eq (show 224 < 256 by omega), u8_eq (show 237 < 256 by omega), u8_ge (show 160 < 256 by omega),
                u8_le (show 159 < 256 by omega)]
              constructor
              · rintro ⟨⟨⟨⟨⟨x1, x2⟩, y1, y2⟩, p⟩, q⟩, z⟩
                exact Or.inr (Or.inr (Or.inl ⟨a, b, c, rest3, rfl, h3.1, h3.2, x1, x2, y1, y2, by omega, by omega, z⟩))
              · rintro (⟨_, _, h, h4, _⟩ | ⟨_, _, _, h, x, y, _⟩ | ⟨_, _, _, _, h, _, _, x1, x2, y1, y2, p, q, z⟩ |
                  ⟨_, _, _, _, _, h, h4, _⟩) <;> cases h
                · omega
                · omega
                · exact ⟨⟨⟨⟨⟨x1, x2⟩, y1, y2⟩, by omega⟩, by omega⟩, z⟩
                · omega
            · rw [if_neg h3]
              match rest3 with
              | [] =>
                simp only [Bool.false_eq_true, false_iff]
                rintro (⟨_, _, h, h4, _⟩ | ⟨_, _, _, h, x, y, _⟩ | ⟨_, _, _, _, h, x, y, _⟩ | ⟨_, _, _, _, _, h, _⟩) <;>
                  cases h
                · exact h1 h4
                · exact h2 ⟨x, y⟩
                · exact h3 ⟨x, y⟩
              | d :: rest4 =>
                simp only [Bool.and_eq_true, Bool.or_eq_true, decide_eq_true_eq, bne_iff_ne, ne_eq,
                  u8_eq (show 240 < 256 by omega), u8_eq (show 244 < 256 by omega), u8_ge (show 240 < 256 by omega),
                  u8_le (show 244 < 256 by omega), u8_ge (show 144 < 256 by omega), u8_le (show 143 < 256 by omega)]
                constructor
                · rintro ⟨⟨⟨⟨⟨⟨⟨w1, w2⟩, x1, x2⟩, y1, y2⟩, z1, z2⟩, p⟩, q⟩, z⟩
                  exact Or.inr (Or.inr (Or.inr ⟨a, b, c, d, rest4, rfl, w1, w2, x1, x2, y1, y2, z1, z2, by omega,
                    by omega, z⟩))
                · rintro (⟨_, _, h, h4, _⟩ | ⟨_, _, _, h, x, y, _⟩ | ⟨_, _, _, _, h, x, y, _⟩ |
                    ⟨_, _, _, _, _, h, w1, w2, x1, x2, y1, y2, z1, z2, p, q, z⟩) <;> cases h
                  · omega
                  · omega
                  · omega
                  · exact ⟨⟨⟨⟨⟨⟨⟨w1, w2⟩, x1, x2⟩, y1, y2⟩, z1, z2⟩, by omega⟩, by omega⟩, z⟩

theorem ofNat_toNat_eq {a : UInt8} {n : Nat} (h : n = a.toNat) : UInt8.ofNat n = a := by
  subst h; exact UInt8.ofNat_toNat

/-- A character for a code point. -/
theorem char_of {v : Nat} (h : v < 0xd800 ∨ (0xdfff < v ∧ v < 0x110000)) : ∃ c : Char, c.val.toNat = v := by
  refine ⟨⟨UInt32.ofNat v, ?_⟩, ?_⟩
  · show Nat.isValidChar _
    rw [UInt32.toNat_ofNat', Nat.mod_eq_of_lt (by omega)]
    exact h
  · show (UInt32.ofNat v).toNat = v
    rw [UInt32.toNat_ofNat', Nat.mod_eq_of_lt (by omega)]

theorem utf8Valid_iff (l : Bytes) : utf8Valid l = true ↔ ∃ cs : List Char, l = cs.flatMap String.utf8EncodeChar := by
  constructor
  · intro h
    obtain ⟨n, hn⟩ : ∃ n, l.length ≤ n := ⟨_, Nat.le_refl _⟩
    induction n generalizing l with
    | zero => exact ⟨[], by cases l with | nil => rfl | cons _ _ => simp at hn⟩
    | succ n ih =>
      by_cases hl : l = []
      · exact ⟨[], hl⟩
      rcases (utf8Valid_first hl).1 h with ⟨a, rest, rfl, h1, hv⟩ | ⟨a, b, rest, rfl, a1, a2, b1, b2, hv⟩ |
        ⟨a, b, c, rest, rfl, a1, a2, b1, b2, c1, c2, p, q, hv⟩ |
        ⟨a, b, c, d, rest, rfl, a1, a2, b1, b2, c1, c2, d1, d2, p, q, hv⟩
      · obtain ⟨cs, rfl⟩ := ih rest hv (by simp only [List.length_cons] at hn; omega)
        obtain ⟨x, hx⟩ := char_of (v := a.toNat) (by omega)
        refine ⟨x :: cs, ?_⟩
        rw [List.flatMap_cons]
        unfold String.utf8EncodeChar
        simp only [hx]
        rw [if_pos (by omega), ofNat_toNat_eq rfl]
        rfl
      · obtain ⟨cs, rfl⟩ := ih rest hv (by simp only [List.length_cons] at hn; omega)
        obtain ⟨x, hx⟩ := char_of (v := (a.toNat - 192) * 64 + (b.toNat - 128)) (by omega)
        refine ⟨x :: cs, ?_⟩
        rw [List.flatMap_cons]
        unfold String.utf8EncodeChar
        simp only [hx]
        rw [if_neg (by omega), if_pos (by omega), ofNat_toNat_eq (a := a) (by omega), ofNat_toNat_eq (a := b) (by omega)]
        rfl
      · obtain ⟨cs, rfl⟩ := ih rest hv (by simp only [List.length_cons] at hn; omega)
        obtain ⟨x, hx⟩ := char_of (v := (a.toNat - 224) * 4096 + (b.toNat - 128) * 64 + (c.toNat - 128)) (by omega)
        refine ⟨x :: cs, ?_⟩
        rw [List.flatMap_cons]
        unfold String.utf8EncodeChar
        simp only [hx]
        rw [if_neg (by omega), if_neg (by omega), if_pos (by omega), ofNat_toNat_eq (a := a) (by omega),
          ofNat_toNat_eq (a := b) (by omega), ofNat_toNat_eq (a := c) (by omega)]
        rfl
      · obtain ⟨cs, rfl⟩ := ih rest hv (by simp only [List.length_cons] at hn; omega)
        obtain ⟨x, hx⟩ := char_of (v := (a.toNat - 240) * 262144 + (b.toNat - 128) * 4096 + (c.toNat - 128) * 64 +
          (d.toNat - 128)) (by omega)
        refine ⟨x :: cs, ?_⟩
        rw [List.flatMap_cons]
        unfold String.utf8EncodeChar
        simp only [hx]
        rw [if_neg (by omega), if_neg (by omega), if_neg (by omega), ofNat_toNat_eq (a := a) (by omega),
          ofNat_toNat_eq (a := b) (by omega), ofNat_toNat_eq (a := c) (by omega), ofNat_toNat_eq (a := d) (by omega)]
        rfl
  · rintro ⟨cs, rfl⟩
    induction cs with
    | nil => rfl
    | cons x cs ih =>
      rw [List.flatMap_cons]
      have hx : x.val.toNat < 0xd800 ∨ (0xdfff < x.val.toNat ∧ x.val.toNat < 0x110000) := x.valid
      generalize cs.flatMap String.utf8EncodeChar = rest at ih
      unfold String.utf8EncodeChar
      generalize x.val.toNat = v at hx
      dsimp only
      have t : ∀ n, n < 256 → (UInt8.ofNat n).toNat = n := fun n h => by
        rw [UInt8.toNat_ofNat', Nat.mod_eq_of_lt h]
      split
      · refine (utf8Valid_first (by simp)).2 (Or.inl ⟨_, _, rfl, ?_, ih⟩)
        rw [t _ (by omega)]; omega
      · split
        · refine (utf8Valid_first (by simp)).2 (Or.inr (Or.inl ⟨_, _, _, rfl, ?_, ?_, ?_, ?_, ih⟩)) <;>
            (rw [t _ (by omega)]; omega)
        · split
          · refine (utf8Valid_first (by simp)).2 (Or.inr (Or.inr (Or.inl ⟨_, _, _, _, rfl, ?_, ?_, ?_, ?_, ?_, ?_, ?_, ?_,
              ih⟩))) <;> (repeat rw [t _ (by omega)]) <;> omega
          · refine (utf8Valid_first (by simp)).2 (Or.inr (Or.inr (Or.inr ⟨_, _, _, _, _, rfl, ?_, ?_, ?_, ?_, ?_, ?_, ?_,
              ?_, ?_, ?_, ih⟩))) <;> (repeat rw [t _ (by omega)]) <;> omega

end Verif
