import Verif.Float
import Verif.Lemmas.MpdText
import Verif.Props.TimeAddressing
import Mathlib.Tactic.Linarith
import Mathlib.Tactic.FieldSimp
import Mathlib.Tactic.Ring
import Mathlib.Tactic.Positivity
import Mathlib.Algebra.Order.Field.Power
/-
Facts about binary64 rounding: `fl` is monotone, keeps every number with 53 significant bits
and has relative error at most `2^-53`.
-/
namespace Verif

theorem pow2_eq (k : Int) : pow2 k = (2 : Rat) ^ k := by
  cases k with
  | ofNat n => simp [pow2]
  | negSucc n => simp only [pow2, zpow_negSucc]; push_cast; rw [one_div]

theorem pow2_pos (k : Int) : 0 < pow2 k := by rw [pow2_eq]; positivity

theorem pow2_add (a b : Int) : pow2 (a + b) = pow2 a * pow2 b := by
  simp only [pow2_eq]; exact zpow_add₀ (by norm_num) a b

theorem pow2_le {a b : Int} (h : a ≤ b) : pow2 a ≤ pow2 b := by
  simp only [pow2_eq]; exact zpow_le_zpow_right₀ (by norm_num) h

theorem pow2_lt_iff {a b : Int} : pow2 a < pow2 b ↔ a < b := by
  simp only [pow2_eq]; exact zpow_lt_zpow_iff_right₀ (by norm_num)

theorem binExp_spec {x : Rat} (hx : 0 < x) : pow2 (binExp x) ≤ x ∧ x < pow2 (binExp x + 1) := by
  have hn : 0 < x.num := Rat.num_pos.mpr hx
  obtain ⟨a, ha⟩ : ∃ a : Nat, x.num = a := ⟨x.num.toNat, by omega⟩
  have ha0 : a ≠ 0 := by omega
  have hb0 : x.den ≠ 0 := x.den_nz
  have hxe : x = (a : Rat) / x.den := by
    conv_lhs => rw [← Rat.num_div_den x]
    rw [ha]; push_cast; rfl
  have a1 : ((2 ^ a.log2 : Nat) : Rat) ≤ a := by exact_mod_cast Nat.log2_self_le ha0
  have a2 : (a : Rat) < ((2 ^ (a.log2 + 1) : Nat) : Rat) := by exact_mod_cast Nat.lt_log2_self
  have b1 : ((2 ^ x.den.log2 : Nat) : Rat) ≤ x.den := by exact_mod_cast Nat.log2_self_le hb0
  have b2 : (x.den : Rat) < ((2 ^ (x.den.log2 + 1) : Nat) : Rat) := by exact_mod_cast Nat.lt_log2_self
  have hd : (0 : Rat) < x.den := by exact_mod_cast Nat.pos_of_ne_zero hb0
  set k : Int := (a.log2 : Int) - (x.den.log2 : Int) with hk
  have pk : pow2 k = ((2 ^ a.log2 : Nat) : Rat) / ((2 ^ x.den.log2 : Nat) : Rat) := by
    rw [pow2_eq, hk, zpow_sub₀ (by norm_num)]; push_cast; simp
  have hA : (0 : Rat) < ((2 ^ a.log2 : Nat) : Rat) := by positivity
  have hB : (0 : Rat) < ((2 ^ x.den.log2 : Nat) : Rat) := by positivity
  have up : x < pow2 (k + 1) := by
    rw [pow2_add, pk, show pow2 1 = 2 by decide +kernel]
    refine lt_of_eq_of_lt hxe ?_
    rw [div_lt_iff₀ hd, div_mul_eq_mul_div, div_mul_eq_mul_div, lt_div_iff₀ hB]
    push_cast [pow_succ] at a1 a2 b1 b2 hA hB ⊢
    nlinarith
  have lo : pow2 (k - 1) ≤ x := by
    rw [show k - 1 = k + (-1) by ring, pow2_add, pk, show pow2 (-1) = 1 / 2 by decide +kernel]
    refine le_of_le_of_eq ?_ hxe.symm
    rw [le_div_iff₀ hd, div_mul_eq_mul_div, div_mul_eq_mul_div, div_le_iff₀ hB]
    push_cast [pow_succ] at a1 a2 b1 b2 hA hB ⊢
    nlinarith
  have hdef : binExp x = if pow2 k ≤ x then k else k - 1 := by
    unfold binExp
    rw [show x.num.toNat = a by omega]
  rw [hdef]
  split
  · rename_i h; exact ⟨h, up⟩
  · rename_i h
    refine ⟨lo, ?_⟩
    rw [sub_add_cancel]; exact not_le.mp h

theorem pyRound_mono {x y : Rat} (h : x ≤ y) : pyRound x ≤ pyRound y := by
  by_contra hn
  have h1 := pyRound_half x
  have h2 := pyRound_half y
  have : (pyRound y : Rat) + 1 ≤ pyRound x := by exact_mod_cast (by omega : pyRound y + 1 ≤ pyRound x)
  have : x = y := by linarith [h1.1, h1.2, h2.1, h2.2]
  subst this
  omega

theorem pyRound_int (n : Int) : pyRound (n : Rat) = n :=
  pyRound_near (by linarith) (by linarith)

theorem le_pyRound {n : Int} {x : Rat} (h : (n : Rat) ≤ x) : n ≤ pyRound x := by
  simpa [pyRound_int] using pyRound_mono h

theorem pyRound_le {n : Int} {x : Rat} (h : x ≤ (n : Rat)) : pyRound x ≤ n := by
  simpa [pyRound_int] using pyRound_mono h

private theorem p52 : pow2 52 = (2 : Rat) ^ 52 := by norm_num [pow2_eq]
private theorem p53 : pow2 53 = (2 : Rat) ^ 53 := by norm_num [pow2_eq]

/-- The significand of a positive number before rounding. -/
theorem signif {x : Rat} (hx : 0 < x) :
    (2 : Rat) ^ 52 ≤ x / pow2 (binExp x - 52) ∧ x / pow2 (binExp x - 52) < (2 : Rat) ^ 53 := by
  obtain ⟨h1, h2⟩ := binExp_spec hx
  have hu := pow2_pos (binExp x - 52)
  have e1 : pow2 (binExp x) = 2 ^ 52 * pow2 (binExp x - 52) := by
    rw [← p52, ← pow2_add]; congr 1; ring
  have e2 : pow2 (binExp x + 1) = 2 ^ 53 * pow2 (binExp x - 52) := by
    rw [← p53, ← pow2_add]; congr 1; ring
  constructor
  · rw [le_div_iff₀ hu, ← e1]; exact h1
  · rw [div_lt_iff₀ hu, ← e2]; exact h2

theorem flPos_range {x : Rat} (hx : 0 < x) :
    pow2 (binExp x) ≤ flPos x ∧ flPos x ≤ pow2 (binExp x + 1) := by
  obtain ⟨h1, h2⟩ := signif hx
  have hu := pow2_pos (binExp x - 52)
  have e1 : pow2 (binExp x) = 2 ^ 52 * pow2 (binExp x - 52) := by
    rw [← p52, ← pow2_add]; congr 1; ring
  have e2 : pow2 (binExp x + 1) = 2 ^ 53 * pow2 (binExp x - 52) := by
    rw [← p53, ← pow2_add]; congr 1; ring
  have r1 : (2 ^ 52 : Int) ≤ pyRound (x / pow2 (binExp x - 52)) := le_pyRound (by exact_mod_cast h1)
  have r2 : pyRound (x / pow2 (binExp x - 52)) ≤ (2 ^ 53 : Int) := pyRound_le (by exact_mod_cast h2.le)
  have q1 : (2 : Rat) ^ 52 ≤ pyRound (x / pow2 (binExp x - 52)) := by exact_mod_cast r1
  have q2 : (pyRound (x / pow2 (binExp x - 52)) : Rat) ≤ 2 ^ 53 := by exact_mod_cast r2
  unfold flPos
  rw [e1, e2]
  exact ⟨mul_le_mul_of_nonneg_right q1 hu.le, mul_le_mul_of_nonneg_right q2 hu.le⟩

theorem flPos_pos {x : Rat} (hx : 0 < x) : 0 < flPos x :=
  lt_of_lt_of_le (pow2_pos _) (flPos_range hx).1

theorem flPos_mono {x y : Rat} (hx : 0 < x) (h : x ≤ y) : flPos x ≤ flPos y := by
  have hy : 0 < y := lt_of_lt_of_le hx h
  obtain ⟨x1, x2⟩ := binExp_spec hx
  obtain ⟨y1, y2⟩ := binExp_spec hy
  have hle : binExp x ≤ binExp y := by
    have := pow2_lt_iff.mp (lt_of_le_of_lt (x1.trans h) y2)
    omega
  rcases hle.eq_or_lt with he | hl
  · unfold flPos
    rw [he]
    have hu := pow2_pos (binExp y - 52)
    have : pyRound (x / pow2 (binExp y - 52)) ≤ pyRound (y / pow2 (binExp y - 52)) :=
      pyRound_mono (div_le_div_of_nonneg_right h hu.le)
    exact mul_le_mul_of_nonneg_right (by exact_mod_cast this) hu.le
  · exact (flPos_range hx).2.trans ((pow2_le (by omega)).trans (flPos_range hy).1)

theorem fl_zero : fl 0 = 0 := by simp [fl]

theorem fl_pos {x : Rat} (hx : 0 < x) : fl x = flPos x := by simp [fl, hx]

theorem fl_neg (x : Rat) : fl (-x) = - fl x := by
  unfold fl
  rcases lt_trichotomy x 0 with h | h | h
  · simp [h, not_lt.mpr h.le]
  · simp [h]
  · simp [h, not_lt.mpr h.le]

/-- Rounding is monotone. -/
theorem fl_mono {x y : Rat} (h : x ≤ y) : fl x ≤ fl y := by
  rcases lt_trichotomy x 0 with hx | hx | hx
  · have e : fl x = - flPos (-x) := by rw [← fl_pos (by linarith), fl_neg, neg_neg]
    rw [e]
    have p := flPos_pos (x := -x) (by linarith)
    rcases lt_trichotomy y 0 with hy | hy | hy
    · have e : fl y = - flPos (-y) := by rw [← fl_pos (by linarith), fl_neg, neg_neg]
      rw [e]
      have := flPos_mono (x := -y) (y := -x) (by linarith) (by linarith)
      linarith
    · rw [hy, fl_zero]; linarith
    · rw [fl_pos hy]; linarith [flPos_pos hy]
  · subst hx
    rw [fl_zero]
    rcases h.eq_or_lt with hy | hy
    · rw [← hy, fl_zero]
    · rw [fl_pos hy]; exact (flPos_pos hy).le
  · rw [fl_pos hx, fl_pos (lt_of_lt_of_le hx h)]
    exact flPos_mono hx h

private theorem flPos_err {x : Rat} (hx : 0 < x) : |flPos x - x| ≤ x / 2 ^ 53 := by
  obtain ⟨h1, -⟩ := signif hx
  have hu := pow2_pos (binExp x - 52)
  have hh := pyRound_half (x / pow2 (binExp x - 52))
  unfold flPos
  dsimp only
  generalize hU : pow2 (binExp x - 52) = U at *
  have hxU : x = x / U * U := by field_simp
  generalize hq : x / U = q at *
  generalize pyRound q = r at *
  have hr : |(r : Rat) - q| ≤ q / 2 ^ 53 := by
    have : q / 2 ^ 53 ≥ 1 / 2 := by rw [ge_iff_le, le_div_iff₀ (by norm_num)]; linarith
    rw [abs_le]
    constructor <;> linarith [hh.1, hh.2]
  have e1 : (r : Rat) * U - x = (r - q) * U := by rw [sub_mul, ← hxU]
  have e2 : x / 2 ^ 53 = q / 2 ^ 53 * U := by rw [div_mul_eq_mul_div, ← hxU]
  rw [e1, e2, abs_mul, abs_of_pos hu]
  exact mul_le_mul_of_nonneg_right hr hu.le

/-- The relative error of one rounding is at most `2^-53`. -/
theorem fl_err (x : Rat) : |fl x - x| ≤ |x| / 2 ^ 53 := by
  rcases lt_trichotomy x 0 with hx | hx | hx
  · have e : fl x = - flPos (-x) := by rw [← fl_pos (by linarith), fl_neg, neg_neg]
    have := flPos_err (x := -x) (by linarith)
    rw [e, abs_of_neg hx, show -flPos (-x) - x = -(flPos (-x) - -x) by ring, abs_neg]
    exact this
  · subst hx; simp [fl_zero]
  · rw [fl_pos hx, abs_of_pos hx]; exact flPos_err hx

private theorem flPos_exact {m j : Int} (h0 : 0 < m) (h : m < 2 ^ 53) :
    flPos (m * pow2 j) = m * pow2 j := by
  have hm : (0 : Rat) < m := by exact_mod_cast h0
  have hm' : (m : Rat) < 2 ^ 53 := by exact_mod_cast h
  have hj := pow2_pos j
  have hx : (0 : Rat) < m * pow2 j := mul_pos hm hj
  obtain ⟨h1, -⟩ := binExp_spec hx
  generalize hE : binExp (m * pow2 j) = E at *
  have hle : E ≤ j + 52 := by
    have h3 : pow2 E < pow2 (53 + j) := by
      rw [pow2_add, p53]
      exact lt_of_le_of_lt h1 (mul_lt_mul_of_pos_right hm' hj)
    have := pow2_lt_iff.mp h3
    omega
  obtain ⟨n, hn⟩ : ∃ n : Nat, j = E - 52 + n := ⟨(j - (E - 52)).toNat, by omega⟩
  have hu := pow2_pos (E - 52)
  have hq : (m * pow2 j) / pow2 (E - 52) = ((m * 2 ^ n : Int) : Rat) := by
    rw [hn, pow2_add, show pow2 (n : Int) = (2 : Rat) ^ n by rw [pow2_eq]; simp]
    push_cast
    field_simp
  unfold flPos
  rw [hE]
  dsimp only
  rw [hq]
  simp only [pyRound_int]
  rw [← hq]
  field_simp

/-- Numbers with at most 53 significant bits are kept. -/
theorem fl_exact {x : Rat} (m j : Int) (h : |m| ≤ 2 ^ 53) (hx : x = m * pow2 j) : fl x = x := by
  have key : ∀ m : Int, 0 < m → m ≤ 2 ^ 53 → flPos (m * pow2 j) = m * pow2 j := by
    intro m h0 hm
    rcases hm.eq_or_lt with he | hl
    · have := flPos_exact (m := 2 ^ 52) (j := j + 1) (by norm_num) (by norm_num)
      have e : ((2 ^ 52 : Int) : Rat) * pow2 (j + 1) = m * pow2 j := by
        rw [pow2_add, he, show pow2 1 = 2 by decide +kernel]; push_cast; ring
      rw [← e]; exact this
    · exact flPos_exact h0 hl
  subst hx
  have hj := pow2_pos j
  rcases lt_trichotomy m 0 with h0 | h0 | h0
  · have := key (-m) (by omega) (by rw [abs_of_neg h0] at h; exact h)
    have hpos : (0 : Rat) < ((-m : Int) : Rat) * pow2 j :=
      mul_pos (by exact_mod_cast (by omega : 0 < -m)) hj
    have e : (m : Rat) * pow2 j = -(((-m : Int) : Rat) * pow2 j) := by push_cast; ring
    rw [e, fl_neg, fl_pos hpos, this]
  · subst h0; simp [fl_zero]
  · rw [fl_pos (mul_pos (by exact_mod_cast h0) hj)]
    exact key m h0 (by rw [abs_of_pos h0] at h; exact h)

theorem fl_int {n : Int} (h : |n| ≤ 2 ^ 53) : fl n = n :=
  fl_exact n 0 h (by rw [show pow2 0 = 1 by decide +kernel]; ring)

/-- Rounding twice is rounding once. -/
theorem fl_fl (x : Rat) : fl (fl x) = fl x := by
  have key : ∀ x : Rat, 0 < x → fl (flPos x) = flPos x := by
    intro x hx
    obtain ⟨h1, h2⟩ := signif hx
    refine fl_exact (pyRound (x / pow2 (binExp x - 52))) (binExp x - 52) ?_ rfl
    have r1 : (2 ^ 52 : Int) ≤ pyRound (x / pow2 (binExp x - 52)) := le_pyRound (by exact_mod_cast h1)
    have r2 : pyRound (x / pow2 (binExp x - 52)) ≤ (2 ^ 53 : Int) := pyRound_le (by exact_mod_cast h2.le)
    rw [abs_of_nonneg (by linarith)]
    exact r2
  rcases lt_trichotomy x 0 with hx | hx | hx
  · have e : fl x = - flPos (-x) := by rw [← fl_pos (by linarith), fl_neg, neg_neg]
    rw [e, fl_neg, key _ (by linarith)]
  · subst hx; simp [fl_zero]
  · rw [fl_pos hx, key _ hx]

theorem fl_nonneg {x : Rat} (h : 0 ≤ x) : 0 ≤ fl x := by
  simpa [fl_zero] using fl_mono h

end Verif
