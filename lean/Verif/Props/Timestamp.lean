import Verif.Timestamp
import Verif.Spec.Timestamp
import Verif.Lemmas.Text
import Verif.Lemmas.Media
import Mathlib.Tactic.Linarith
import Mathlib.Algebra.Order.Field.Rat
/-
C60: the timestamps of the manifest (`availabilityStartTime`, `availabilityEndTime`,
`publishTime`) denote the time they are made from.
-/
namespace Verif

open Spec

theorem leapYear_eq (y : Int) :
    leapYear y = decide (y % 4 = 0 ∧ (y % 100 ≠ 0 ∨ y % 400 = 0)) := by
  unfold leapYear
  by_cases h1 : y % 4 = 0 <;> by_cases h2 : y % 100 = 0 <;> by_cases h3 : y % 400 = 0 <;>
    simp [h1, h2, h3]

theorem dateDays_jan (y : Int) : dateDays y 1 1 = 365 * (y - 1970) + (leapDays y - leapDays 1970) := by
  unfold dateDays daysBefore; simp

/-- A year is as long as the time to the next new year. -/
theorem yearLen_eq (y : Int) : dateDays (y + 1) 1 1 = dateDays y 1 1 + yearLen y := by
  rw [dateDays_jan, dateDays_jan]
  unfold yearLen
  rw [leapYear_eq]
  unfold leapDays
  rw [show y + 1 - 1 = y by omega]
  have e4 : y / 4 - (y - 1) / 4 = if y % 4 = 0 then 1 else 0 := by split <;> omega
  have e100 : y / 100 - (y - 1) / 100 = if y % 100 = 0 then 1 else 0 := by split <;> omega
  have e400 : y / 400 - (y - 1) / 400 = if y % 400 = 0 then 1 else 0 := by split <;> omega
  have h1 : y % 400 = 0 → y % 100 = 0 := by omega
  have h2 : y % 100 = 0 → y % 4 = 0 := by omega
  generalize (1970 - 1 : Int) / 4 - (1970 - 1) / 100 + (1970 - 1) / 400 = z
  by_cases c4 : y % 4 = 0 <;> by_cases c100 : y % 100 = 0 <;> by_cases c400 : y % 400 = 0 <;>
    simp only [c4, c100, c400, if_true, if_false] at e4 e100 e400 h1 h2 <;> simp [c4, c100, c400] <;>
    omega

theorem yearLen_pos (y : Int) : 365 ≤ yearLen y := by unfold yearLen; split <;> omega

theorem yearUp_eq (n : Nat) : ∀ (y days : Int), 0 ≤ days → days < 365 * n →
    0 ≤ (yearUp n y days).2 ∧ (yearUp n y days).2 < yearLen (yearUp n y days).1 ∧
    dateDays (yearUp n y days).1 1 1 + (yearUp n y days).2 = dateDays y 1 1 + days := by
  induction n with
  | zero => intro y days h1 h2; omega
  | succ n ih =>
    intro y days h1 h2
    unfold yearUp
    by_cases h : days < yearLen y
    · rw [if_pos h]; exact ⟨h1, h, rfl⟩
    · rw [if_neg h]
      have := yearLen_pos y
      have e := yearLen_eq y
      obtain ⟨i1, i2, i3⟩ := ih (y + 1) (days - yearLen y) (by omega) (by push_cast at h2; omega)
      exact ⟨i1, i2, by rw [i3]; omega⟩

theorem yearDown_eq (n : Nat) : ∀ (y days : Int), days < yearLen y → -n ≤ days →
    0 ≤ (yearDown n y days).2 ∧ (yearDown n y days).2 < yearLen (yearDown n y days).1 ∧
    dateDays (yearDown n y days).1 1 1 + (yearDown n y days).2 = dateDays y 1 1 + days := by
  induction n with
  | zero => intro y days h1 h2; unfold yearDown; exact ⟨by simpa using h2, h1, rfl⟩
  | succ n ih =>
    intro y days h1 h2
    unfold yearDown
    by_cases h : 0 ≤ days
    · rw [if_pos h]; exact ⟨h, h1, rfl⟩
    · rw [if_neg h]
      have := yearLen_pos (y - 1)
      have e := yearLen_eq (y - 1)
      rw [show y - 1 + 1 = y by omega] at e
      obtain ⟨i1, i2, i3⟩ := ih (y - 1) (days + yearLen (y - 1)) (by omega) (by push_cast at h2; omega)
      exact ⟨i1, i2, by rw [i3]; omega⟩

theorem calYear_eq (day : Int) :
    0 ≤ (calYear day).2 ∧ (calYear day).2 < yearLen (calYear day).1 ∧
    dateDays (calYear day).1 1 1 + (calYear day).2 = day := by
  have h0 : dateDays 1970 1 1 = 0 := by decide
  unfold calYear
  split
  · rename_i h
    have := yearUp_eq (day.toNat / 365 + 1) 1970 day h (by push_cast; omega)
    rw [h0] at this
    exact ⟨this.1, this.2.1, by rw [this.2.2]; omega⟩
  · rename_i h
    have hl : yearLen 1970 = 365 := by decide
    have := yearDown_eq day.natAbs 1970 day (by omega) (by omega)
    rw [h0] at this
    exact ⟨this.1, this.2.1, by rw [this.2.2]; omega⟩

/-- The cal_months of a year: all days of the two kinds of year are gone through. -/
theorem cal_months : ∀ leap : Bool, ∀ n < (if leap then 366 else 365),
    let r := calMonth [31, if leap then 29 else 28, 31, 30, 31, 30, 31, 31, 30, 31, 30, 31] 1 (n : Nat)
    1 ≤ r.1 ∧ r.1 ≤ 12 ∧ 0 ≤ r.2 ∧ r.2 ≤ 30 ∧ daysBefore leap r.1 + r.2 = (n : Nat) ∧
    ((n : Nat) : Int) < (if r.1 = 12 then (if leap then 366 else 365) else daysBefore leap (r.1 + 1)) := by
  decide +kernel

/-- The month and the day in it, from the day in the year. -/
theorem calMonth_eq (y day : Int) (h0 : 0 ≤ day) (h1 : day < yearLen y) :
    1 ≤ (calMonth (monthLens y) 1 day).1 ∧ (calMonth (monthLens y) 1 day).1 ≤ 12 ∧
    0 ≤ (calMonth (monthLens y) 1 day).2 ∧ (calMonth (monthLens y) 1 day).2 ≤ 30 ∧
    daysBefore (leapYear y) (calMonth (monthLens y) 1 day).1 + (calMonth (monthLens y) 1 day).2 = day ∧
    day < (if (calMonth (monthLens y) 1 day).1 = 12 then yearLen y
      else daysBefore (leapYear y) ((calMonth (monthLens y) 1 day).1 + 1)) := by
  obtain ⟨n, rfl⟩ := Int.eq_ofNat_of_zero_le h0
  refine cal_months (leapYear y) n ?_
  unfold yearLen at h1
  split at h1 <;> simp_all

theorem digits2_value {n : Int} (h0 : 0 ≤ n) (h1 : n < 100) :
    ∃ a b, digits2 n = [a, b] ∧ twoDigitValue a b = some n := by
  refine ⟨_, _, rfl, ?_⟩
  have key : ∀ k < 10, digitVal (digitChar k) = some k := by decide
  unfold twoDigitValue
  rw [key _ (by omega), key _ (by omega)]
  simp only [Option.some.injEq]
  omega

theorem dateDays_month (y m d : Int) :
    dateDays y m d = dateDays y 1 1 + daysBefore (leapYear y) m + (d - 1) := by
  rw [dateDays_jan, leapYear_eq]; unfold dateDays; ring

/-- C60: a timestamp made from a time is a date that exists in the calendar, and denotes that
time rounded down to a second, whatever the time (also before 1970, for start times that are
negative, and in any year). -/
theorem C60_timestamp (x : Rat) : StampDenotes (makeTimestamp x) x.floor := by
  obtain ⟨y0, y1, y2⟩ := calYear_eq (x.floor / 86400)
  obtain ⟨m0, m1, d0, d1, md, mn⟩ := calMonth_eq _ _ y0 y1
  set Y := calYear (x.floor / 86400)
  set M := calMonth (monthLens Y.1) 1 Y.2
  obtain ⟨a1, a2, ea, va⟩ := digits2_value (n := M.1) (by omega) (by omega)
  obtain ⟨b1, b2, eb, vb⟩ := digits2_value (n := M.2 + 1) (by omega) (by omega)
  obtain ⟨c1, c2, ec, vc⟩ := digits2_value (n := x.floor % 86400 / 3600) (by omega) (by omega)
  obtain ⟨e1, e2, ee, ve⟩ := digits2_value (n := x.floor % 3600 / 60) (by omega) (by omega)
  obtain ⟨f1, f2, ef, vf⟩ := digits2_value (n := x.floor % 60) (by omega) (by omega)
  refine ⟨intText Y.1, a1, a2, b1, b2, c1, c2, e1, e2, f1, f2, Y.1, M.1, M.2 + 1, _, _, _, ?_,
    pyInt_intText _, va, vb, vc, ve, vf, m0, m1, by omega, by omega, ?_, by omega, by omega, by omega, ?_⟩
  · show intText Y.1 ++ '-' :: digits2 M.1 ++ '-' :: digits2 (M.2 + 1) ++
      'T' :: digits2 (x.floor % 86400 / 3600) ++ ':' :: digits2 (x.floor % 3600 / 60) ++
      ':' :: digits2 (x.floor % 60) ++ "Z".toList = _
    rw [ea, eb, ec, ee, ef]
    simp
  · have hy := yearLen_eq Y.1
    rw [dateDays_month Y.1 M.1]
    split at mn
    · rename_i h; rw [if_pos h]; omega
    · rename_i h
      rw [if_neg h, dateDays_month Y.1 (M.1 + 1)]; omega
  · rw [dateDays_month Y.1 M.1]
    omega

theorem denotes_unique {t : Text} {a b : Int} (h : StampDenotes t a) (h' : StampDenotes t b) : a = b := by
  obtain ⟨year, m1, m2, d1, d2, h1, h2, n1, n2, s1, s2, y, m, d, hh, n, s, e, hy, hm, hd, hhh, hn, hs,
    -, -, -, -, -, -, -, -, rfl⟩ := h
  obtain ⟨year', m1', m2', d1', d2', h1', h2', n1', n2', s1', s2', y', m', d', hh', n', s', e', hy', hm',
    hd', hhh', hn', hs', -, -, -, -, -, -, -, -, rfl⟩ := h'
  rw [e] at e'
  obtain ⟨e1, e2⟩ := List.append_inj' e' rfl
  subst e1
  simp only [List.cons.injEq, true_and, and_true] at e2
  obtain ⟨rfl, rfl, rfl, rfl, rfl, rfl, rfl, rfl, rfl, rfl⟩ := e2
  rw [hy] at hy'; rw [hm] at hm'; rw [hd] at hd'; rw [hhh] at hhh'; rw [hn] at hn'; rw [hs] at hs'
  injection hy' with hy'; injection hm' with hm'; injection hd' with hd'; injection hhh' with hhh'
  injection hn' with hn'; injection hs' with hs'
  subst hy'; subst hm'; subst hd'; subst hhh'; subst hn'; subst hs'
  rfl

/-- C60: a client that reads a timestamp gets the second it was made from, and no other: times in
different seconds have different timestamps. -/
theorem C60_unique {x : Rat} {t : Int} (h : StampDenotes (makeTimestamp x) t) : t = x.floor :=
  denotes_unique h (C60_timestamp x)

/-- C60: a leap day, the last second of a century that is no leap year, and a time before 1970. -/
example : makeTimestamp 1709210096 = "2024-02-29T12:34:56Z".toList ∧
    makeTimestamp (4107542399 + 1/2) = "2100-02-28T23:59:59Z".toList ∧
    makeTimestamp (-1/2) = "1969-12-31T23:59:59Z".toList := by decide +kernel

end Verif
