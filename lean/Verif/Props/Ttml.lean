import Verif.Lemmas.Ttml
/-
C40: subtitle times are shifted by exactly the loop offset.
-/
namespace Verif

theorem isLeap_iff (y : Nat) : isLeap y = true ↔ LeapYear y := by
  unfold isLeap LeapYear
  simp only [Bool.and_eq_true, Bool.or_eq_true, decide_eq_true_eq]
  omega

theorem daysBeforeYear_succ (y : Nat) (h : 1 ≤ y) :
    daysBeforeYear (y + 1) = daysBeforeYear y + (if LeapYear y then 366 else 365) := by
  obtain ⟨y, rfl⟩ : ∃ k, y = k + 1 := ⟨y - 1, by omega⟩
  by_cases hl : LeapYear (y + 1)
  · rw [if_pos hl]
    unfold LeapYear at hl
    unfold daysBeforeYear
    omega
  · rw [if_neg hl]
    unfold LeapYear at hl
    unfold daysBeforeYear
    omega

theorem yearOf_spec (f y d : Nat) (hy : 1 ≤ y) (h : d ≤ f) :
    y ≤ (yearOf f y d).1 ∧ daysBeforeYear (yearOf f y d).1 + (yearOf f y d).2 = daysBeforeYear y + d ∧
      (yearOf f y d).2 < (if LeapYear (yearOf f y d).1 then 366 else 365) := by
  induction f generalizing y d with
  | zero =>
    have e : yearOf 0 y d = (y, d) := rfl
    rw [e]
    refine ⟨le_refl _, rfl, ?_⟩
    simp only
    split <;> omega
  | succ f ih =>
    have e : yearOf (f + 1) y d = if d < (if LeapYear y then 366 else 365) then (y, d)
        else yearOf f (y + 1) (d - (if LeapYear y then 366 else 365)) := by
      conv => lhs; unfold yearOf
      simp only [isLeap_iff]
    have hpos : 365 ≤ (if LeapYear y then 366 else 365) := by split <;> omega
    have hs := daysBeforeYear_succ y hy
    rw [e]
    by_cases hd : d < (if LeapYear y then 366 else 365)
    · rw [if_pos hd]
      exact ⟨le_refl _, rfl, hd⟩
    · rw [if_neg hd]
      obtain ⟨h1, h2, h3⟩ := ih (y + 1) (d - (if LeapYear y then 366 else 365)) (by omega) (by omega)
      refine ⟨by omega, ?_, h3⟩
      rw [h2, hs]
      omega

def daysBeforeMonthOf (leap : Bool) (m : Nat) : Nat :=
  [0, 0, 31, 59, 90, 120, 151, 181, 212, 243, 273, 304, 334, 365].getD m 0 +
    (if leap = true ∧ 2 < m then 1 else 0)

theorem daysBeforeMonth_leap (y m : Nat) : daysBeforeMonth y m = daysBeforeMonthOf (isLeap y) m := by
  unfold daysBeforeMonth daysBeforeMonthOf
  simp only [isLeap_iff]

/-- All days of the two kinds of years. -/
theorem month_table : ∀ leap : Bool, ∀ yd < (if leap = true then 366 else 365),
    1 ≤ (monthOf (monthDays leap) 1 yd).1 ∧ (monthOf (monthDays leap) 1 yd).1 ≤ 12 ∧
      1 ≤ (monthOf (monthDays leap) 1 yd).2 ∧
      daysBeforeMonthOf leap (monthOf (monthDays leap) 1 yd).1 + (monthOf (monthDays leap) 1 yd).2 ≤
        daysBeforeMonthOf leap ((monthOf (monthDays leap) 1 yd).1 + 1) ∧
      daysBeforeMonthOf leap (monthOf (monthDays leap) 1 yd).1 + (monthOf (monthDays leap) 1 yd).2 =
        yd + 1 ∧ (monthOf (monthDays leap) 1 yd).2 ≤ 31 := by decide +kernel

theorem monthOf_spec (y yd : Nat) (h : yd < (if LeapYear y then 366 else 365)) (p : Nat × Nat)
    (hp : monthOf (monthDays (isLeap y)) 1 yd = p) :
    1 ≤ p.1 ∧ p.1 ≤ 12 ∧ 1 ≤ p.2 ∧ daysBeforeMonth y p.1 + p.2 ≤ daysBeforeMonth y (p.1 + 1) ∧
      daysBeforeMonth y p.1 + p.2 = yd + 1 ∧ p.2 ≤ 31 := by
  subst hp
  simp only [daysBeforeMonth_leap]
  apply month_table
  simp only [isLeap_iff]
  exact h

theorem pad2_two (n : Nat) (h : n < 100) : Digits (pad2 (n : Int)) ∧ (pad2 (n : Int)).length = 2 ∧
    decVal (pad2 (n : Int)) = n :=
  ⟨(pad2_nat n).1, (pad2_nat n).2.2.1 h, (pad2_nat n).2.1⟩

theorem utcText_isDateTime (n : Nat) : IsDateTime (utcText (n : Int)) n := by
  obtain ⟨a1, a2, a3⟩ := yearOf_spec (n / 86400) 1970 (n / 86400) (by omega) (le_refl _)
  obtain ⟨b1, b2, b3, b4, b5, b6⟩ := monthOf_spec _ _ a3 _ rfl
  obtain ⟨y1, y2, y3⟩ := decBytes_spec (yearOf (n / 86400) 1970 (n / 86400)).1
  unfold utcText
  simp only [Int.toNat_natCast]
  revert a1 a2 a3 b1 b2 b3 b4 b5 b6 y1 y2 y3
  generalize (yearOf (n / 86400) 1970 (n / 86400)).1 = y
  generalize (yearOf (n / 86400) 1970 (n / 86400)).2 = yd
  intro a1 a2 a3
  generalize (monthOf (monthDays (isLeap y)) 1 yd).1 = mo
  generalize (monthOf (monthDays (isLeap y)) 1 yd).2 = d
  intro b1 b2 b3 b4 b5 b6 y1 y2 y3
  obtain ⟨m1, m2, m3⟩ := pad2_two mo (by omega)
  obtain ⟨d1, d2, d3⟩ := pad2_two d (by omega)
  obtain ⟨h1, h2, h3⟩ := pad2_two (n % 86400 / 3600) (by omega)
  obtain ⟨n1, n2, n3⟩ := pad2_two (n % 86400 / 60 % 60) (by omega)
  obtain ⟨s1, s2, s3⟩ := pad2_two (n % 86400 % 60) (by omega)
  refine ⟨_, _, _, _, _, _, rfl, y1, m1, d1, h1, n1, s1, y3, m2, d2, h2, n2, s2, ?_⟩
  rw [y2, m3, d3, h3, n3, s3]
  refine ⟨a1, b1, b2, b3, b4, by omega, by omega, by omega, ?_⟩
  have : daysBeforeYear y + daysBeforeMonth y mo + (d - 1) = daysBeforeYear 1970 + n / 86400 := by omega
  rw [this]
  generalize daysBeforeYear 1970 = c
  omega

theorem matchAttr_iff (attr : Bytes) (offset : Nat) (x new : Bytes) (k : Nat) :
    matchAttr attr offset x = some (new, k) ↔
      ∃ t r n, x = attr ++ [61, 34] ++ t ++ r ∧ IsClock t n ∧
        new = attr ++ [61, 34] ++ shiftedTime ((n + offset : Nat) : Int) ∧ k = attr.length + 10 := by
  unfold matchAttr
  constructor
  · intro h
    split at h
    · cases h
    · rename_i y hy
      split at h
      · cases h
      · rename_i total r hc
        cases h
        rw [stripLit_iff] at hy
        obtain ⟨t, rfl, ht⟩ := (clockAt_iff _ _ _).mp hc
        exact ⟨t, r, total, by rw [hy]; simp, ht, by push_cast; rfl, rfl⟩
  · rintro ⟨t, r, n, rfl, ht, rfl, rfl⟩
    have e1 : stripLit (attr ++ [61, 34]) (attr ++ [61, 34] ++ t ++ r) = some (t ++ r) :=
      (stripLit_iff _ _ _).mpr (by simp)
    rw [e1]
    simp only
    rw [(clockAt_iff _ _ _).mpr ⟨t, rfl, ht⟩]
    simp only
    push_cast
    rfl

theorem matchTime_sound (offset : Nat) (x new : Bytes) (n : Nat) (h : matchTime offset x = some (new, n)) :
    ∃ old rest, x = old ++ rest ∧ old.length = n ∧ old ≠ [] ∧ TimeShift offset old rest new := by
  unfold matchTime at h
  split at h
  · rename_i r hr
    cases h
    obtain ⟨t, r, m, h1, h2, h3, h4⟩ := (matchAttr_iff _ _ _ _ _).mp hr
    refine ⟨[98, 101, 103, 105, 110] ++ [61, 34] ++ t, r, h1, ?_, by simp, _, t, _, m, Or.inl rfl, rfl, h3, h2,
      shiftedTime_isTime _⟩
    rw [h4]; simp [isClock_length h2]
  · obtain ⟨t, r, m, h1, h2, h3, h4⟩ := (matchAttr_iff _ _ _ _ _).mp h
    refine ⟨[101, 110, 100] ++ [61, 34] ++ t, r, h1, ?_, by simp, _, t, _, m, Or.inr rfl, rfl, h3, h2,
      shiftedTime_isTime _⟩
    rw [h4]; simp [isClock_length h2]

theorem matchTime_complete (offset : Nat) (x : Bytes) (h : matchTime offset x = none) (old rest new : Bytes)
    (hx : x = old ++ rest) : ¬ TimeShift offset old rest new := by
  rintro ⟨a, t, t', n, ha, rfl, _, hc, _⟩
  unfold matchTime at h
  split at h
  · cases h
  · rename_i hb
    rcases ha with rfl | rfl
    · have := (matchAttr_iff [98, 101, 103, 105, 110] offset x _ _).mpr
        ⟨t, rest, n, by rw [hx]; rfl, hc, rfl, rfl⟩
      rw [this] at hb
      cases hb
    · have := (matchAttr_iff [101, 110, 100] offset x _ _).mpr ⟨t, rest, n, by rw [hx]; rfl, hc, rfl, rfl⟩
      rw [this] at h
      cases h

theorem of_mem_takeWhile {p : UInt8 → Bool} : ∀ {x : Bytes} {b : UInt8}, b ∈ x.takeWhile p → p b = true
  | [], b, h => by simp at h
  | a :: x, b, h => by
    rw [List.takeWhile_cons] at h
    split at h
    · rename_i ha
      rcases List.mem_cons.mp h with rfl | h
      · exact ha
      · exact of_mem_takeWhile h
    · simp at h

theorem takeWhile_digits (x : Bytes) : Digits (x.takeWhile isDigitB) := by
  intro b hb
  exact (isDigitB_iff b).mp (of_mem_takeWhile hb)

theorem takeWhile_maximal {p : UInt8 → Bool} (x : Bytes) (d : UInt8) (r : Bytes)
    (h : x.dropWhile p = d :: r) : ¬ p d = true := by
  intro hc
  have := List.head_dropWhile_not p (l := x) (by rw [h]; simp)
  simp only [h, List.head_cons] at this
  rw [hc] at this
  cases this

theorem takeWhile_exact {p : UInt8 → Bool} (w r : Bytes) (hw : ∀ b ∈ w, p b = true)
    (hr : ∀ d s, r = d :: s → ¬ p d = true) : (w ++ r).takeWhile p = w := by
  rw [List.takeWhile_append_of_pos hw]
  cases r with
  | nil => simp
  | cons d s =>
    rw [List.takeWhile_cons_of_neg (hr d s rfl)]
    simp

theorem digits_iff_all (ds : Bytes) : Digits ds ↔ ∀ b ∈ ds, isDigitB b = true := by
  unfold Digits
  constructor <;> intro h b hb
  · exact (isDigitB_iff b).mpr (h b hb)
  · exact (isDigitB_iff b).mp (h b hb)

theorem fraction_iff (x : Bytes) :
    ∃ f r, x = f ++ r ∧ f.length = fractionLen x ∧
      (f = [] ∧ (∀ d s, r = 46 :: d :: s → ¬ Digits [d]) ∨
        (∃ ds, f = 46 :: ds ∧ Digits ds ∧ ds ≠ [] ∧ ∀ d s, r = d :: s → ¬ Digits [d])) := by
  unfold fractionLen
  split
  · exact ⟨[], [], rfl, rfl, Or.inl ⟨rfl, by simp⟩⟩
  · rename_i b r
    split
    · rename_i h
      obtain ⟨rfl, h2⟩ := h
      refine ⟨46 :: r.takeWhile isDigitB, r.dropWhile isDigitB, by simp, by simp,
        Or.inr ⟨_, rfl, takeWhile_digits r, h2, ?_⟩⟩
      intro d s hd hc
      exact takeWhile_maximal r d s hd ((isDigitB_iff d).mpr (hc d (by simp)))
    · rename_i h
      refine ⟨[], b :: r, rfl, rfl, Or.inl ⟨rfl, ?_⟩⟩
      intro d s hd hc
      obtain ⟨rfl, rfl⟩ := List.cons.inj hd
      apply h
      refine ⟨rfl, ?_⟩
      rw [List.takeWhile_cons_of_pos ((isDigitB_iff d).mpr (hc d (by simp)))]
      simp

theorem matchContent_sound (offset : Nat) (x new : Bytes) (n : Nat) (h : matchContent offset x = some (new, n)) :
    ∃ old rest, x = old ++ rest ∧ old.length = n ∧ old ≠ [] ∧ ClockText offset old rest new := by
  unfold matchContent at h
  simp only at h
  split at h
  · cases h
  · rename_i hw
    split at h
    · cases h
    · rename_i y hy
      split at h
      · cases h
      · rename_i total r hc
        cases h
        rw [stripLit_iff] at hy
        obtain ⟨t, rfl, ht⟩ := (clockAt_iff _ _ _).mp hc
        obtain ⟨f, r', rfl, hl, hf⟩ := fraction_iff r
        have hx : x = x.takeWhile isWordB ++ [32, 58, 32] ++ t ++ f ++ r' := by
          have hd : x.drop (x.takeWhile isWordB).length = x.dropWhile isWordB := by
            conv => lhs; arg 2; rw [← List.takeWhile_append_dropWhile (p := isWordB) (l := x)]
            rw [List.drop_left]
          rw [hd] at hy
          conv => lhs; rw [← List.takeWhile_append_dropWhile (p := isWordB) (l := x), hy]
          simp
        refine ⟨_, r', hx, ?_, ?_, x.takeWhile isWordB, t, f, total, ?_, hw, ht, hf, rfl, _, ?_, utcText_isDateTime _⟩
        · simp [isClock_length ht, hl]; omega
        · simp
        · intro b hb; exact of_mem_takeWhile hb
        · push_cast; rfl

theorem matchContent_complete (offset : Nat) (x : Bytes) (h : matchContent offset x = none)
    (old rest new : Bytes) (hx : x = old ++ rest) : ¬ ClockText offset old rest new := by
  rintro ⟨w, t, f, n, hw, hne, ht, _, rfl, _⟩
  have htw : x.takeWhile isWordB = w := by
    rw [hx, show w ++ [32, 58, 32] ++ t ++ f ++ rest = w ++ ([32, 58, 32] ++ t ++ f ++ rest) by simp]
    apply takeWhile_exact w _ hw
    intro d s hd
    cases hd
    decide
  unfold matchContent at h
  simp only [htw] at h
  rw [if_neg hne] at h
  have e1 : stripLit [32, 58, 32] (x.drop w.length) = some (t ++ (f ++ rest)) := by
    rw [stripLit_iff, hx,
      show w ++ [32, 58, 32] ++ t ++ f ++ rest = w ++ ([32, 58, 32] ++ (t ++ (f ++ rest))) by simp,
      List.drop_left]
  rw [e1] at h
  simp only at h
  rw [(clockAt_iff _ _ _).mpr ⟨t, rfl, ht⟩] at h
  cases h

theorem matchSegment_sound (segNr : Nat) (x new : Bytes) (n : Nat) (h : matchSegment segNr x = some (new, n)) :
    ∃ old rest, x = old ++ rest ∧ old.length = n ∧ old ≠ [] ∧ SegmentText segNr old rest new := by
  unfold matchSegment at h
  split at h
  · cases h
  · rename_i y hy
    split at h
    · cases h
    · rename_i hne
      cases h
      rw [stripLit_iff] at hy
      obtain ⟨d1, d2, d3⟩ := decBytes_spec segNr
      refine ⟨segIntro ++ y.takeWhile isDigitB, y.dropWhile isDigitB, by rw [hy]; simp, ?_, by simp [segIntro],
        y.takeWhile isDigitB, decBytes segNr, takeWhile_digits y, hne, ?_, rfl, by rw [decInt_nat], d1, d3, d2⟩
      · simp [segIntro]; omega
      · intro d s hd hc
        exact takeWhile_maximal y d s hd ((isDigitB_iff d).mpr (hc d (by simp)))

theorem matchSegment_complete (segNr : Nat) (x : Bytes) (h : matchSegment segNr x = none)
    (old rest new : Bytes) (hx : x = old ++ rest) : ¬ SegmentText segNr old rest new := by
  rintro ⟨ds, ds', hd, hne, _, rfl, _⟩
  unfold matchSegment at h
  rw [(stripLit_iff _ _ _).mpr (show x = segIntro ++ (ds ++ rest) by rw [hx]; simp)] at h
  simp only at h
  split at h
  · rename_i hc
    obtain ⟨a, l, rfl⟩ := List.exists_cons_of_ne_nil hne
    rw [List.cons_append, List.takeWhile_cons_of_pos ((isDigitB_iff a).mpr (hd a (by simp)))] at hc
    cases hc
  · cases h

/-- **C40, what is changed.** For every text, offset and segment number the result is reached in three
steps: every `begin="hh:mm:ss` and `end="hh:mm:ss` is shifted by exactly the offset and written
normalised, then every word followed by ` : hh:mm:ss` gets the shifted time as a date, then every
`Segment # n` gets the number of the segment. Everything else stays as it is. -/
theorem C40_rewrites (offset segNr : Nat) (x : Bytes) :
    ∃ y z, Rewrites (TimeShift offset) x y ∧ Rewrites (ClockText offset) y z ∧
      Rewrites (SegmentText segNr) z (adjustTtml offset segNr x) :=
  ⟨_, _, subAll_rewrites _ _ (matchTime_sound offset) (matchTime_complete offset) x,
    subAll_rewrites _ _ (matchContent_sound offset) (matchContent_complete offset) _,
    subAll_rewrites _ _ (matchSegment_sound segNr) (matchSegment_complete segNr) _⟩

/-- The text of a time attribute: attribute, hour digits, minutes and seconds. -/
def AttrText (isBegin : Bool) (h ms : Bytes) (n : Nat) (x : Bytes) : Prop :=
  x = (if isBegin then [98, 101, 103, 105, 110, 61, 34] else [101, 110, 100, 61, 34]) ++ h ++ ms ∧
    Digits h ∧ 2 ≤ h.length ∧
    ∃ m1 m2 s1 s2, ms = [58, m1, m2, 58, s1, s2] ∧ Digits [m1, m2, s1, s2] ∧
      n = decVal h * 3600 + (decVal [m1, m2] * 60 + decVal [s1, s2])

theorem minutesAt_iff (x : Bytes) (n : Nat) :
    minutesAt x = some n ↔ ∃ m1 m2 s1 s2 r, x = [58, m1, m2, 58, s1, s2] ++ r ∧ Digits [m1, m2, s1, s2] ∧
      n = decVal [m1, m2] * 60 + decVal [s1, s2] := by
  unfold minutesAt
  constructor
  · intro h
    split at h
    · rename_i c m1 m2 d s1 s2 r
      split at h
      · rename_i hc
        obtain ⟨rfl, rfl, hd⟩ := hc
        cases h
        exact ⟨m1, m2, s1, s2, r, rfl, hd, rfl⟩
      · cases h
    · cases h
  · rintro ⟨m1, m2, s1, s2, r, rfl, hd, rfl⟩
    show (if (58 : UInt8) = 58 ∧ (58 : UInt8) = 58 ∧ Digits [m1, m2, s1, s2] then
      some (decVal [m1, m2] * 60 + decVal [s1, s2]) else none) = _
    rw [if_pos ⟨rfl, rfl, hd⟩]

theorem digits_takeWhile (h r : Bytes) (hh : Digits h) :
    (h ++ 58 :: r).takeWhile isDigitB = h ∧ (h ++ 58 :: r).dropWhile isDigitB = 58 :: r := by
  have e := takeWhile_exact h (58 :: r) ((digits_iff_all h).mp hh)
    (by intro d s hd; cases hd; decide)
  refine ⟨e, ?_⟩
  have e2 := List.takeWhile_append_dropWhile (p := isDigitB) (l := h ++ 58 :: r)
  rw [e] at e2
  exact List.append_cancel_left e2

theorem timeAt_iff (x : Bytes) (k n : Nat) :
    timeAt x = some (k, n) ↔ ∃ h m1 m2 s1 s2 r, x = h ++ [58, m1, m2, 58, s1, s2] ++ r ∧ Digits h ∧
      2 ≤ h.length ∧ k = h.length ∧ Digits [m1, m2, s1, s2] ∧
      n = decVal h * 3600 + (decVal [m1, m2] * 60 + decVal [s1, s2]) := by
  unfold timeAt
  constructor
  · intro h
    split at h
    · cases h
    · rename_i n' hm
      simp only at h
      split at h
      · rename_i hl
        cases h
        obtain ⟨m1, m2, s1, s2, r, h1, h2, h3⟩ := (minutesAt_iff _ _).mp hm
        refine ⟨x.takeWhile isDigitB, m1, m2, s1, s2, r, ?_, takeWhile_digits x, hl, rfl, h2, by rw [h3]⟩
        conv => lhs; rw [← List.takeWhile_append_dropWhile (p := isDigitB) (l := x), h1]
        simp
      · cases h
  · rintro ⟨h, m1, m2, s1, s2, r, rfl, hd, hl, rfl, hd2, rfl⟩
    have e := digits_takeWhile h ([m1, m2, 58, s1, s2] ++ r) hd
    have e0 : h ++ [58, m1, m2, 58, s1, s2] ++ r = h ++ 58 :: ([m1, m2, 58, s1, s2] ++ r) := by simp
    rw [e0, e.1, e.2]
    rw [(minutesAt_iff (58 :: ([m1, m2, 58, s1, s2] ++ r)) _).mpr ⟨m1, m2, s1, s2, r, rfl, hd2, rfl⟩]
    simp only
    rw [if_pos hl]

theorem attrAt_iff (x : Bytes) (b : Bool) (k n : Nat) :
    attrAt x = some (b, k, n) ↔ ∃ h ms t r, AttrText b h ms n t ∧ k = h.length ∧ x = t ++ r := by
  unfold attrAt
  constructor
  · intro hx
    split at hx
    · rename_i y hy
      rw [stripLit_iff] at hy
      cases ht : timeAt y with
      | none => rw [ht] at hx; cases hx
      | some t =>
        obtain ⟨k', n'⟩ := t
        rw [ht] at hx
        cases hx
        obtain ⟨h, m1, m2, s1, s2, r, rfl, hd, hl, hk, hd2, hn⟩ := (timeAt_iff _ _ _).mp ht
        exact ⟨h, _, _, r, ⟨rfl, hd, hl, m1, m2, s1, s2, rfl, hd2, hn⟩, hk, by rw [hy]; simp⟩
    · rename_i y _ hy
      rw [stripLit_iff] at hy
      cases ht : timeAt y with
      | none => rw [ht] at hx; cases hx
      | some t =>
        obtain ⟨k', n'⟩ := t
        rw [ht] at hx
        cases hx
        obtain ⟨h, m1, m2, s1, s2, r, rfl, hd, hl, hk, hd2, hn⟩ := (timeAt_iff _ _ _).mp ht
        exact ⟨h, _, _, r, ⟨rfl, hd, hl, m1, m2, s1, s2, rfl, hd2, hn⟩, hk, by rw [hy]; simp⟩
    · cases hx
  · rintro ⟨h, ms, t, r, ⟨rfl, hd, hl, m1, m2, s1, s2, rfl, hd2, hn⟩, hk, rfl⟩
    have ht : timeAt (h ++ [58, m1, m2, 58, s1, s2] ++ r) = some (k, n) :=
      (timeAt_iff _ _ _).mpr ⟨h, m1, m2, s1, s2, r, rfl, hd, hl, hk, hd2, hn⟩
    cases b with
    | true =>
      have e : stripLit [98, 101, 103, 105, 110, 61, 34]
          ((if true = true then [98, 101, 103, 105, 110, 61, 34] else [101, 110, 100, 61, 34]) ++ h ++
            [58, m1, m2, 58, s1, s2] ++ r) = some (h ++ [58, m1, m2, 58, s1, s2] ++ r) :=
        (stripLit_iff _ _ _).mpr (by simp)
      rw [e]
      simp only
      rw [ht]
      rfl
    | false =>
      have e : stripLit [101, 110, 100, 61, 34]
          ((if false = true then [98, 101, 103, 105, 110, 61, 34] else [101, 110, 100, 61, 34]) ++ h ++
            [58, m1, m2, 58, s1, s2] ++ r) = some (h ++ [58, m1, m2, 58, s1, s2] ++ r) :=
        (stripLit_iff _ _ _).mpr (by simp)
      have e2 : stripLit [98, 101, 103, 105, 110, 61, 34]
          ((if false = true then [98, 101, 103, 105, 110, 61, 34] else [101, 110, 100, 61, 34]) ++ h ++
            [58, m1, m2, 58, s1, s2] ++ r) = none := by
        simp [stripLit]
      rw [e, e2]
      simp only
      rw [ht]
      rfl

/-- Bytes that do not start a time attribute. -/
def Inert (q : Bytes) : Prop := ∀ b ∈ q, b ≠ 98 ∧ b ≠ 101

theorem attrAt_other (b : UInt8) (r : Bytes) (h1 : b ≠ 98) (h2 : b ≠ 101) : attrAt (b :: r) = none := by
  unfold attrAt
  simp [stripLit, h1.symm, h2.symm]

theorem attrAt_eg (r : Bytes) : attrAt (101 :: 103 :: r) = none := by
  unfold attrAt
  simp [stripLit]

theorem attrTimes_inert (q y : Bytes) (h : Inert q) : attrTimes (q ++ y) = attrTimes y := by
  induction q with
  | nil => rfl
  | cons b q ih =>
    have hb := h b (by simp)
    rw [List.cons_append]
    conv => lhs; unfold attrTimes
    rw [attrAt_other b _ hb.1 hb.2, ih (fun c hc => h c (by simp [hc]))]
    rfl

theorem Digits.inert {q : Bytes} (h : Digits q) : Inert q := by
  intro b hb
  have := h b hb
  constructor <;> rintro rfl <;> revert this <;> decide

theorem Inert.append {p q : Bytes} (hp : Inert p) (hq : Inert q) : Inert (p ++ q) := by
  intro b hb
  rcases List.mem_append.mp hb with hb | hb
  · exact hp b hb
  · exact hq b hb

theorem inert_lit {q : Bytes} (h : q.all (fun b => decide (b ≠ 98 ∧ b ≠ 101)) = true) : Inert q := by
  intro b hb
  have := List.all_eq_true.mp h b hb
  simpa using this

theorem AttrText.times {b : Bool} {h ms : Bytes} {n : Nat} {t : Bytes} (ht : AttrText b h ms n t) (r : Bytes) :
    attrTimes (t ++ r) = (b, h.length, n) :: attrTimes r := by
  have hat : attrAt (t ++ r) = some (b, h.length, n) := (attrAt_iff _ _ _ _).mpr ⟨h, ms, t, r, ht, rfl, rfl⟩
  obtain ⟨rfl, hd, _, m1, m2, s1, s2, rfl, hd2, _⟩ := ht
  have hin : Inert (h ++ [58, m1, m2, 58, s1, s2]) := by
    apply Inert.append hd.inert
    have := hd2.inert
    intro c hc
    simp only [List.mem_cons, List.not_mem_nil, or_false] at hc
    rcases hc with rfl | rfl | rfl | rfl | rfl | rfl
    · decide
    · exact this _ (by simp)
    · exact this _ (by simp)
    · decide
    · exact this _ (by simp)
    · exact this _ (by simp)
  cases b with
  | true =>
    have e : attrTimes ((if true = true then [98, 101, 103, 105, 110, 61, 34] else [101, 110, 100, 61, 34]) ++ h ++
        [58, m1, m2, 58, s1, s2] ++ r) = (attrAt ((if true = true then [98, 101, 103, 105, 110, 61, 34]
          else [101, 110, 100, 61, 34]) ++ h ++ [58, m1, m2, 58, s1, s2] ++ r)).toList ++
          attrTimes ([101, 103, 105, 110, 61, 34] ++ h ++ [58, m1, m2, 58, s1, s2] ++ r) := rfl
    rw [e, hat]
    have e2 : attrTimes ([101, 103, 105, 110, 61, 34] ++ h ++ [58, m1, m2, 58, s1, s2] ++ r) =
        (attrAt (101 :: 103 :: ([105, 110, 61, 34] ++ h ++ [58, m1, m2, 58, s1, s2] ++ r))).toList ++
          attrTimes ([103, 105, 110, 61, 34] ++ h ++ [58, m1, m2, 58, s1, s2] ++ r) := rfl
    rw [e2, attrAt_eg]
    have e3 : [103, 105, 110, 61, 34] ++ h ++ [58, m1, m2, 58, s1, s2] ++ r =
        ([103, 105, 110, 61, 34] ++ (h ++ [58, m1, m2, 58, s1, s2])) ++ r := by simp
    rw [e3, attrTimes_inert _ _ (Inert.append (inert_lit (by decide)) hin)]
    rfl
  | false =>
    have e : attrTimes ((if false = true then [98, 101, 103, 105, 110, 61, 34] else [101, 110, 100, 61, 34]) ++ h ++
        [58, m1, m2, 58, s1, s2] ++ r) = (attrAt ((if false = true then [98, 101, 103, 105, 110, 61, 34]
          else [101, 110, 100, 61, 34]) ++ h ++ [58, m1, m2, 58, s1, s2] ++ r)).toList ++
          attrTimes ([110, 100, 61, 34] ++ h ++ [58, m1, m2, 58, s1, s2] ++ r) := rfl
    rw [e, hat]
    have e3 : [110, 100, 61, 34] ++ h ++ [58, m1, m2, 58, s1, s2] ++ r =
        ([110, 100, 61, 34] ++ (h ++ [58, m1, m2, 58, s1, s2])) ++ r := by simp
    rw [e3, attrTimes_inert _ _ (Inert.append (inert_lit (by decide)) hin)]
    rfl

theorem two_bytes {l : Bytes} (h : l.length = 2) : ∃ a b, l = [a, b] := by
  match l, h with
  | [a, b], _ => exact ⟨a, b, rfl⟩

theorem IsClock.attrText {a t : Bytes} {n : Nat} (ha : IsAttr a) (ht : IsClock t n) :
    ∃ b h ms, AttrText b h ms n (a ++ t) ∧ h.length = 2 ∧
      a = (if b then [98, 101, 103, 105, 110, 61, 34] else [101, 110, 100, 61, 34]) := by
  obtain ⟨h, m, s, rfl, hh, hm, hs, h2, m2, s2, hn⟩ := ht
  obtain ⟨ma, mb, rfl⟩ := two_bytes m2
  obtain ⟨sa, sb, rfl⟩ := two_bytes s2
  have hd : Digits [ma, mb, sa, sb] := Digits.append hm hs
  rcases ha with rfl | rfl
  · exact ⟨true, h, [58, ma, mb, 58, sa, sb], ⟨by simp, hh, by omega, ma, mb, sa, sb, rfl, hd, by rw [hn, Nat.add_assoc]⟩, h2, rfl⟩
  · exact ⟨false, h, [58, ma, mb, 58, sa, sb], ⟨by simp, hh, by omega, ma, mb, sa, sb, rfl, hd, by rw [hn, Nat.add_assoc]⟩, h2, rfl⟩

theorem IsTime.attrText {t : Bytes} {n : Nat} (b : Bool) (ht : IsTime t n) :
    ∃ h ms, AttrText b h ms n ((if b then [98, 101, 103, 105, 110, 61, 34] else [101, 110, 100, 61, 34]) ++ t) := by
  obtain ⟨h, m, s, rfl, hh, hm, hs, h2, m2, s2, _, _, hn⟩ := ht
  obtain ⟨ma, mb, rfl⟩ := two_bytes m2
  obtain ⟨sa, sb, rfl⟩ := two_bytes s2
  have hd : Digits [ma, mb, sa, sb] := Digits.append hm hs
  exact ⟨h, [58, ma, mb, 58, sa, sb], by simp, hh, by omega, ma, mb, sa, sb, rfl, hd, by rw [hn, Nat.add_assoc]⟩

/-- Heads of rewritten texts. -/
theorem rewrites_peel {offset : Nat} {x y : Bytes} (hr : Rewrites (TimeShift offset) x y) (c : UInt8) (s : Bytes)
    (hy : y = c :: s) :
    (∃ r, x = c :: r ∧ Rewrites (TimeShift offset) r s) ∨
      (∃ s', y = 98 :: s') ∨ (∃ s', y = 101 :: 110 :: s') := by
  cases hr with
  | nil => cases hy
  | keep b r r' h hr =>
    cases hy
    exact Or.inl ⟨r, rfl, hr⟩
  | replace old rest new rest' h hr =>
    right
    obtain ⟨a, t, t', n, ha, _, rfl, _⟩ := h
    rcases ha with rfl | rfl
    · left; exact ⟨_, rfl⟩
    · right; exact ⟨_, rfl⟩

theorem rewrites_peel_inert {offset : Nat} (p : Bytes) (hp : Inert p) :
    ∀ {x s : Bytes}, Rewrites (TimeShift offset) x (p ++ s) →
      ∃ r, x = p ++ r ∧ Rewrites (TimeShift offset) r s := by
  induction p with
  | nil => intro x s h; exact ⟨x, rfl, h⟩
  | cons c p ih =>
    intro x s h
    have hc := hp c (by simp)
    rcases rewrites_peel h c (p ++ s) rfl with ⟨r, rfl, hr⟩ | ⟨s', hs⟩ | ⟨s', hs⟩
    · obtain ⟨r', rfl, hr'⟩ := ih (fun b hb => hp b (by simp [hb])) hr
      exact ⟨r', rfl, hr'⟩
    · rw [List.cons_append] at hs
      exact absurd (List.cons.inj hs).1 hc.1
    · rw [List.cons_append] at hs
      exact absurd (List.cons.inj hs).1 hc.2

theorem inert_time {h : Bytes} {m1 m2 s1 s2 : UInt8} (hd : Digits h) (hd2 : Digits [m1, m2, s1, s2]) :
    Inert (h ++ [58, m1, m2, 58, s1, s2]) := by
  apply Inert.append hd.inert
  have := hd2.inert
  intro c hc
  simp only [List.mem_cons, List.not_mem_nil, or_false] at hc
  rcases hc with rfl | rfl | rfl | rfl | rfl | rfl
  · decide
  · exact this _ (by simp)
  · exact this _ (by simp)
  · decide
  · exact this _ (by simp)
  · exact this _ (by simp)

/-- A kept byte that starts an attribute in the result started it before. -/
theorem rewrites_attr {offset : Nat} {r r' : Bytes} (c : UInt8) (hr : Rewrites (TimeShift offset) r r')
    (v : Bool × Nat × Nat) (ha : attrAt (c :: r') = some v) : attrAt (c :: r) = some v := by
  obtain ⟨b, k, n⟩ := v
  obtain ⟨h, ms, t, q, ht, hk, hx⟩ := (attrAt_iff _ _ _ _).mp ha
  have ht0 := ht
  obtain ⟨rfl, hd, hl, m1, m2, s1, s2, rfl, hd2, hn⟩ := ht
  have hin := inert_time hd hd2
  cases b with
  | true =>
    have hx' : c :: r' = 98 :: 101 :: 103 :: (([105, 110, 61, 34] ++ (h ++ [58, m1, m2, 58, s1, s2])) ++ q) := by
      rw [hx]; simp
    obtain ⟨rfl, rfl⟩ := List.cons.inj hx'
    rcases rewrites_peel hr _ _ rfl with ⟨r1, rfl, hr1⟩ | ⟨s', hs⟩ | ⟨s', hs⟩
    · have hp : Inert ([103] ++ ([105, 110, 61, 34] ++ (h ++ [58, m1, m2, 58, s1, s2]))) :=
        Inert.append (inert_lit (by decide)) (Inert.append (inert_lit (by decide)) hin)
      obtain ⟨r2, rfl, _⟩ := rewrites_peel_inert _ hp (s := q) (x := r1) hr1
      exact (attrAt_iff _ _ _ _).mpr ⟨h, _, _, r2, ht0, hk, by simp⟩
    · cases hs
    · cases hs
  | false =>
    have hx' : c :: r' = 101 :: (([110, 100, 61, 34] ++ (h ++ [58, m1, m2, 58, s1, s2])) ++ q) := by
      rw [hx]; simp
    obtain ⟨rfl, rfl⟩ := List.cons.inj hx'
    obtain ⟨r2, rfl, _⟩ := rewrites_peel_inert _ (Inert.append (inert_lit (by decide)) hin) hr
    exact (attrAt_iff _ _ _ _).mpr ⟨h, _, _, r2, ht0, hk, by simp⟩

/-- Shifting the attributes of a text shifts the list of its times. -/
theorem timeShift_times {offset : Nat} {x y : Bytes} (hr : Rewrites (TimeShift offset) x y)
    (h2 : ∀ a ∈ attrTimes x, a.2.1 = 2) :
    (attrTimes y).map (fun a => (a.1, a.2.2)) = (attrTimes x).map fun a => (a.1, a.2.2 + offset) := by
  induction hr with
  | nil => rfl
  | keep c r r' h hr ih =>
    have ha : attrAt (c :: r) = none := by
      cases hc : attrAt (c :: r) with
      | none => rfl
      | some v =>
        exfalso
        obtain ⟨b, k, n⟩ := v
        have hk : k = 2 := h2 (b, k, n) (by unfold attrTimes; rw [hc]; simp)
        obtain ⟨hh, ms, t, q, ht, hk', hx⟩ := (attrAt_iff _ _ _ _).mp hc
        obtain ⟨rfl, hd, hl, m1, m2, s1, s2, rfl, hd2, hn⟩ := ht
        refine h _ q _ hx ⟨(if b then [98, 101, 103, 105, 110, 61, 34] else [101, 110, 100, 61, 34]),
          hh ++ [58, m1, m2, 58, s1, s2], shiftedTime ((n + offset : Nat) : Int), n, ?_, by simp, rfl, ?_,
          shiftedTime_isTime _⟩
        · cases b
          · exact Or.inr rfl
          · exact Or.inl rfl
        · have hn' : n = decVal hh * 3600 + decVal [m1, m2] * 60 + decVal [s1, s2] := by rw [hn, Nat.add_assoc]
          refine ⟨hh, [m1, m2], [s1, s2], by simp, hd, ?_, ?_, by rw [← hk', hk], rfl, rfl, hn'⟩
          · intro b hb; exact hd2 b (by revert hb; simp; tauto)
          · intro b hb; exact hd2 b (by revert hb; simp; tauto)
    have ha' : attrAt (c :: r') = none := by
      cases hc : attrAt (c :: r') with
      | none => rfl
      | some v =>
        have := rewrites_attr c hr v hc
        rw [ha] at this
        cases this
    unfold attrTimes
    rw [ha, ha']
    apply ih
    intro a hm
    apply h2
    unfold attrTimes
    exact List.mem_append_right _ hm
  | replace old rest new rest' h hr ih =>
    obtain ⟨a, t, t', n, hattr, rfl, rfl, hc, ht⟩ := h
    obtain ⟨b, hh, ms, hat, _, rfl⟩ := IsClock.attrText hattr hc
    obtain ⟨hh', ms', hat'⟩ := IsTime.attrText b ht
    rw [hat.times] at h2 ⊢
    rw [hat'.times]
    simp only [List.map_cons]
    rw [ih (fun a ha => h2 a (by simp [ha]))]

/-- A replacement that changes nothing up to a space, and has only harmless bytes after it. -/
def AfterSpace (m : Bytes → Bytes → Bytes → Prop) : Prop :=
  ∀ old rest new, m old rest new → ∃ p q q', old = p ++ 32 :: q ∧ new = p ++ 32 :: q' ∧ Inert q ∧ Inert q' ∧
    ∀ b ∈ p, b ≠ 32

theorem attrText_noSpace {b : Bool} {h ms : Bytes} {n : Nat} {t : Bytes} (ht : AttrText b h ms n t) :
    ∀ c ∈ t, c ≠ 32 := by
  obtain ⟨rfl, hd, _, m1, m2, s1, s2, rfl, hd2, _⟩ := ht
  intro c hc
  have hdig : ∀ {q : Bytes}, Digits q → ∀ c ∈ q, c ≠ 32 := by
    intro q hq c hc
    have := hq c hc
    rintro rfl
    revert this
    decide
  rcases List.mem_append.mp hc with hc | hc
  · rcases List.mem_append.mp hc with hc | hc
    · cases b <;> (revert hc; simp; rintro (rfl | rfl | rfl | rfl | rfl | rfl | rfl) <;> decide)
    · exact hdig hd c hc
  · have hm := hdig hd2
    simp only [List.mem_cons, List.not_mem_nil, or_false] at hc
    rcases hc with rfl | rfl | rfl | rfl | rfl | rfl
    · decide
    · exact hm _ (by simp)
    · exact hm _ (by simp)
    · decide
    · exact hm _ (by simp)
    · exact hm _ (by simp)

theorem prefix_before_space {t p : Bytes} (ht : ∀ c ∈ t, c ≠ 32) :
    ∀ {r q : Bytes}, p ++ 32 :: q = t ++ r → ∃ r', p = t ++ r' := by
  induction t generalizing p with
  | nil => intro r q _; exact ⟨p, rfl⟩
  | cons c t ih =>
    intro r q h
    cases p with
    | nil =>
      exfalso
      exact ht c (by simp) (List.cons.inj h).1.symm
    | cons d p =>
      simp only [List.cons_append] at h
      obtain ⟨rfl, h'⟩ := List.cons.inj h
      obtain ⟨r', rfl⟩ := ih (fun c hc => ht c (by simp [hc])) h'
      exact ⟨r', rfl⟩

theorem attrAt_space (p q : Bytes) : attrAt (p ++ 32 :: q) = attrAt p := by
  cases h1 : attrAt (p ++ 32 :: q) with
  | some v =>
    obtain ⟨b, k, n⟩ := v
    obtain ⟨h, ms, t, r, ht, hk, hx⟩ := (attrAt_iff _ _ _ _).mp h1
    obtain ⟨r', rfl⟩ := prefix_before_space (attrText_noSpace ht) hx
    exact ((attrAt_iff _ _ _ _).mpr ⟨h, ms, t, r', ht, hk, rfl⟩).symm
  | none =>
    cases h2 : attrAt p with
    | none => rfl
    | some v =>
      obtain ⟨b, k, n⟩ := v
      obtain ⟨h, ms, t, r, ht, hk, rfl⟩ := (attrAt_iff _ _ _ _).mp h2
      have := (attrAt_iff (t ++ r ++ 32 :: q) b k n).mpr ⟨h, ms, t, r ++ 32 :: q, ht, hk, by simp⟩
      rw [this] at h1
      cases h1

theorem attrTimes_space (p q : Bytes) : attrTimes (p ++ 32 :: q) = attrTimes p ++ attrTimes q := by
  induction p with
  | nil =>
    show attrTimes ([32] ++ q) = _
    rw [attrTimes_inert [32] q (inert_lit (by decide))]
    rfl
  | cons b p ih =>
    have e : attrTimes (b :: p ++ 32 :: q) = (attrAt (b :: p ++ 32 :: q)).toList ++ attrTimes (p ++ 32 :: q) := rfl
    rw [e, attrAt_space, ih]
    have e2 : attrTimes (b :: p) = (attrAt (b :: p)).toList ++ attrTimes p := rfl
    rw [e2, List.append_assoc]

theorem attrAt_word (x : Bytes) : attrAt x = attrAt (x.takeWhile (fun b => decide (b ≠ 32))) := by
  have e := List.takeWhile_append_dropWhile (p := fun b : UInt8 => decide (b ≠ 32)) (l := x)
  cases hd : x.dropWhile (fun b : UInt8 => decide (b ≠ 32)) with
  | nil => rw [hd, List.append_nil] at e; rw [e]
  | cons c s =>
    have hc := takeWhile_maximal x c s hd
    have : c = 32 := by simpa using hc
    subst this
    rw [hd] at e
    conv => lhs; rw [← e]
    rw [attrAt_space]

theorem afterSpace_word {m : Bytes → Bytes → Bytes → Prop} (hm : AfterSpace m) {x y : Bytes}
    (hr : Rewrites m x y) :
    y.takeWhile (fun b => decide (b ≠ 32)) = x.takeWhile (fun b => decide (b ≠ 32)) := by
  induction hr with
  | nil => rfl
  | keep b r r' h hr ih =>
    rw [List.takeWhile_cons, List.takeWhile_cons, ih]
  | replace old rest new rest' h hr ih =>
    obtain ⟨p, q, q', rfl, rfl, _, _, hp⟩ := hm _ _ _ h
    have key : ∀ z : Bytes, (p ++ 32 :: z).takeWhile (fun b => decide (b ≠ 32)) = p := by
      intro z
      apply takeWhile_exact
      · intro b hb; simpa using hp b hb
      · intro d s hd; cases hd; decide
    simp only [List.append_assoc, List.cons_append]
    rw [key, key]

theorem afterSpace_times {m : Bytes → Bytes → Bytes → Prop} (hm : AfterSpace m) {x y : Bytes}
    (hr : Rewrites m x y) : attrTimes y = attrTimes x := by
  induction hr with
  | nil => rfl
  | keep b r r' h hr ih =>
    have hw := afterSpace_word hm (Rewrites.keep b r r' h hr)
    unfold attrTimes
    rw [attrAt_word (b :: r'), hw, ← attrAt_word, ih]
  | replace old rest new rest' h hr ih =>
    obtain ⟨p, q, q', rfl, rfl, hq, hq', _⟩ := hm _ _ _ h
    simp only [List.append_assoc, List.cons_append]
    rw [attrTimes_space, attrTimes_space, attrTimes_inert _ _ hq, attrTimes_inert _ _ hq', ih]

theorem isClock_inert {t : Bytes} {n : Nat} (h : IsClock t n) : Inert t := by
  obtain ⟨h, m, s, rfl, hh, hm, hs, _⟩ := h
  exact ((((hh.inert.append (inert_lit (by decide))).append hm.inert).append (inert_lit (by decide))).append hs.inert)

theorem isDateTime_inert {t : Bytes} {n : Nat} (h : IsDateTime t n) : Inert t := by
  obtain ⟨yt, mt, dt, ht, nt, st, rfl, h1, h2, h3, h4, h5, h6, _⟩ := h
  refine ((((((((((Inert.append h1.inert ?_).append h2.inert).append ?_).append h3.inert).append ?_).append
    h4.inert).append ?_).append h5.inert).append ?_).append h6.inert).append ?_
  all_goals exact inert_lit (by decide)

theorem clockText_afterSpace (offset : Nat) : AfterSpace (ClockText offset) := by
  rintro old rest new ⟨w, t, f, n, hw, _, ht, hf, rfl, date, rfl, hdate⟩
  refine ⟨w, [58, 32] ++ t ++ f, [58, 32, 85, 84, 67, 32, 61, 32] ++ date, by simp, by simp, ?_, ?_, ?_⟩
  · refine Inert.append (Inert.append (inert_lit (by decide)) (isClock_inert ht)) ?_
    rcases hf with ⟨rfl, _⟩ | ⟨ds, rfl, hd, _⟩
    · intro b hb; cases hb
    · exact Inert.append (p := [46]) (inert_lit (by decide)) hd.inert
  · exact Inert.append (inert_lit (by decide)) (isDateTime_inert hdate)
  · intro b hb hc
    have := hw b hb
    rw [hc] at this
    revert this
    decide

theorem segmentText_afterSpace (segNr : Nat) : AfterSpace (SegmentText segNr) := by
  rintro old rest new ⟨ds, ds', hd, _, _, rfl, rfl, hd', _⟩
  refine ⟨[83, 101, 103, 109, 101, 110, 116], [35, 32] ++ ds, [35, 32] ++ ds', by simp [segIntro],
    by simp [segIntro], Inert.append (inert_lit (by decide)) hd.inert, Inert.append (inert_lit (by decide)) hd'.inert, ?_⟩
  decide

/-- **C40, the times.** If all times of a text have two digits for the hours, the times of the
adjusted text are the same ones, in the same order, each of them later by exactly the offset.  (A
time with more digits for the hours is not found: `C40_hours_violation`.) -/
theorem C40_shift_partial (offset segNr : Nat) (x : Bytes) (h2 : ∀ a ∈ attrTimes x, a.2.1 = 2) :
    (attrTimes (adjustTtml offset segNr x)).map (fun a => (a.1, a.2.2)) =
      (attrTimes x).map fun a => (a.1, a.2.2 + offset) := by
  obtain ⟨y, z, h1, h3, h4⟩ := C40_rewrites offset segNr x
  rw [afterSpace_times (segmentText_afterSpace segNr) h4, afterSpace_times (clockText_afterSpace offset) h3]
  exact timeShift_times h1 h2

end Verif
