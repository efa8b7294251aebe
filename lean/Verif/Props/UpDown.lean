import Verif.Props.Availability
/-
C35: base URL up/down patterns.
-/
namespace Verif

theorem splitChar_noSep {c : Char} {a : Text} (h : ∀ x ∈ a, x ≠ c) : splitChar c a = [a] := by
  induction a with
  | nil => rfl
  | cons x xs ih =>
    have hx : x ≠ c := h x (by simp)
    simp [splitChar, hx, ih (fun y hy => h y (by simp [hy]))]

theorem splitChar_sep {c : Char} {a b : Text} (h : ∀ x ∈ a, x ≠ c) :
    splitChar c (a ++ c :: b) = a :: splitChar c b := by
  induction a with
  | nil => simp [splitChar]
  | cons x xs ih =>
    have hx : x ≠ c := h x (by simp)
    simp [splitChar, hx, ih (fun y hy => h y (by simp [hy]))]

/-- The option text of a pattern: `uA_dB` or `dA_uB`. -/
def patternText (upFirst : Bool) (a b : Nat) : Text :=
  (if upFirst then 'u' else 'd') :: natText a ++ '_' :: (if upFirst then 'd' else 'u') :: natText b

theorem parseUpDown_pattern (upFirst : Bool) (a b : Nat) :
    parseUpDown (patternText upFirst a b) =
      .ok (if upFirst then 'u' else 'd', (a : Int), if upFirst then 'd' else 'u', (b : Int)) := by
  have hsep : ∀ n, ∀ x ∈ natText n, x ≠ '_' := fun n x hx => (natText_digits n x hx).ne (by decide)
  have h1 : ∀ x ∈ ((if upFirst then 'u' else 'd') :: natText a), x ≠ '_' := by
    intro x hx
    rcases List.mem_cons.mp hx with rfl | hx
    · cases upFirst <;> decide
    · exact hsep a x hx
  have h2 : ∀ x ∈ ((if upFirst then 'd' else 'u') :: natText b), x ≠ '_' := by
    intro x hx
    rcases List.mem_cons.mp hx with rfl | hx
    · cases upFirst <;> decide
    · exact hsep b x hx
  unfold parseUpDown patternText
  rw [splitChar_sep h1, splitChar_noSep h2]
  simp [pyInt_natText, bind, Except.bind, pure, Except.pure]

/-- Specification: second `m` of the minute is a down second of the pattern with cycle
`a+b`.  The seconds of a cycle are numbered 1 … a+b, second 0 belongs to no cycle. -/
def specDown (upFirst : Bool) (a b : Nat) (m : Int) : Prop :=
  1 ≤ m ∧ (if upFirst then (a : Int) ≤ (m - 1) % (a + b) else (m - 1) % (a + b) < a)

/-- Specification: `m` is the last up second before the server goes down. -/
def specLastUp (a b : Nat) (m : Int) : Prop := (a : Int) ≤ m ∧ (m - a) % (a + b) = 0

theorem upDownLoop_down (d T m : Int) : ∀ (fuel : Nat) (i : Int) (seen : Bool),
    upDownLoop d T m fuel i seen = .down ↔
      ∃ j, i ≤ j ∧ j < i + fuel ∧ j * T + d < m ∧ m ≤ (j + 1) * T
  | 0, i, seen => by
    simp only [upDownLoop]
    constructor
    · intro h; split at h <;> simp at h
    · rintro ⟨j, h1, h2, _⟩; omega
  | fuel + 1, i, seen => by
    simp only [upDownLoop]
    split
    · rename_i h
      simp only [true_iff]
      exact ⟨i, by omega, by omega, h⟩
    · rename_i h
      rw [upDownLoop_down d T m fuel]
      constructor
      · rintro ⟨j, h1, h2, h3⟩; exact ⟨j, by omega, by omega, h3⟩
      · rintro ⟨j, h1, h2, h3⟩
        have : j ≠ i := by rintro rfl; exact h h3
        exact ⟨j, by omega, by omega, h3⟩

theorem upDownLoop_emsg (d T m : Int) : ∀ (fuel : Nat) (i : Int) (seen : Bool),
    upDownLoop d T m fuel i seen ≠ .down →
    (upDownLoop d T m fuel i seen = .emsg ↔ seen = true ∨ ∃ j, i ≤ j ∧ j < i + fuel ∧ m = j * T + d)
  | 0, i, seen => by
    intro _
    simp only [upDownLoop]
    constructor
    · intro h; split at h <;> simp_all
    · rintro (h | ⟨j, h1, h2, _⟩)
      · simp [h]
      · omega
  | fuel + 1, i, seen => by
    intro hnd
    simp only [upDownLoop] at hnd ⊢
    split
    · rename_i h; simp [h] at hnd
    · rename_i h
      rw [if_neg h] at hnd
      rw [upDownLoop_emsg d T m fuel _ _ hnd]
      constructor
      · rintro (h1 | ⟨j, h1, h2, h3⟩)
        · rcases (Bool.or_eq_true _ _).mp h1 with h1 | h1
          · exact .inl h1
          · exact .inr ⟨i, by omega, by omega, by simpa using h1⟩
        · exact .inr ⟨j, by omega, by omega, h3⟩
      · rintro (h1 | ⟨j, h1, h2, h3⟩)
        · exact .inl (by simp [h1])
        · by_cases hj : j = i
          · subst hj; exact .inl (by simp [h3])
          · exact .inr ⟨j, by omega, by omega, h3⟩

theorem downUpLoop_down (d T m : Int) : ∀ (fuel : Nat) (i : Int),
    downUpLoop d T m fuel i = .down ↔ ∃ j, i ≤ j ∧ j < i + fuel ∧ j * T < m ∧ m ≤ j * T + d
  | 0, i => by
    simp only [downUpLoop]
    constructor
    · intro h; simp at h
    · rintro ⟨j, h1, h2, _⟩; omega
  | fuel + 1, i => by
    simp only [downUpLoop]
    split
    · rename_i h
      simp only [true_iff]
      exact ⟨i, by omega, by omega, h⟩
    · rename_i h
      rw [downUpLoop_down d T m fuel]
      constructor
      · rintro ⟨j, h1, h2, h3⟩; exact ⟨j, by omega, by omega, h3⟩
      · rintro ⟨j, h1, h2, h3⟩
        have : j ≠ i := by rintro rfl; exact h h3
        exact ⟨j, by omega, by omega, h3⟩

theorem downUpLoop_cases (d T m : Int) : ∀ (fuel : Nat) (i : Int),
    downUpLoop d T m fuel i = .down ∨ downUpLoop d T m fuel i = .plain
  | 0, _ => .inr rfl
  | fuel + 1, i => by
    simp only [downUpLoop]
    split
    · exact .inl rfl
    · exact downUpLoop_cases d T m fuel (i + 1)

/-- `ceil(60/T)` loops cover every multiple of `T` below 60. -/
theorem numLoop_covers {T j : Int} (hT : 0 < T) : j * T < 60 → j < (((60 : Rat) / T).ceil.toNat : Int) := by
  intro h
  have hTq : (0 : Rat) < T := by exact_mod_cast hT
  have h1 : (60 : Rat) / T ≤ ((60 : Rat) / T).ceil := Rat.le_ceil
  rw [div_le_iff₀ hTq] at h1
  have h2 : (60 : Int) ≤ ((60 : Rat) / T).ceil * T := by exact_mod_cast h1
  have h3 : j * T < ((60 : Rat) / T).ceil * T := by omega
  have h4 : j < ((60 : Rat) / T).ceil := lt_of_mul_lt_mul_right h3 hT.le
  omega

theorem exists_cycle {T m d : Int} (hT : 0 < T) (h0 : 0 ≤ d) (hm1 : m < 60) :
    (∃ j, 0 ≤ j ∧ j < 0 + (((60 : Rat) / T).ceil.toNat : Int) ∧ j * T + d < m ∧ m ≤ (j + 1) * T) ↔
      1 ≤ m ∧ d ≤ (m - 1) % T := by
  have e := Int.emod_add_mul_ediv (m - 1) T
  have e1 := Int.emod_nonneg (m - 1) (by omega : T ≠ 0)
  have e2 := Int.emod_lt_of_pos (m - 1) hT
  constructor
  · rintro ⟨j, h1, h2, h3, h4⟩
    have hj : (m - 1) / T = j := by
      rw [Int.ediv_eq_iff_of_pos hT]
      constructor
      · omega
      · have : (j + 1) * T = j * T + T := by ring
        omega
    rw [hj] at e
    have : T * j = j * T := by ring
    have h5 : 0 ≤ j * T := mul_nonneg h1 hT.le
    constructor <;> omega
  · rintro ⟨h1, h2⟩
    have hq : 0 ≤ (m - 1) / T := Int.ediv_nonneg (by omega) hT.le
    have ec : T * ((m - 1) / T) = (m - 1) / T * T := by ring
    refine ⟨(m - 1) / T, hq, ?_, by omega, ?_⟩
    · have := numLoop_covers (j := (m - 1) / T) hT (by omega)
      omega
    · have : ((m - 1) / T + 1) * T = (m - 1) / T * T + T := by ring
      omega

theorem exists_cycle' {T m d : Int} (hT : 0 < T) (h0 : d ≤ T) (hm1 : m < 60) :
    (∃ j, 0 ≤ j ∧ j < 0 + (((60 : Rat) / T).ceil.toNat : Int) ∧ j * T < m ∧ m ≤ j * T + d) ↔
      1 ≤ m ∧ (m - 1) % T < d := by
  have e := Int.emod_add_mul_ediv (m - 1) T
  have e1 := Int.emod_nonneg (m - 1) (by omega : T ≠ 0)
  have e2 := Int.emod_lt_of_pos (m - 1) hT
  constructor
  · rintro ⟨j, h1, h2, h3, h4⟩
    have hj : (m - 1) / T = j := by
      rw [Int.ediv_eq_iff_of_pos hT]
      constructor
      · omega
      · have : (j + 1) * T = j * T + T := by ring
        omega
    rw [hj] at e
    have : T * j = j * T := by ring
    have h5 : 0 ≤ j * T := mul_nonneg h1 hT.le
    constructor <;> omega
  · rintro ⟨h1, h2⟩
    have hq : 0 ≤ (m - 1) / T := Int.ediv_nonneg (by omega) hT.le
    have ec : T * ((m - 1) / T) = (m - 1) / T * T := by ring
    refine ⟨(m - 1) / T, hq, ?_, by omega, by omega⟩
    have := numLoop_covers (j := (m - 1) / T) hT (by omega)
    omega

theorem exists_last {T m d : Int} (hT : 0 < T) (hd : 0 ≤ d) (hm1 : m < 60) :
    (∃ j, 0 ≤ j ∧ j < 0 + (((60 : Rat) / T).ceil.toNat : Int) ∧ m = j * T + d) ↔
      d ≤ m ∧ (m - d) % T = 0 := by
  constructor
  · rintro ⟨j, h1, h2, h3⟩
    have h5 : 0 ≤ j * T := mul_nonneg h1 hT.le
    refine ⟨by omega, ?_⟩
    have : m - d = j * T := by omega
    rw [this, Int.mul_emod_left]
  · rintro ⟨h1, h2⟩
    have e := Int.emod_add_mul_ediv (m - d) T
    have ec : T * ((m - d) / T) = (m - d) / T * T := by ring
    have hq : 0 ≤ (m - d) / T := Int.ediv_nonneg (by omega) hT.le
    refine ⟨(m - d) / T, hq, ?_, by omega⟩
    have := numLoop_covers (j := (m - d) / T) hT (by omega)
    omega

theorem lossAction_pattern (upFirst : Bool) (a b : Nat) (hab : 0 < a + b) (now : Int) :
    let m := now % 60
    (lossAction [patternText upFirst a b] now = .ok .down ↔ specDown upFirst a b m) ∧
    (lossAction [patternText upFirst a b] now = .ok .emsg ↔
      upFirst = true ∧ ¬ specDown upFirst a b m ∧ specLastUp a b m) ∧
    (lossAction [patternText upFirst a b] now = .ok .plain ↔
      ¬ specDown upFirst a b m ∧ ¬ (upFirst = true ∧ specLastUp a b m)) := by
  intro m
  have hT : (0 : Int) < (a : Int) + b := by omega
  have hm0 : 0 ≤ m := Int.emod_nonneg _ (by decide)
  have hm1 : m < 60 := Int.emod_lt_of_pos _ (by decide)
  have hf : Int.fmod now 60 = m := Int.fmod_eq_emod_of_nonneg _ (by decide)
  have hne : (a : Int) + b ≠ 0 := by omega
  have hact : lossAction [patternText upFirst a b] now =
      .ok (if upFirst then upDownLoop a (a + b) m ((60 : Rat) / ((a : Int) + b : Int)).ceil.toNat 0 false
        else downUpLoop a (a + b) m ((60 : Rat) / ((a : Int) + b : Int)).ceil.toNat 0) := by
    unfold lossAction
    simp only [parseUpDown_pattern, bind, Except.bind, hne, if_false, hf]
    cases upFirst <;> simp [pure, Except.pure]
  rw [hact]
  cases upFirst with
  | true =>
    have d1 := upDownLoop_down a (a + b) m ((60 : Rat) / ((a : Int) + b : Int)).ceil.toNat 0 false
    rw [exists_cycle hT (by omega) hm1] at d1
    have d2 := upDownLoop_emsg a (a + b) m ((60 : Rat) / ((a : Int) + b : Int)).ceil.toNat 0 false
    rw [exists_last hT (by omega) hm1] at d2
    simp only [specDown, specLastUp, if_true, Except.ok.injEq] at *
    generalize upDownLoop a (a + b) m ((60 : Rat) / ((a : Int) + b : Int)).ceil.toNat 0 false = r at *
    cases r <;> simp_all
  | false =>
    have d1 := downUpLoop_down a (a + b) m ((60 : Rat) / ((a : Int) + b : Int)).ceil.toNat 0
    rw [exists_cycle' hT (by omega) hm1] at d1
    have d2 := downUpLoop_cases a (a + b) m ((60 : Rat) / ((a : Int) + b : Int)).ceil.toNat 0
    simp only [specDown, Except.ok.injEq] at *
    generalize downUpLoop a (a + b) m ((60 : Rat) / ((a : Int) + b : Int)).ceil.toNat 0 = r at *
    cases r <;> simp_all

/-- **C35.** Media requests to a base URL with an up/down pattern (after the opening of the
service and before its end): refused as "server down" exactly in the down seconds of the
pattern; otherwise answered as without pattern, with the end-of-service message switched on
exactly in the last up second of an up-first pattern. -/
theorem C35_pattern (pf : Text → Option Rat) {c : Cfg} (upFirst : Bool) (a b : Nat)
    (hab : 0 < a + b) (hu : c.multiUrl = [patternText upFirst a b]) (hx : c.ext = ".m4s".toList)
    (ha : c.aet = none) {now : Rat} (hg : gateTime c ≤ now) :
    let m := pyTrunc now % 60
    (specDown upFirst a b m → getMedia pf c now = .ok .serverDown) ∧
    (¬ specDown upFirst a b m → upFirst = true → specLastUp a b m →
      getMedia pf c now = processMedia pf { c with emsgLastSeg := true } now) ∧
    (¬ specDown upFirst a b m → ¬ (upFirst = true ∧ specLastUp a b m) →
      getMedia pf c now = processMedia pf c now) := by
  intro m
  have hgate : ¬ now < (if c.ato = -1 then (c.ast : Rat) else c.ast + c.segDur - c.ato) :=
    not_lt.mpr hg
  have hget : getMedia pf c now = (do
      let act ← lossAction [patternText upFirst a b] (pyTrunc now)
      match act with
      | .down => .ok .serverDown
      | .emsg => processMedia pf { c with emsgLastSeg := true } now
      | .plain => processMedia pf c now) := by
    unfold getMedia
    rw [if_neg (by simp [hx])]
    dsimp only
    rw [if_neg hgate, if_neg (by simp [ha]), if_pos hx, hu]
    rfl
  obtain ⟨l1, l2, l3⟩ := lossAction_pattern upFirst a b hab (pyTrunc now)
  rw [hget]
  refine ⟨?_, ?_, ?_⟩
  · intro hd; rw [l1.mpr hd]; rfl
  · intro hd hup hl; rw [l2.mpr ⟨hup, hd, hl⟩]; rfl
  · intro hd hl; rw [l3.mpr ⟨hd, hl⟩]; rfl

/-- The pattern repeats every minute, and within a minute every `a+b` seconds. -/
theorem C35_periodic (upFirst : Bool) (a b : Nat) (now : Int) :
    (specDown upFirst a b ((now + 60) % 60) ↔ specDown upFirst a b (now % 60)) ∧
    (∀ m : Int, 1 ≤ m → (specDown upFirst a b (m + (a + b)) ↔ specDown upFirst a b m)) ∧
    (∀ m : Int, specDown upFirst a b m → ¬ specDown (!upFirst) a b m) ∧
    (∀ m : Int, 1 ≤ m → specDown upFirst a b m ∨ specDown (!upFirst) a b m) := by
  refine ⟨by rw [Int.add_emod_right], ?_, ?_, ?_⟩
  · intro m hm
    have : (m + ((a : Int) + b) - 1) % (a + b) = (m - 1) % (a + b) := by
      have : m + ((a : Int) + b) - 1 = (m - 1) + (a + b) := by ring
      rw [this, Int.add_emod_right]
    unfold specDown
    rw [this]
    constructor
    · rintro ⟨_, h⟩; exact ⟨hm, h⟩
    · rintro ⟨_, h⟩; exact ⟨by omega, h⟩
  · intro m
    unfold specDown
    cases upFirst <;> simp <;> omega
  · intro m hm
    unfold specDown
    cases upFirst <;> simp <;> omega

/-- A service with pattern `u20_d10` at second 25 of a minute is down, at second 20 it sends
the end message, at second 35 it is up. -/
example :
    patternText true 20 10 = "u20_d10".toList ∧
    getMedia (fun _ => none) { exampleCfg.forNr 15 with multiUrl := ["u20_d10".toList] } 1045 = .ok .serverDown ∧
    getMedia (fun _ => none) { exampleCfg.forNr 15 with multiUrl := ["u20_d10".toList] } 1040 = .ok (.media
      { vodNr := 11, segNr := 15, offset := 0, lmsg := false, segTime := 20, emsgLast := true }) ∧
    gateTime { exampleCfg.forNr 15 with multiUrl := ["u20_d10".toList] } ≤ 1045 := by
  refine ⟨by decide +kernel, by decide +kernel, by decide +kernel, by decide +kernel⟩

/-- **C35 (violation).** A pattern whose cycle divides the minute is not down for its full
share: with `u30_d30` second 0 of the minute, the 30th second of the down phase 31…60, is
served, so the server is down for 29 seconds of each minute only. -/
theorem C35_second_zero_violation :
    ¬ specDown true 30 30 (60 % 60) ∧
    getMedia (fun _ => none) { exampleCfg.forNr 45 with multiUrl := ["u30_d30".toList] } 1140 ≠ .ok .serverDown := by
  refine ⟨by unfold specDown; decide, by decide +kernel⟩

end Verif
