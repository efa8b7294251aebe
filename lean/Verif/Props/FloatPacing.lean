import Verif.Props.FloatTimes
/-
C83, continued: pacing and duration of chunks, the stop time and the period tests.
-/
namespace Verif

theorem fl_abs_err {x B : Rat} {e : Nat} (h : |x| ≤ 2 ^ e * B) (he : e ≤ 53) :
    |fl x - x| ≤ B / 2 ^ (53 - e) := by
  refine (fl_err x).trans ?_
  rw [div_le_div_iff₀ (by positivity) (by positivity)]
  have : (2 : Rat) ^ 53 = 2 ^ e * 2 ^ (53 - e) := by rw [← pow_add]; congr 1; omega
  rw [this]
  have hp : (0 : Rat) < 2 ^ (53 - e) := by positivity
  nlinarith

/-- The computed availability time of a chunk is within 2^-17 s (8 microseconds) of the exact one. -/
theorem chunkAvailF_near {segStart : Int} {d : Rat} {i : Nat} (h0 : 0 ≤ segStart) (h1 : segStart ≤ 2 ^ 32)
    (hd : 0 ≤ d) (hi : i ≤ 2 ^ 53) (hid : i * d ≤ 2 ^ 32) :
    |chunkAvailF segStart d i - (segStart + i * d - 1 / 10)| ≤ 1 / 2 ^ 17 := by
  have e1 : fl (segStart : Rat) = segStart := fl_int (by rw [abs_of_nonneg h0]; linarith)
  have e2 : fl (i : Rat) = i := by
    have := fl_int (n := (i : Int)) (by rw [abs_of_nonneg (by positivity)]; exact_mod_cast hi)
    simpa using this
  have q0 : (0 : Rat) ≤ segStart := by exact_mod_cast h0
  have q1 : (segStart : Rat) ≤ 2 ^ 32 := by exact_mod_cast h1
  have p0 : (0 : Rat) ≤ i * d := mul_nonneg (by positivity) hd
  unfold chunkAvailF
  rw [e1, e2]
  have a1 : |fl (i * d) - i * d| ≤ 1 / 2 ^ 21 := fl_abs_err (e := 32) (by rw [abs_of_nonneg p0]; linarith) (by norm_num)
  generalize fl (i * d) = p at *
  rw [abs_le] at a1
  have a2 : |fl (segStart + p) - (segStart + p)| ≤ 1 / 2 ^ 19 :=
    fl_abs_err (e := 34) (by rw [abs_le]; constructor <;> linarith) (by norm_num)
  generalize fl (segStart + p) = s at *
  rw [abs_le] at a2
  have a3 : |fl (1 / 10 : Rat) - 1 / 10| ≤ 1 / 2 ^ 30 := by decide +kernel
  generalize fl (1 / 10 : Rat) = m at *
  rw [abs_le] at a3
  have a4 : |fl (s - m) - (s - m)| ≤ 1 / 2 ^ 19 :=
    fl_abs_err (e := 34) (by rw [abs_le]; constructor <;> linarith) (by norm_num)
  generalize fl (s - m) = r at *
  rw [abs_le] at a4 ⊢
  constructor <;> linarith

theorem deliverF_at (segStart : Int) (d : Rat) : ∀ (cs : List Bytes) (es : List Step) (i0 : Nat) (t : Rat),
    (∀ e ∈ es, 0 ≤ e.idle ∧ 0 ≤ e.over) → ∀ k dl, (deliverF segStart d i0 t cs es)[k]? = some dl →
      cs[k]? = some dl.chunk ∧ t ≤ dl.read ∧ ∃ e, es[k]? = some e ∧ 0 ≤ e.over ∧
        dl.sent = if fl (chunkAvailF segStart d (i0 + k) - dl.read) > 0 then
          dl.read + fl (chunkAvailF segStart d (i0 + k) - dl.read) + e.over else dl.read
  | [], _, _, _, _, k, dl, h => by simp [deliverF] at h
  | c :: cs, [], _, _, _, k, dl, h => by simp [deliverF] at h
  | c :: cs, e :: es, i0, t, he, k, dl, h => by
    obtain ⟨hi, ho⟩ := he e (by simp)
    simp only [deliverF] at h
    cases k with
    | zero =>
      simp only [List.getElem?_cons_zero, Option.some.injEq] at h
      subst h
      exact ⟨rfl, by dsimp only; linarith, e, rfl, ho, rfl⟩
    | succ k =>
      simp only [List.getElem?_cons_succ] at h
      obtain ⟨h1, h2, h3⟩ := deliverF_at segStart d cs es (i0 + 1) _ (fun e he' => he e (by simp [he'])) k dl h
      refine ⟨by simpa using h1, ?_, ?_⟩
      · refine le_trans ?_ h2
        split
        · rename_i hw; linarith
        · linarith
      · rw [show i0 + (k + 1) = i0 + 1 + k by ring]
        simpa using h3

/-- **C83 (pacing).** The delivery loop with rounded times: chunk `i` of a segment leaves no earlier than 16
microseconds (2^-16 s) before `segStart + i*d - 0.1 s`, and, when the sleep does not overshoot, no later than 16
microseconds after that time or at the moment the clock was read.  Times are before the year 2106. -/
theorem C83_pacing {segStart : Int} {d : Rat} (h0 : 0 ≤ segStart) (h1 : segStart ≤ 2 ^ 32) (hd : 0 ≤ d)
    {cs : List Bytes} {es : List Step} {i0 : Nat} {t : Rat} (ht : 0 ≤ t)
    (he : ∀ e ∈ es, 0 ≤ e.idle ∧ 0 ≤ e.over) {k : Nat} (hk : i0 + k ≤ 2 ^ 53)
    (hid : ((i0 + k : Nat) : Rat) * d ≤ 2 ^ 32) {dl : Delivery}
    (h : (deliverF segStart d i0 t cs es)[k]? = some dl) :
    cs[k]? = some dl.chunk ∧ dl.read ≤ dl.sent ∧
    segStart + ((i0 + k : Nat) : Rat) * d - 1 / 10 - 1 / 2 ^ 16 ≤ dl.sent ∧
    ((es[k]?.map (·.over)) = some 0 →
      dl.sent ≤ max dl.read (segStart + ((i0 + k : Nat) : Rat) * d - 1 / 10 + 1 / 2 ^ 16)) := by
  obtain ⟨hc, hr, e, hek, ho, hs⟩ := deliverF_at segStart d cs es i0 t he k dl h
  have hn := chunkAvailF_near h0 h1 hd hk hid
  have q1 : (segStart : Rat) ≤ 2 ^ 32 := by exact_mod_cast h1
  have hX : (segStart : Rat) + ((i0 + k : Nat) : Rat) * d - 1 / 10 ≤ 2 ^ 33 := by linarith
  generalize chunkAvailF segStart d (i0 + k) = A at *
  generalize (segStart : Rat) + ((i0 + k : Nat) : Rat) * d - 1 / 10 = X at *
  rw [abs_le] at hn
  refine ⟨hc, ?_, ?_, ?_⟩
  · rw [hs]; split
    · linarith
    · exact le_refl _
  · rw [hs]
    by_cases hw : fl (A - dl.read) > 0
    · rw [if_pos hw]
      have hpos : 0 < A - dl.read := by
        by_contra hc
        have := fl_mono (not_lt.mp hc)
        rw [fl_zero] at this
        linarith
      have := fl_abs_err (x := A - dl.read) (B := 1) (e := 35) (by rw [abs_of_pos hpos]; linarith) (by norm_num)
      rw [abs_le] at this
      norm_num at this hn ⊢
      linarith
    · rw [if_neg hw]
      have hneg : A - dl.read ≤ 0 := by
        by_contra hc
        have := fl_pos (not_le.mp hc)
        have := flPos_pos (not_le.mp hc)
        linarith
      norm_num at hn ⊢
      linarith
  · intro hz
    rw [hek] at hz
    have hz' : e.over = 0 := by simpa using hz
    rw [hs]
    by_cases hw : fl (A - dl.read) > 0
    · rw [if_pos hw]
      have hpos : 0 < A - dl.read := by
        by_contra hc
        have := fl_mono (not_lt.mp hc)
        rw [fl_zero] at this
        linarith
      have := fl_abs_err (x := A - dl.read) (B := 1) (e := 35) (by rw [abs_of_pos hpos]; linarith) (by norm_num)
      rw [abs_le] at this
      refine le_max_of_le_right ?_
      norm_num at this hn ⊢
      linarith
    · rw [if_neg hw]; exact le_max_left _ _

/-- **C83 (pacing, completeness).** The loop sends all chunks, in order. -/
theorem C83_complete (segStart : Int) (d : Rat) : ∀ (cs : List Bytes) (es : List Step) (i0 : Nat) (t : Rat),
    cs.length ≤ es.length → (deliverF segStart d i0 t cs es).map (·.chunk) = cs
  | [], _, _, _, _ => by simp [deliverF]
  | c :: cs, [], _, _, h => by simp at h
  | c :: cs, e :: es, i0, t, h => by
    simp only [deliverF, List.map_cons, List.cons.injEq, true_and]
    exact C83_complete segStart d cs es (i0 + 1) _ (by simpa using h)

/-! ### Durations -/

theorem pyTrunc_nonneg {x : Rat} (h : 0 ≤ x) : pyTrunc x = x.floor := by unfold pyTrunc; rw [if_pos h]

/-- **C83 (chunk durations).** The chunk duration in ticks, computed from the float nearest to the requested
duration `q`, is that of exact arithmetic when `q` is a whole number of 2^-20 s, and otherwise at most one tick off.
Missing for the full property: the same ticks for all requested durations, see `C83_ticks_violation`. -/
theorem C83_ticks_partial {q : Rat} (hq : 0 ≤ q) {ts : Int} (h0 : 0 ≤ ts) (ht : ts ≤ 2 ^ 53) (hp : q * ts ≤ 2 ^ 33) :
    |chunkTicksF (fl q) ts - chunkTicks q ts| ≤ 1 ∧
    (q ≤ 2 ^ 33 → (∃ k : Int, q * 2 ^ 20 = k) → chunkTicksF (fl q) ts = chunkTicks q ts) := by
  have e1 : fl (ts : Rat) = ts := fl_int (by rw [abs_of_nonneg h0]; exact ht)
  have hts : (0 : Rat) ≤ ts := by exact_mod_cast h0
  unfold chunkTicksF chunkTicks
  rw [e1]
  have hf := fl_nonneg hq
  have hqt : 0 ≤ q * ts := mul_nonneg hq hts
  have hr : 0 ≤ fl (fl q * ts) := fl_nonneg (mul_nonneg hf hts)
  rw [pyTrunc_nonneg hr, pyTrunc_nonneg hqt]
  constructor
  · obtain ⟨a1, a2⟩ := fl_bounds hq
    obtain ⟨b1, b2⟩ := fl_bounds (mul_nonneg hf hts)
    generalize fl (fl q * ts) = r at *
    have c1 : q * ts * (1 - 1 / 2 ^ 53) ≤ fl q * ts := by
      have := mul_le_mul_of_nonneg_right a1 hts
      linarith
    have c2 : fl q * ts ≤ q * ts * (1 + 1 / 2 ^ 53) := by
      have := mul_le_mul_of_nonneg_right a2 hts
      linarith
    generalize fl q * ts = y at *
    generalize q * ts = x at *
    have d1 : x - 1 ≤ r := by norm_num at *; linarith
    have d2 : r ≤ x + 1 := by norm_num at *; linarith
    have f1 := Rat.floor_le x
    have f2 := Rat.lt_floor_add_one x
    have g1 := Rat.floor_le r
    have g2 := Rat.lt_floor_add_one r
    push_cast at f2 g2
    have u1 : ((r.floor : Int) : Rat) < x.floor + 2 := by linarith
    have u2 : ((x.floor : Int) : Rat) < r.floor + 2 := by linarith
    have v1 : r.floor < x.floor + 2 := by exact_mod_cast u1
    have v2 : x.floor < r.floor + 2 := by exact_mod_cast u2
    rw [abs_le]
    constructor <;> omega
  · rintro hq' ⟨k, hk⟩
    have p20 : pow2 (-20) = 1 / 2 ^ 20 := by decide +kernel
    have hk0 : (0 : Rat) ≤ k := by rw [← hk]; positivity
    have e2 : fl q = q := by
      refine fl_exact k (-20) ?_ (by rw [p20, ← hk]; ring)
      have : |(k : Rat)| ≤ 2 ^ 53 := by rw [abs_of_nonneg hk0, ← hk]; linarith
      exact_mod_cast this
    have e3 : fl (q * ts) = q * ts := by
      refine fl_exact (k * ts) (-20) ?_ (by push_cast; rw [p20, ← hk]; ring)
      have : |((k * ts : Int) : Rat)| ≤ 2 ^ 53 := by
        push_cast
        rw [abs_of_nonneg (mul_nonneg hk0 hts), ← hk]
        linarith
      exact_mod_cast this
    rw [e2, e3]

/-- **C83 fails** for chunk durations with an inexact float: with `chunkdur_0.58` and a timescale of 50 the product
is computed as 28.999999999999996 and truncated, so chunks of 28 ticks are cut where 29 were asked for
(dash_proxy.py 277). -/
theorem C83_ticks_violation :
    chunkTicks (58 / 100) 50 = 29 ∧ ((29 : Int) : Rat) = 58 / 100 * 50 ∧ chunkTicksF (fl (58 / 100)) 50 = 28 := by
  decide +kernel

example : chunkTicksF (fl (1 / 2)) 90000 = 45000 ∧ chunkTicksF (fl (57 / 100)) 90000 = 51299 := by decide +kernel

/-- **C83 (stop time).** The sum from which the stop time of a service is rounded up to a segment boundary is computed
as in exact arithmetic, for segments shorter than 1000 s and stop times below 2^40 s. -/
theorem C83_stop {stop d : Int} (h0 : 0 ≤ stop) (h1 : stop ≤ 2 ^ 40) (hd : 0 < d) (hd' : d < 1000) :
    stopSumF stop d = pyTrunc ((stop : Rat) + 999 / 1000 * d) ∧ stopSumF stop d = stop + d - 1 := by
  have q0 : (0 : Rat) ≤ stop := by exact_mod_cast h0
  have q1 : (stop : Rat) ≤ 2 ^ 40 := by exact_mod_cast h1
  have d0 : (1 : Rat) ≤ d := by exact_mod_cast hd
  have d1 : (d : Rat) ≤ 999 := by exact_mod_cast (by omega : d ≤ 999)
  have trunc : ∀ x : Rat, (stop : Rat) + d - 1 ≤ x → x < stop + d → pyTrunc x = stop + d - 1 := by
    intro x a b
    rw [pyTrunc_nonneg (by linarith)]
    apply le_antisymm
    · have h := lt_of_le_of_lt (Rat.floor_le x) b
      have : x.floor < stop + d := by exact_mod_cast h
      omega
    · exact Rat.le_floor_iff.mpr (by push_cast; exact a)
  have hF : stopSumF stop d = stop + d - 1 := by
    unfold stopSumF
    have e1 : fl (stop : Rat) = stop := fl_int (by rw [abs_of_nonneg h0]; linarith)
    have e2 : fl (d : Rat) = d := fl_int (by rw [abs_of_pos hd]; linarith)
    rw [e1, e2]
    have a1 : |fl (999 / 1000 : Rat) - 999 / 1000| ≤ 1 / 2 ^ 50 := by decide +kernel
    generalize fl (999 / 1000 : Rat) = c at *
    rw [abs_le] at a1
    have b1 : c * d ≤ 999 / 1000 * d + 1 / 2 ^ 40 := by
      have : (c - 999 / 1000) * d ≤ 1 / 2 ^ 50 * d := mul_le_mul_of_nonneg_right a1.2 (by linarith)
      norm_num at this ⊢
      linarith
    have b2 : 999 / 1000 * (d : Rat) - 1 / 2 ^ 40 ≤ c * d := by
      have : -(1 / 2 ^ 50) * (d : Rat) ≤ (c - 999 / 1000) * d := mul_le_mul_of_nonneg_right a1.1 (by linarith)
      norm_num at this ⊢
      linarith
    generalize c * (d : Rat) = y at *
    have a2 : |fl y - y| ≤ 1 / 2 ^ 43 :=
      fl_abs_err (e := 10) (by rw [abs_le]; norm_num at *; constructor <;> linarith) (by norm_num)
    rw [abs_le] at a2
    generalize fl y = z at *
    have a3 : |fl (stop + z) - (stop + z)| ≤ 1 / 2 ^ 12 :=
      fl_abs_err (e := 41) (by rw [abs_le]; norm_num at q1 a2 b1 b2 ⊢; constructor <;> linarith [a2.1, a2.2]) (by norm_num)
    rw [abs_le] at a3
    apply trunc
    · norm_num at *; linarith
    · norm_num at *; linarith
  refine ⟨?_, hF⟩
  rw [hF, trunc _ (by linarith) (by linarith)]

example : stopSumF 1700000003 6 = 1700000008 := by decide +kernel

/-- **C83 (period tests).** The test for an uneven split of the periods of an hour, made on a float quotient, is
divisibility. -/
theorem C83_uneven {a b : Int} (ha : 0 ≤ a) (ha' : a < 2 ^ 53) (hb : 0 < b) (hb' : b < 2 ^ 53) :
    unevenF a b = true ↔ ¬ b ∣ a := by
  have e1 : fl (a : Rat) = a := fl_int (by rw [abs_of_nonneg ha]; linarith)
  have e2 : fl (b : Rat) = b := fl_int (by rw [abs_of_pos hb]; linarith)
  have hbq : (0 : Rat) < b := by exact_mod_cast hb
  have haq : (0 : Rat) ≤ a := by exact_mod_cast ha
  have haq' : (a : Rat) < 2 ^ 53 := by exact_mod_cast ha'
  unfold unevenF
  rw [e1, e2]
  simp only [ne_eq, decide_not, Bool.not_eq_true', decide_eq_false_iff_not]
  refine not_congr ?_
  have hdm := Int.emod_add_mul_ediv a b
  have hm0 := Int.emod_nonneg a (by omega : b ≠ 0)
  have hm1 := Int.emod_lt_of_pos a hb
  have hd0 : 0 ≤ a / b := Int.ediv_nonneg ha hb.le
  have hdle : a / b ≤ a := Int.ediv_le_self b ha
  generalize hq : a / b = q at *
  generalize hr : a % b = r at *
  have hx : (a : Rat) / b = q + r / b := by
    have : (a : Rat) = r + b * q := by exact_mod_cast hdm.symm
    rw [this]; field_simp; ring
  have intfl : fl (q : Rat) = q := fl_int (by rw [abs_of_nonneg hd0]; linarith)
  constructor
  · intro h
    rw [Int.dvd_iff_emod_eq_zero, hr]
    by_contra hne
    have hrpos : 1 ≤ r := by omega
    have hrq : (1 : Rat) ≤ r := by exact_mod_cast hrpos
    have hrb : (r : Rat) + 1 ≤ b := by exact_mod_cast hm1
    generalize hz : pyTrunc (fl ((a : Rat) / b)) = z at h
    have herr := fl_err ((a : Rat) / b)
    rw [abs_of_nonneg (div_nonneg haq hbq.le), abs_le] at herr
    have hsmall : (a : Rat) / b / 2 ^ 53 < 1 / b := by
      rw [div_div, div_lt_div_iff₀ (by positivity) hbq]
      nlinarith
    rw [h] at herr
    have l1 : (q : Rat) < z := by
      have : (1 : Rat) / b ≤ r / b := div_le_div_of_nonneg_right hrq hbq.le
      linarith [herr.1]
    have l2 : (z : Rat) < q + 1 := by
      have h1 : (r : Rat) / b + 1 / b ≤ 1 := by rw [← add_div, div_le_one hbq]; exact hrb
      linarith [herr.2]
    have m1 : q < z := by exact_mod_cast l1
    have m2 : z < q + 1 := by exact_mod_cast l2
    omega
  · intro h
    have hr0 : r = 0 := by rw [← hr]; exact Int.emod_eq_zero_of_dvd h
    rw [hx, hr0]
    simp only [Int.cast_zero, zero_div, add_zero]
    rw [intfl, pyTrunc_nonneg (by exact_mod_cast hd0), Rat.floor_intCast]

example : unevenF 60 7 = true ∧ unevenF 60 12 = false := by decide +kernel

/-! ### Examples -/

/-- A service with an offset that has no exact float. -/
private def tenthCfg : Cfg :=
  { ext := ".m4s".toList, ato := fl (1 / 10), tsbd := some 60, segDur := 2, vodNr := 3, vodFirst := 1, startNr := 0,
    reps := [{ id := "V1".toList, contentType := "video".toList, timescale := 90000 }], relPath := "V1".toList }

/-- At an ordinary instant the hypotheses of `C83_number` hold, and the segment is sent. -/
example : Clear tenthCfg.ato 1700000000 (tenthCfg.ast + tenthCfg.segDur) ∧
    Clear tenthCfg.ato 1700000000 (tenthCfg.ast + (849999998 - 0 + 1) * tenthCfg.segDur) ∧
    (∃ s, getMediaF (fun _ => none) (tenthCfg.forNr 849999998) 1700000000 = .ok (.media s)) := by
  refine ⟨Or.inr (by decide +kernel), Or.inr (by decide +kernel), ?_⟩
  have h : ((getMediaF (fun _ => none) (tenthCfg.forNr 849999998) 1700000000).toOption.any
      (fun o => match o with | .media _ => true | _ => false)) = true := by decide +kernel
  cases hg : getMediaF (fun _ => none) (tenthCfg.forNr 849999998) 1700000000 with
  | error e => rw [hg] at h; cases h
  | ok o =>
    rw [hg] at h
    cases o with
    | media s => exact ⟨s, rfl⟩
    | _ => simp [Except.toOption] at h

/-- A time above 2^53 ticks is not exact as a float, but reaches its segment. -/
example : fl (((2 ^ 40 + 1) * 180001 : Nat) : Rat) ≠ ((2 ^ 40 + 1) * 180001 : Nat) ∧
    pyRound (fl (fl (fl (((2 ^ 40 + 1) * 180001 : Nat) : Rat) / fl (1 : Int)) / fl (180001 : Int))) = 2 ^ 40 + 1 := by
  decide +kernel

end Verif
