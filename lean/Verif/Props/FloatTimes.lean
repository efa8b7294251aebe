import Verif.Lemmas.Float
/-
C83: floating-point rounding in the request path.
-/
namespace Verif

/-- The comparison of the clock with `a - b` is decided clearly: `b` is a whole number of
2^-20 s, or the clock is more than 2^-20 s (a microsecond) away from `a - b`. -/
def Clear (b now : Rat) (a : Int) : Prop :=
  (∃ k : Int, b * 2 ^ 20 = k) ∨ 1 / 2 ^ 20 < |now - (a - b)|

theorem early_iff {a : Int} {b now : Rat} (ha : 0 ≤ a) (hb : 0 ≤ b) (hb' : b ≤ 2 ^ 32) (hn : now < 2 ^ 32)
    (hc : Clear b now a) : now < intSubFloat a b ↔ now < a - b := by
  by_cases hbig : a ≤ 2 ^ 33
  · have hfa : fl a = a := fl_int (by rw [abs_of_nonneg ha]; linarith)
    unfold intSubFloat
    rw [hfa]
    have haq : (0 : Rat) ≤ a := by exact_mod_cast ha
    have haq' : (a : Rat) ≤ 2 ^ 33 := by exact_mod_cast hbig
    have habs : |(a : Rat) - b| ≤ 2 ^ 33 := by rw [abs_le]; constructor <;> linarith
    rcases hc with ⟨k, hk⟩ | hc
    · rw [fl_exact (a * 2 ^ 20 - k) (-20) ?_ ?_]
      · have : |((a * 2 ^ 20 - k : Int) : Rat)| ≤ 2 ^ 53 := by
          have e : ((a * 2 ^ 20 - k : Int) : Rat) = (a - b) * 2 ^ 20 := by push_cast; rw [← hk]; ring
          rw [e, abs_mul, abs_of_pos (show (0 : Rat) < 2 ^ 20 by norm_num)]
          linarith
        exact_mod_cast this
      · rw [show pow2 (-20) = 1 / 2 ^ 20 by decide +kernel]
        push_cast
        rw [← hk]
        ring
    · have he := fl_err ((a : Rat) - b)
      have he' : |fl (a - b) - (a - b)| ≤ 1 / 2 ^ 20 := by
        refine he.trans ?_
        rw [div_le_iff₀ (by norm_num)]
        refine habs.trans (by norm_num)
      rw [abs_le] at he'
      rw [lt_abs] at hc
      constructor
      · intro h; rcases hc with hc | hc <;> linarith
      · intro h; rcases hc with hc | hc <;> linarith
  · have hgt : (2 ^ 33 : Rat) ≤ a := by exact_mod_cast (by omega : (2 ^ 33 : Int) ≤ a)
    have h1 : (2 ^ 33 : Rat) ≤ fl a := by
      have := fl_mono hgt
      have e : fl (2 ^ 33 : Rat) = 2 ^ 33 := by decide +kernel
      rwa [e] at this
    have h2 : (2 ^ 32 : Rat) ≤ intSubFloat a b := by
      unfold intSubFloat
      have := fl_mono (x := 2 ^ 32) (y := fl a - b) (by linarith)
      have e : fl (2 ^ 32 : Rat) = 2 ^ 32 := by decide +kernel
      rwa [e] at this
    constructor
    · intro _; linarith
    · intro _; linarith

theorem windowCheckF_eq {c : Cfg} {now : Rat} {a : Int} (st : Option Int) (ha : 0 ≤ a) (hn : now < 2 ^ 32)
    (hato : c.ato = -1 ∨ 0 ≤ c.ato ∧ c.ato ≤ 2 ^ 32 ∧ Clear c.ato now a) :
    windowCheckF c now a st = windowCheck c now a st := by
  unfold windowCheckF windowCheck
  by_cases h1 : c.ato = -1
  · rw [if_pos h1, if_pos h1]
  · rw [if_neg h1, if_neg h1]
    obtain ⟨h2, h3, h4⟩ := hato.resolve_left h1
    by_cases h : now < a - c.ato
    · rw [if_pos h, if_pos ((early_iff ha h2 h3 hn h4).mpr h)]
    · rw [if_neg h, if_neg (fun hh => h ((early_iff ha h2 h3 hn h4).mp hh))]
      cases c.tsbd <;> rfl

/-- The number of repetitions of a loss pattern is not affected by rounding. -/
theorem lossActionF_eq (u : List Text) (now : Int) : lossActionF u now = lossAction u now := by
  have key : ∀ total : Int, total ≠ 0 →
      (fl ((60 : Rat) / fl total)).ceil.toNat = ((60 : Rat) / total).ceil.toNat := by
    intro total h0
    rcases lt_or_gt_of_ne h0 with hneg | hpos
    · have hq : (total : Rat) ≤ 0 := by exact_mod_cast hneg.le
      have hf : fl total ≤ 0 := by simpa [fl_zero] using fl_mono hq
      have h1 : (60 : Rat) / fl total ≤ 0 := div_nonpos_of_nonneg_of_nonpos (by norm_num) hf
      have h2 : fl ((60 : Rat) / fl total) ≤ 0 := by simpa [fl_zero] using fl_mono h1
      have h3 : (60 : Rat) / total ≤ 0 := div_nonpos_of_nonneg_of_nonpos (by norm_num) hq
      have e1 : (fl ((60 : Rat) / fl total)).ceil ≤ 0 := Rat.ceil_le_iff.mpr (by simpa using h2)
      have e2 : ((60 : Rat) / total).ceil ≤ 0 := Rat.ceil_le_iff.mpr (by simpa using h3)
      omega
    · by_cases hb : total ≤ 60
      · have all : ∀ t : Fin 61, t.val ≠ 0 →
            (fl ((60 : Rat) / fl ((t.val : Int) : Rat))).ceil = ((60 : Rat) / ((t.val : Int) : Rat)).ceil := by
          decide +kernel
        have := all ⟨total.toNat, by omega⟩ (by simp; omega)
        simp only [show ((total.toNat : Nat) : Int) = total by omega] at this
        rw [this]
      · have hq : (60 : Rat) ≤ total := by exact_mod_cast (by omega : (60 : Int) ≤ total)
        have hf : (60 : Rat) ≤ fl total := by
          have := fl_mono hq
          have e : fl (60 : Rat) = 60 := by decide +kernel
          rwa [e] at this
        have one : ∀ x : Rat, 0 < x → x ≤ 1 → x.ceil = 1 := by
          intro x h0 h1
          have a : x.ceil ≤ 1 := Rat.ceil_le_iff.mpr (by simpa using h1)
          have b : ¬ x.ceil ≤ 0 := fun h => by
            have := Rat.ceil_le_iff.mp h
            simp at this
            linarith
          omega
        have p1 : (0 : Rat) < 60 / fl total := div_pos (by norm_num) (by linarith)
        have l1 : (60 : Rat) / fl total ≤ 1 := by rw [div_le_one (by linarith)]; exact hf
        have l2 : fl ((60 : Rat) / fl total) ≤ 1 := by
          have := fl_mono l1
          have e : fl (1 : Rat) = 1 := by decide +kernel
          rwa [e] at this
        have p2 : 0 < fl ((60 : Rat) / fl total) := by rw [fl_pos p1]; exact flPos_pos p1
        rw [one _ p2 l2, one ((60 : Rat) / total) (div_pos (by norm_num) (by linarith))
          (by rw [div_le_one (by linarith)]; exact hq)]
  rcases u with _ | ⟨u, _ | ⟨v, us⟩⟩
  · rfl
  · unfold lossActionF lossAction
    dsimp only
    cases hp : parseUpDown u with
    | error e => rfl
    | ok v =>
      obtain ⟨ca, d1, cb, d2⟩ := v
      simp only [Bind.bind, Except.bind]
      by_cases h0 : d1 + d2 = 0
      · rw [if_pos h0, if_pos h0]
      · rw [if_neg h0, if_neg h0]
        simp only [key _ h0]
  · rfl

theorem processMediaNrF_eq {c : Cfg} {now : Rat} {n : Int} (hast : 0 ≤ c.ast) (hd : 0 < c.segDur)
    (hn : now < 2 ^ 32) (hato : c.ato = -1 ∨ 0 ≤ c.ato ∧ c.ato ≤ 2 ^ 32)
    (hc : ∀ start, c.segStartNr = .ok start → Clear c.ato now (c.ast + (n - start + 1) * c.segDur)) :
    processMediaNrF c now n = processMediaNr c now n := by
  unfold processMediaNrF processMediaNr
  cases hs : c.segStartNr with
  | error e => rfl
  | ok start =>
    simp only [Bind.bind, Except.bind]
    by_cases hlt : n < start
    · rw [if_pos hlt, if_pos hlt]
    · rw [if_neg hlt, if_neg hlt]
      have hpos : 0 ≤ (n - start) * c.segDur := mul_nonneg (by omega) hd.le
      have e : (n - start) * c.segDur + c.adjustedPto 0 1 + c.segDur - c.adjustedPto 0 1 + c.ast =
          c.ast + (n - start + 1) * c.segDur := by ring
      have hw : ∀ st, windowCheckF c now
          ((n - start) * c.segDur + c.adjustedPto 0 1 + c.segDur - c.adjustedPto 0 1 + c.ast) st =
          windowCheck c now ((n - start) * c.segDur + c.adjustedPto 0 1 + c.segDur - c.adjustedPto 0 1 + c.ast) st := by
        intro st
        rw [e]
        refine windowCheckF_eq st (by rw [add_mul]; omega) hn ?_
        exact hato.imp id (fun h => ⟨h.1, h.2, hc start hs⟩)
      cases hst : c.stopNumber with
      | error e => rfl
      | ok st =>
        dsimp only
        rw [hw st]
        by_cases hs : stopTruthy st = true ∧ st.getD 0 ≤ n
        · rw [if_pos hs, if_pos hs]
        · rw [if_neg hs, if_neg hs]
          cases beyondLastNr c.lastNrs n with
          | some l => rfl
          | none =>
            dsimp only
            cases windowCheck c now ((n - start) * c.segDur + c.adjustedPto 0 1 + c.segDur - c.adjustedPto 0 1 + c.ast) st with
            | error e => rfl
            | ok w => cases w <;> rfl

theorem requestedNrF_forNr (pf : Text → Option Rat) (c : Cfg) (n : Int) :
    (c.forNr n).requestedNrF pf = .ok n := by
  unfold Cfg.requestedNrF Cfg.forNr
  simp only [intText_splitext]
  obtain ⟨ch, cs, h, hne⟩ := intText_head n
  have hp := pyInt_intText n
  rw [h] at hp ⊢
  simp [hne, hp]

/-- The part of `get_media` before the segment number is looked at. -/
theorem getMediaF_eq {pf pf' : Text → Option Rat} {c c' : Cfg} {now : Rat}
    (he : c.ext = ".m4s".toList) (he' : c'.ext = ".m4s".toList) (ha : c'.ast = c.ast)
    (hs : c'.segDur = c.segDur) (hat : c'.ato = c.ato)
    (haet : c'.aet = c.aet) (hm : c'.multiUrl = c.multiUrl)
    (hast : 0 ≤ c.ast) (hd : 0 < c.segDur) (hn : now < 2 ^ 32)
    (hato : c.ato = -1 ∨ 0 ≤ c.ato ∧ c.ato ≤ 2 ^ 32 ∧ Clear c.ato now (c.ast + c.segDur))
    (h1 : processMediaF pf c now = processMedia pf' c' now)
    (h2 : processMediaF pf { c with emsgLastSeg := true } now =
      processMedia pf' { c' with emsgLastSeg := true } now) :
    getMediaF pf c now = getMedia pf' c' now := by
  have hi : now < (if c.ato = -1 then (c.ast : Rat) else intSubFloat (c.ast + c.segDur) c.ato) ↔
      now < (if c'.ato = -1 then (c'.ast : Rat) else c'.ast + c'.segDur - c'.ato) := by
    rw [ha, hs, hat]
    by_cases h : c.ato = -1
    · rw [if_pos h, if_pos h]
    · obtain ⟨h3, h4, h5⟩ := hato.resolve_left h
      rw [if_neg h, if_neg h]
      have hi := early_iff (by omega) h3 h4 hn h5
      push_cast at hi
      exact hi
  unfold getMediaF getMedia
  dsimp only
  rw [lossActionF_eq, h1, h2]
  generalize processMedia pf' c' now = x
  generalize processMedia pf' { c' with emsgLastSeg := true } now = y
  rw [he, he', haet, hm]
  have hx : ¬ (".m4s".toList ≠ ".m4s".toList ∧ ".m4s".toList ≠ ".jpg".toList) := fun h => h.1 rfl
  simp only [if_neg hx, hi, ite_true]
  split
  · rfl
  · split
    · rfl
    · cases lossAction c.multiUrl (pyTrunc now) with
      | error e => rfl
      | ok v => cases v <;> rfl

/-- **C83 (requests by number).** In the program as it runs, with every float operation rounded to binary64, a
request for segment `n` gets the same answer as with exact arithmetic: at every clock value when the availability time
offset is a whole number of 2^-20 s, and for any other offset at every clock value more than a microsecond (2^-20 s)
away from the instant at which the segment (or the first segment of the service) becomes available.  The clock is
before the year 2106. -/
theorem C83_number {pf : Text → Option Rat} {c : Cfg} {now : Rat} {n : Int} (hast : 0 ≤ c.ast) (hd : 0 < c.segDur)
    (hn : now < 2 ^ 32) (hato : c.ato = -1 ∨ 0 ≤ c.ato ∧ c.ato ≤ 2 ^ 32)
    (hfirst : Clear c.ato now (c.ast + c.segDur))
    (hc : ∀ start, c.segStartNr = .ok start → Clear c.ato now (c.ast + (n - start + 1) * c.segDur)) :
    getMediaF pf (c.forNr n) now = getMedia pf (c.forNr n) now := by
  have e : ∀ b, processMediaF pf { c.forNr n with emsgLastSeg := b } now =
      processMedia pf { c.forNr n with emsgLastSeg := b } now := by
    intro b
    have r1 : ({ c.forNr n with emsgLastSeg := b } : Cfg).requestedNrF pf = .ok n := requestedNrF_forNr pf c n
    have r2 : ({ c.forNr n with emsgLastSeg := b } : Cfg).requestedNr pf = .ok n := requestedNr_forNr pf c n
    unfold processMediaF processMedia
    rw [r1, r2]
    exact processMediaNrF_eq (c := { c.forNr n with emsgLastSeg := b }) hast hd hn hato hc
  exact getMediaF_eq rfl rfl rfl rfl rfl rfl rfl hast hd hn (hato.imp id (fun h => ⟨h.1, h.2, hfirst⟩))
    (e c.emsgLastSeg) (e true)

/-! ### Requests by time -/

theorem fl_bounds {x : Rat} (h : 0 ≤ x) : x * (1 - 1 / 2 ^ 53) ≤ fl x ∧ fl x ≤ x * (1 + 1 / 2 ^ 53) := by
  have := fl_err x
  rw [abs_of_nonneg h, abs_le] at this
  constructor <;> linarith [this.1, this.2]

/-- Three roundings of a quotient. -/
theorem quotient_near {T : Nat} {d ts : Int} (hd : 0 < d) (hd' : d ≤ 2 ^ 53) (ht : 0 < ts) (ht' : ts ≤ 2 ^ 53)
    {k : Int} (hk : k ≤ 2 ^ 48) (h : 4 * |(T : Int) - k * (d * ts)| ≤ d * ts) :
    pyRound (fl (fl (fl T / fl d) / fl ts)) = k := by
  have e1 : fl (d : Rat) = d := fl_int (by rw [abs_of_pos hd]; exact hd')
  have e2 : fl (ts : Rat) = ts := fl_int (by rw [abs_of_pos ht]; exact ht')
  rw [e1, e2]
  have hdq : (0 : Rat) < d := by exact_mod_cast hd
  have htq : (0 : Rat) < ts := by exact_mod_cast ht
  have hp : (0 : Rat) < d * ts := mul_pos hdq htq
  have hT : (0 : Rat) ≤ T := by positivity
  have hq : 4 * |(T : Rat) - k * (d * ts)| ≤ d * ts := by exact_mod_cast h
  have hkq : (k : Rat) ≤ 2 ^ 48 := by exact_mod_cast hk
  obtain ⟨f1, f2⟩ := fl_bounds hT
  have hf : 0 ≤ fl (T : Rat) := fl_nonneg hT
  obtain ⟨g1, g2⟩ := fl_bounds (div_nonneg hf hdq.le)
  have hg : 0 ≤ fl (fl T / d) := fl_nonneg (div_nonneg hf hdq.le)
  obtain ⟨k1, k2⟩ := fl_bounds (div_nonneg hg htq.le)
  generalize fl (fl (fl T / d) / ts) = z at *
  generalize fl (fl (T : Rat) / d) = y at *
  generalize fl (T : Rat) = x at *
  generalize hQ : (T : Rat) / (d * ts) = Q
  have hTQ : (T : Rat) = Q * (d * ts) := by rw [← hQ]; field_simp
  have hQ0 : 0 ≤ Q := by rw [← hQ]; positivity
  have habs := abs_le.mp (show |(T : Rat) - k * (d * ts)| ≤ d * ts / 4 by linarith)
  have hQk : (k : Rat) - 1 / 4 ≤ Q ∧ Q ≤ k + 1 / 4 := by
    rw [hTQ] at habs
    constructor
    · by_contra hc
      have : (Q - (k - 1 / 4)) * (d * ts) < 0 := mul_neg_of_neg_of_pos (by linarith) hp
      linarith [habs.1]
    · by_contra hc
      have : 0 < (Q - (k + 1 / 4)) * (d * ts) := mul_pos (by linarith) hp
      linarith [habs.2]
  rw [hTQ] at f1 f2
  have e : (0 : Rat) < 1 - 1 / 2 ^ 53 := by norm_num
  have e' : (0 : Rat) < 1 + 1 / 2 ^ 53 := by norm_num
  have y1 : Q * ts * (1 - 1 / 2 ^ 53) * (1 - 1 / 2 ^ 53) ≤ y := by
    refine le_trans (mul_le_mul_of_nonneg_right ?_ e.le) g1
    rw [le_div_iff₀ hdq]
    linarith
  have y2 : y ≤ Q * ts * (1 + 1 / 2 ^ 53) * (1 + 1 / 2 ^ 53) := by
    refine g2.trans (mul_le_mul_of_nonneg_right ?_ e'.le)
    rw [div_le_iff₀ hdq]
    linarith
  have z1 : Q * (1 - 1 / 2 ^ 53) * (1 - 1 / 2 ^ 53) * (1 - 1 / 2 ^ 53) ≤ z := by
    refine le_trans (mul_le_mul_of_nonneg_right ?_ e.le) k1
    rw [le_div_iff₀ htq]
    linarith
  have z2 : z ≤ Q * (1 + 1 / 2 ^ 53) * (1 + 1 / 2 ^ 53) * (1 + 1 / 2 ^ 53) := by
    refine k2.trans (mul_le_mul_of_nonneg_right ?_ e'.le)
    rw [div_le_iff₀ htq]
    linarith
  apply pyRound_near
  · have : Q * (1 - 1 / 2 ^ 53) * (1 - 1 / 2 ^ 53) * (1 - 1 / 2 ^ 53) ≥ Q - Q / 2 ^ 51 := by
      have : Q * (1 - 1 / 2 ^ 53) * (1 - 1 / 2 ^ 53) * (1 - 1 / 2 ^ 53) =
        Q * ((1 - 1 / 2 ^ 53) * (1 - 1 / 2 ^ 53) * (1 - 1 / 2 ^ 53)) := by ring
      rw [this, ge_iff_le, show Q - Q / 2 ^ 51 = Q * (1 - 1 / 2 ^ 51) by ring]
      exact mul_le_mul_of_nonneg_left (by norm_num) hQ0
    linarith [hQk.1, hQk.2]
  · have : Q * (1 + 1 / 2 ^ 53) * (1 + 1 / 2 ^ 53) * (1 + 1 / 2 ^ 53) ≤ Q + Q / 2 ^ 51 := by
      have : Q * (1 + 1 / 2 ^ 53) * (1 + 1 / 2 ^ 53) * (1 + 1 / 2 ^ 53) =
        Q * ((1 + 1 / 2 ^ 53) * (1 + 1 / 2 ^ 53) * (1 + 1 / 2 ^ 53)) := by ring
      rw [this, show Q + Q / 2 ^ 51 = Q * (1 + 1 / 2 ^ 51) by ring]
      exact mul_le_mul_of_nonneg_left (by norm_num) hQ0
    linarith [hQk.1, hQk.2]

theorem requestedNrF_forTime {pf : Text → Option Rat} (hpf : ∀ n : Nat, pf (natText n) = some (fl (n : Rat)))
    {c : Cfg} (hd : 0 < c.segDur) (hd' : c.segDur ≤ 2 ^ 53) {ts : Int} (hts : c.curTimescale = some ts) (h0 : 0 < ts)
    (h0' : ts ≤ 2 ^ 53) {T : Nat} {k : Int} (hk : k ≤ 2 ^ 48)
    (h : 4 * |(T : Int) - k * (c.segDur * ts)| ≤ c.segDur * ts) :
    (c.forTime T).requestedNrF pf = .ok k := by
  have hsplit : splitext ('t' :: natText T ++ ".m4s".toList) = ('t' :: natText T, ".m4s".toList) := by
    have : (".m4s".toList : Text) = '.' :: "m4s".toList := rfl
    rw [this]
    exact splitext_dot (by decide) ⟨'t', by simp, by decide⟩
  have hcur : (c.forTime T).curTimescale = some ts := hts
  have hseg : (c.forTime T).segDur = c.segDur := rfl
  have hfn : (c.forTime T).filename = 't' :: natText T ++ ".m4s".toList := rfl
  unfold Cfg.requestedNrF
  simp only [hfn, hsplit]
  rw [if_pos trivial]
  simp only [hpf, hcur, hseg]
  rw [if_neg (by omega), if_neg (by omega), quotient_near hd hd' h0 h0' hk h]

/-- **C83 (requests by time).** The same for requests by start time `T` (ticks): the float quotients of a time
within a quarter of a segment from a multiple `k` of the segment duration round to `k`, up to `k = 2^48`, although
`float(T)` itself may be inexact.  `pf` parses with rounding, `pf'` exactly. -/
theorem C83_time {pf pf' : Text → Option Rat} (hpf : ∀ n : Nat, pf (natText n) = some (fl (n : Rat)))
    (hpf' : ∀ n : Nat, pf' (natText n) = some (n : Rat))
    {c : Cfg} {now : Rat} (hast : 0 ≤ c.ast) (hd : 0 < c.segDur) (hd' : c.segDur ≤ 2 ^ 53)
    {ts : Int} (hts : c.curTimescale = some ts) (h0 : 0 < ts) (h0' : ts ≤ 2 ^ 53)
    (hn : now < 2 ^ 32) (hato : c.ato = -1 ∨ 0 ≤ c.ato ∧ c.ato ≤ 2 ^ 32)
    {T : Nat} {k : Int} (hk : k ≤ 2 ^ 48) (hT : 4 * |(T : Int) - k * (c.segDur * ts)| ≤ c.segDur * ts)
    (hfirst : Clear c.ato now (c.ast + c.segDur))
    (hc : ∀ start, c.segStartNr = .ok start → Clear c.ato now (c.ast + (k - start + 1) * c.segDur)) :
    getMediaF pf (c.forTime T) now = getMedia pf' (c.forTime T) now := by
  have hp : 0 < c.segDur * ts := mul_pos hd h0
  have e : ∀ b, processMediaF pf { c.forTime T with emsgLastSeg := b } now =
      processMedia pf' { c.forTime T with emsgLastSeg := b } now := by
    intro b
    have r1 : ({ c.forTime T with emsgLastSeg := b } : Cfg).requestedNrF pf = .ok k :=
      requestedNrF_forTime hpf hd hd' hts h0 h0' hk hT
    have r2 : ({ c.forTime T with emsgLastSeg := b } : Cfg).requestedNr pf' = .ok k :=
      requestedNr_forTime hpf' hd hts h0 (by omega)
    unfold processMediaF processMedia
    rw [r1, r2]
    exact processMediaNrF_eq (c := { c.forTime T with emsgLastSeg := b }) hast hd hn hato hc
  exact getMediaF_eq rfl rfl rfl rfl rfl rfl rfl hast hd hn (hato.imp id (fun h => ⟨h.1, h.2, hfirst⟩))
    (e c.emsgLastSeg) (e true)

/-! ### Order -/

/-- What `process_media_segment` says about the lower end of the window. -/
theorem processMediaNrF_low {c : Cfg} {now : Rat} {n : Int} {out : MediaOut} (h : processMediaNrF c now n = .ok out) :
    (out = .tooEarly → c.ato ≠ -1 ∧ ∃ start, c.segStartNr = .ok start ∧ start ≤ n ∧
      now < intSubFloat (c.ast + (n - start + 1) * c.segDur) c.ato) ∧
    (∀ s, out = .media s → ∃ start, c.segStartNr = .ok start ∧ start ≤ n ∧
      (c.ato = -1 ∨ intSubFloat (c.ast + (n - start + 1) * c.segDur) c.ato ≤ now)) := by
  unfold processMediaNrF at h
  cases hs : c.segStartNr with
  | error e => rw [hs] at h; cases h
  | ok start =>
    rw [hs] at h
    simp only [Bind.bind, Except.bind] at h
    by_cases hlt : n < start
    · rw [if_pos hlt] at h; cases h; exact ⟨by simp, by simp⟩
    · rw [if_neg hlt] at h
      cases hst : c.stopNumber with
      | error e => rw [hst] at h; cases h
      | ok st =>
        rw [hst] at h
        dsimp only at h
        split at h
        · cases h; exact ⟨by simp, by simp⟩
        · cases hb : beyondLastNr c.lastNrs n with
          | some l => rw [hb] at h; cases h; exact ⟨by simp, by simp⟩
          | none =>
            rw [hb] at h
            dsimp only at h
            rw [show (n - start) * c.segDur + c.adjustedPto 0 1 + c.segDur - c.adjustedPto 0 1 + c.ast =
              c.ast + (n - start + 1) * c.segDur by ring] at h
            generalize hA : c.ast + (n - start + 1) * c.segDur = A at h
            have hw : windowCheckF c now A st = windowCheckF c now A st := rfl
            conv_rhs at hw => unfold windowCheckF
            by_cases ha : c.ato = -1
            · rw [if_pos ha] at hw
              rw [hw] at h
              dsimp only at h
              refine ⟨?_, fun s _ => ⟨start, rfl, by omega, Or.inl ha⟩⟩
              intro ho
              subst ho
              generalize loopPos _ _ _ _ = L at h
              cases L <;> simp at h
            · rw [if_neg ha] at hw
              by_cases hlo : now < intSubFloat A c.ato
              · rw [if_pos hlo] at hw
                rw [hw] at h
                cases h
                exact ⟨fun _ => ⟨ha, start, rfl, by omega, by rw [hA]; exact hlo⟩, by simp⟩
              · refine ⟨?_, fun s _ => ⟨start, rfl, by omega, Or.inr (by rw [hA]; exact not_lt.mp hlo)⟩⟩
                intro ho
                subst ho
                rw [if_neg hlo] at hw
                cases htb : c.tsbd with
                | none => rw [htb] at hw; rw [hw] at h; cases h
                | some tb =>
                  rw [htb] at hw
                  dsimp only at hw
                  split at hw
                  · rw [hw] at h; cases h
                  · rw [hw] at h
                    dsimp only at h
                    generalize loopPos _ _ _ _ = L at h
                    cases L <;> simp at h

/-- A reply of `get_media` to a number request that is about the window comes from `process_media_segment`. -/
theorem getMediaF_from {pf : Text → Option Rat} {c : Cfg} {now : Rat} {n : Int} {out : MediaOut}
    (h : getMediaF pf (c.forNr n) now = .ok out) (ho : out = .tooEarly ∨ ∃ s, out = .media s) :
    ∃ b, processMediaNrF { c.forNr n with emsgLastSeg := b } now n = .ok out := by
  have r : ∀ b, processMediaF pf { c.forNr n with emsgLastSeg := b } now =
      processMediaNrF { c.forNr n with emsgLastSeg := b } now n := by
    intro b
    have r1 : ({ c.forNr n with emsgLastSeg := b } : Cfg).requestedNrF pf = .ok n := requestedNrF_forNr pf c n
    unfold processMediaF
    rw [r1]
    rfl
  have r0 := r c.emsgLastSeg
  have r1 := r true
  have hx : ¬ ((c.forNr n).ext ≠ ".m4s".toList ∧ (c.forNr n).ext ≠ ".jpg".toList) := fun h => h.1 rfl
  unfold getMediaF at h
  rw [if_neg hx] at h
  dsimp only at h
  generalize (if (c.forNr n).ato = -1 then ((c.forNr n).ast : Rat)
    else intSubFloat ((c.forNr n).ast + (c.forNr n).segDur) (c.forNr n).ato) = fa at h
  split at h
  · cases h; rcases ho with ho | ⟨s, ho⟩ <;> cases ho
  · split at h
    · cases h; rcases ho with ho | ⟨s, ho⟩ <;> cases ho
    · rw [if_pos (show (c.forNr n).ext = ".m4s".toList from rfl)] at h
      cases hl : lossActionF (c.forNr n).multiUrl (pyTrunc now) with
      | error e => rw [hl] at h; cases h
      | ok v =>
        rw [hl] at h
        cases v with
        | down => cases h; rcases ho with ho | ⟨s, ho⟩ <;> cases ho
        | emsg => exact ⟨true, r1.symm.trans h⟩
        | plain => exact ⟨c.emsgLastSeg, r0.symm.trans h⟩

/-- **C83 (order).** Rounding never opens a hole in the list of available segments, whatever the float offset: when
segment `m` is sent at some instant, then no request for an earlier segment, at that instant or later, is refused as
too early. -/
theorem C83_order {pf : Text → Option Rat} {c : Cfg} (hd : 0 < c.segDur) {n m : Int} (hnm : n ≤ m) {now now' : Rat}
    (ht : now ≤ now') {s : Served} (hm : getMediaF pf (c.forNr m) now = .ok (.media s)) :
    getMediaF pf (c.forNr n) now' ≠ .ok .tooEarly := by
  intro he
  obtain ⟨b, h1⟩ := getMediaF_from hm (Or.inr ⟨s, rfl⟩)
  obtain ⟨b', h2⟩ := getMediaF_from he (Or.inl rfl)
  obtain ⟨start, s1, -, s2⟩ := (processMediaNrF_low h1).2 s rfl
  obtain ⟨hne, start', s3, -, s4⟩ := (processMediaNrF_low h2).1 rfl
  have hs : start' = start := Except.ok.inj (s3.symm.trans s1)
  subst hs
  have s2' := s2.resolve_left hne
  have hmono : intSubFloat (c.ast + (n - start' + 1) * c.segDur) c.ato ≤
      intSubFloat (c.ast + (m - start' + 1) * c.segDur) c.ato := by
    unfold intSubFloat
    apply fl_mono
    have : fl ((c.ast + (n - start' + 1) * c.segDur : Int) : Rat) ≤ fl ((c.ast + (m - start' + 1) * c.segDur : Int) : Rat) := by
      apply fl_mono
      have : (n - start' + 1) * c.segDur ≤ (m - start' + 1) * c.segDur :=
        mul_le_mul_of_nonneg_right (by omega) hd.le
      exact_mod_cast (by omega : c.ast + (n - start' + 1) * c.segDur ≤ c.ast + (m - start' + 1) * c.segDur)
    linarith
  have s4' : now' < intSubFloat (c.ast + (n - start' + 1) * c.segDur) c.ato := s4
  have s2'' : intSubFloat (c.ast + (m - start' + 1) * c.segDur) c.ato ≤ now := s2'
  linarith

end Verif
