import Mathlib.Algebra.Order.Ring.Abs
import Verif.Props.MpdTimeline
import Verif.Props.MpdLinks
import Verif.Props.TimeAddressing
import Verif.Props.DecodeTimes
import Verif.Spec.TimelineClient
import Verif.Lemmas.FixedUrl
/-
C74: the segments that the timelines of a manifest list can be fetched.
-/
namespace Verif
open Spec

/-- A service without announced ends other than a stop, which is the announced duration after the start. -/
structure Running (c : Cfg) : Prop where
  segDur : 0 < c.segDur
  vodNr : 0 < c.vodNr
  ato : 0 ≤ c.ato
  last : c.lastNrs = []
  aet : c.aet = none
  urls : c.multiUrl.length ≠ 1
  tsbd : c.tsbd.isSome
  stop : ∀ z ∈ c.stopTime, c.segDur ∣ z - c.ast ∧ c.mpdDur = some ((z - c.ast : Int) : Rat)

theorem Plain.running {c : Cfg} (h : Plain c) : Running c :=
  ⟨h.segDur, h.vodNr, h.ato, h.last, h.aet, h.urls, h.tsbd, by rw [h.stop]; simp⟩

theorem Running.wellFormed {c : Cfg} (h : Running c) : WellFormed c :=
  ⟨h.segDur, h.vodNr, h.urls, h.tsbd, fun hs => by
    obtain ⟨z, hz⟩ := Option.isSome_iff_exists.mp hs
    rw [(h.stop z hz).2]
    rfl⟩

/-- Within the window of the service and before its stop a segment is served. -/
theorem Running.served (pf : Text → Option Rat) {c : Cfg} (h : Running c) (hs : c.startNr = 0) (hto : c.timeoffset = none)
    {n : Int} {time : Rat} (ha : (serviceOf c).Available n time)
    (hstop : ∀ z ∈ c.stopTime, (n + 1) * c.segDur ≤ z - c.ast) : IsServed pf c n time := by
  have hf : firstNumber c = 0 := by unfold firstNumber; rw [hto, hs, if_neg (by decide)]
  have hd := h.segDur
  have hsd : (0 : Rat) < c.segDur := by exact_mod_cast hd
  obtain ⟨a1, a2, a3⟩ := ha
  have hopen : (serviceOf c).opens n = (c.ast + ((n - firstNumber c : Int) : Rat) * c.segDur) + c.segDur - c.ato := rfl
  have a1' : firstNumber c ≤ n := a1
  rw [C01_general pf h.wellFormed, h.aet, h.last]
  refine ⟨?_, by simp, a1, ?_, by simp, fun _ => ⟨a2, fun _ => a3⟩⟩
  · rw [hopen] at a2
    have := h.ato
    unfold gateTime
    rw [if_neg (by linarith)]
    have : (0 : Rat) ≤ ((n - firstNumber c : Int) : Rat) * c.segDur :=
      mul_nonneg (by exact_mod_cast (by omega : 0 ≤ n - firstNumber c)) hsd.le
    linarith
  · intro e he
    unfold effectiveStop at he
    cases hz : c.stopTime with
    | none => rw [hz] at he; cases he
    | some z =>
      obtain ⟨⟨q, hq⟩, hdur⟩ := h.stop z hz
      have hx := hstop z hz
      have hfl : (((z - c.ast : Int) : Rat) / c.segDur).floor = q := by
        rw [hq]
        push_cast
        rw [mul_div_cancel_left₀ _ (by exact_mod_cast hd.ne'), Rat.floor_intCast]
      rw [hz, hdur, hs, hto] at he
      dsimp only at he
      rw [hfl] at he
      split at he
      · cases he
      · have he : 0 + 0 + q = e := Option.some.inj he
        rw [hq, mul_comm c.segDur] at hx
        have := le_of_mul_le_mul_right hx hd
        omega

/-- A segment between the one at the start of the buffer and the last one that has ended is available, and stays so for
the duration of a segment. -/
theorem listed_available {c : Cfg} (h : Running c) (hs : c.startNr = 0) (hto : c.timeoffset = none) {tsbd : Int}
    (ht : c.tsbd = some tsbd) {durs : List Nat} {scale : Nat} (hsc : 0 < scale) (hn : NearNominal c.segDur scale durs)
    {now a b : Int} {k l j : Nat} (ha : now - tsbd - c.ast ≤ a) (hb : b ≤ now - c.ast)
    (hne : durs ≠ []) (hpos : ∀ d ∈ durs, 0 < d)
    (hk : Holds durs (a * scale) k) (hl : LastEnded durs (b * scale) l) (h1 : k ≤ j) (h2 : j ≤ l) {time : Rat}
    (t1 : (now : Rat) ≤ time) (t2 : time ≤ now + c.segDur) :
    (serviceOf c).Available j time ∧ ((j : Int) + 1) * c.segDur ≤ now - c.ast := by
  have hf : firstNumber c = 0 := by unfold firstNumber; rw [hto, hs, if_neg (by decide)]
  have hd := h.segDur
  have hsc' : (0 : Int) < scale := by omega
  -- the end of the segment has passed
  have he : (loopEnd durs l : Int) ≤ b * scale := hl.1
  have e1 : loopStart durs (j + 1) ≤ loopStart durs (l + 1) := by
    rcases Nat.lt_or_ge j l with hlt | hge
    · exact (loopStart_lt durs hne hpos (by omega)).le
    · rw [show j = l by omega]
  have e2 : loopStart durs (l + 1) = loopEnd durs l := loopStart_succ durs hne l
  obtain ⟨n1, -⟩ := hn (j + 1)
  rw [abs_lt] at n1
  have hup : ((j : Int) + 1) * c.segDur ≤ now - c.ast := by
    by_contra hc
    have h3 : now - c.ast + 1 ≤ ((j : Int) + 1) * c.segDur := by omega
    have h4 := mul_le_mul_of_nonneg_right h3 hsc'.le
    have h5 := mul_le_mul_of_nonneg_right hb hsc'.le
    have h6 := n1.1
    push_cast at h6
    have h7 : ((j : Int) + 1) * (c.segDur * scale) = ((j : Int) + 1) * c.segDur * scale := by ring
    rw [h7] at h6
    have h8 : (now - c.ast + 1) * (scale : Int) = (now - c.ast) * scale + scale := by ring
    rw [h8] at h4
    omega
  have hlo : now - c.ast - tsbd ≤ ((j : Int) + 1) * c.segDur := by
    by_contra hc
    have h3 : ((j : Int) + 1) * c.segDur + 1 ≤ a := by omega
    have h4 := mul_le_mul_of_nonneg_right h3 hsc'.le
    have h5 : a * (scale : Int) ≤ loopEnd durs k := hk.2
    have h6 := n1.2
    have e3 : loopStart durs (k + 1) = loopEnd durs k := loopStart_succ durs hne k
    have e4 : loopStart durs (k + 1) ≤ loopStart durs (j + 1) := by
      rcases Nat.lt_or_ge k j with hlt | hge
      · exact (loopStart_lt durs hne hpos (by omega)).le
      · rw [show k = j by omega]
    push_cast at h6
    have h7 : ((j : Int) + 1) * (c.segDur * scale) = ((j : Int) + 1) * c.segDur * scale := by ring
    rw [h7] at h6
    have h8 : (((j : Int) + 1) * c.segDur + 1) * (scale : Int) = ((j : Int) + 1) * c.segDur * scale + scale := by ring
    rw [h8] at h4
    omega
  have q1 : (((j : Int) + 1) * c.segDur : Rat) ≤ now - c.ast := by exact_mod_cast hup
  have q2 : (now - c.ast - tsbd : Rat) ≤ ((j : Int) + 1) * c.segDur := by exact_mod_cast hlo
  have q3 := h.ato
  refine ⟨⟨?_, ?_, ?_⟩, hup⟩
  · show firstNumber c ≤ j
    omega
  · show (c.ast + (((j : Int) - firstNumber c) : Int) * c.segDur : Rat) + c.segDur - c.ato ≤ time
    rw [hf]
    push_cast at q1 ⊢
    linarith
  · show time ≤ (c.ast + (((j : Int) - firstNumber c) : Int) * c.segDur : Rat) + 2 * c.segDur + (c.tsbd.getD 0 : Int)
    rw [hf, ht]
    push_cast at q2 ⊢
    have : ((some tsbd : Option Int).getD 0 : Int) = tsbd := rfl
    rw [this]
    linarith

/-! ### Names -/

theorem Renamed.unique {old new p q q' : Text} (h : Renamed old new p q) (h' : Renamed old new p q') :
    q = q' := by
  induction h generalizing q' with
  | none hn =>
    cases h' with
    | none _ => rfl
    | more _ _ => exact absurd ⟨_, _, rfl⟩ hn
  | @more a b c hm hr ih =>
    generalize hp : a ++ old ++ b = p at h'
    cases h' with
    | none hn => exact absurd ⟨a, b, hp⟩ hn
    | @more a' b' c' hm' hr' =>
      have e1 := hm a' b' hp
      have e2 := hm' a b hp.symm
      rw [List.append_assoc, List.append_assoc] at hp
      obtain ⟨rfl, e3⟩ := List.append_inj hp (by omega)
      obtain ⟨-, rfl⟩ := List.append_inj e3 rfl
      rw [ih hr']

/-- The names of segments in the VoD manifests. -/
def vodMedia : Text := "$RepresentationID$/$Number$.m4s".toList

theorem renamed_media {m' : Text} (h : Renamed "$Number$".toList "t$Time$".toList vodMedia m') :
    m' = "$RepresentationID$/t$Time$.m4s".toList := by
  refine Renamed.unique h ?_
  have := replaceText_renamed (k := "$Number$".toList) (n := "t$Time$".toList) (by decide +kernel) 60 vodMedia
    (by decide +kernel)
  have e : replaceText "$Number$".toList "t$Time$".toList 60 vodMedia = "$RepresentationID$/t$Time$.m4s".toList := by
    decide +kernel
  rwa [e] at this

theorem fill_number (rep number time : Text) : fillTemplate rep number time vodMedia = rep ++ '/' :: number ++ ".m4s".toList := by
  have e : splitChar '$' vodMedia = [[], "RepresentationID".toList, "/".toList, "Number".toList, ".m4s".toList] := by
    decide +kernel
  have n1 : ¬"Number".toList = "RepresentationID".toList := by decide +kernel
  unfold fillTemplate
  rw [e, fillParts, fillParts, fillParts, if_pos rfl, if_neg n1, if_pos rfl]
  simp

theorem fill_time (rep number time : Text) : fillTemplate rep number time "$RepresentationID$/t$Time$.m4s".toList =
    rep ++ '/' :: 't' :: time ++ ".m4s".toList := by
  have e : splitChar '$' "$RepresentationID$/t$Time$.m4s".toList =
      [[], "RepresentationID".toList, "/t".toList, "Time".toList, ".m4s".toList] := by
    decide +kernel
  have n1 : ¬"Time".toList = "RepresentationID".toList := by decide +kernel
  have n2 : ¬"Time".toList = "Number".toList := by decide +kernel
  unfold fillTemplate
  rw [e, fillParts, fillParts, fillParts, if_pos rfl, if_neg n1, if_neg n2, if_pos rfl]
  simp

/-! ### Periods -/

theorem finishPeriod_durS (a pd : Int) (p : PeriodData) (next : Int) :
    (finishPeriod a pd p next).start = p.start ∧
      ∀ d ∈ (finishPeriod a pd p next).durS, d = pd ∨ d ∈ p.durS := by
  unfold finishPeriod
  dsimp only
  split <;> split <;> refine ⟨rfl, ?_⟩ <;> intro d hd <;> simp_all

theorem periodLoop_nonneg {c : Cfg} {n pd adFreq : Int} (hn : 0 < n) (hsd : 0 < c.segDur) (hpd : 0 ≤ pd)
    (he : c.etpDuration = -1 ∨ 0 ≤ c.etpDuration) : ∀ {k : Nat} {nr : Int} {pds : List PeriodData}, 0 ≤ nr →
    periodLoop c n pd adFreq nr k = .ok pds → ∀ p ∈ pds, 0 ≤ p.start ∧ ∀ d ∈ p.durS, 0 ≤ d
  | 0, nr, pds, _, h => by cases h; simp
  | k + 1, nr, pds, hnr, h => by
    unfold periodLoop at h
    cases hb : periodBase c n pd nr with
    | error e => rw [hb] at h; cases h
    | ok p =>
      rw [hb] at h
      cases hr : periodLoop c n pd adFreq (nr + 1) k with
      | error e => rw [hr] at h; cases h
      | ok rest =>
        rw [hr] at h
        simp only [bind, Except.bind, pure, Except.pure, Except.ok.injEq] at h
        subst h
        obtain ⟨f, -, hdur⟩ := periodBase_ok hn hsd hb
        have hp : 0 ≤ p.start ∧ ∀ d ∈ p.durS, 0 ≤ d := by
          refine ⟨by rw [f.start]; exact mul_nonneg hnr hpd, ?_⟩
          intro d hd
          rw [hdur, f.etp] at hd
          split at hd
          · cases hd
            rcases he with he | he
            · rw [if_pos he]; omega
            · rw [if_neg (by omega)]; exact he
          · cases hd
        intro q hq
        rcases List.mem_cons.1 hq with rfl | hq
        · split
          · exact hp
          · obtain ⟨e1, e2⟩ := finishPeriod_durS adFreq pd p (nr + 1)
            rw [e1]
            refine ⟨hp.1, fun d hd => ?_⟩
            rcases e2 d hd with rfl | hd
            · exact hpd
            · exact hp.2 d hd
        · exact periodLoop_nonneg hn hsd hpd he (by omega) hr q hq

theorem periodData_nonneg {c : Cfg} {now tsbd : Int} {pds : List PeriodData} (hsd : 0 < c.segDur)
    (ht : c.tsbd = some tsbd) (hnow : 0 < c.periods → tsbd + c.segDur ≤ now) (he : c.etpDuration = -1 ∨ 0 ≤ c.etpDuration)
    (h : periodData c now = .ok pds) : ∀ p ∈ pds, 0 ≤ p.start ∧ ∀ d ∈ p.durS, 0 ≤ d := by
  unfold periodData at h
  dsimp only at h
  split at h
  · cases h
  · rename_i hok
    simp only [bind, Except.bind] at h
    split at h
    · cases h
    · split at h
      · split at h
        · cases h
        · split at h
          · cases h
          · cases h
            intro p hp
            rw [List.mem_singleton.1 hp]
            exact ⟨le_refl _, by simp⟩
      · split at h
        · split at h
          · cases h
          · cases h
            intro p hp
            rw [List.mem_singleton.1 hp]
            exact ⟨by simp, by simp⟩
        · rename_i h1 h2
          rw [ht] at h
          dsimp only at h
          have hn : 0 < min c.periods 60 := by
            have hok : min c.periods 60 ∈ okPeriods := by simpa using hok
            have : ∀ m ∈ okPeriods, m = -1 ∨ m = 0 ∨ 0 < m := by decide
            rcases this _ hok with h | h | h
            · exact absurd h h1
            · exact absurd h h2
            · exact h
          have hp : 0 < 3600 / min c.periods 60 := Int.ediv_pos_of_pos_of_dvd (by decide) hn.le (by
            have hok : min c.periods 60 ∈ okPeriods := by simpa using hok
            have : ∀ m ∈ okPeriods, 0 < m → m ∣ 3600 := by decide
            exact this _ hok hn)
          have hnow := hnow (by omega)
          refine periodLoop_nonneg hn hsd hp.le he ?_ h
          rw [Int.fdiv_eq_ediv_of_nonneg _ hp.le]
          exact Int.ediv_nonneg (by omega) hp.le

/-! ### Media -/

/-- The decode time of a served segment is the start of the segment of the looped track. -/
theorem served_time {pf : Text → Option Rat} {c : Cfg} (h : WellFormed c) (hs : c.startNr = 0) (hto : c.timeoffset = none)
    {durs : List Nat} {scale : Nat} (hlen : (durs.length : Int) = c.vodNr)
    (hsum : (durs.sum : Int) = c.segDur * c.vodNr * scale) {times : Int → Nat}
    (htimes : ∀ i : Nat, i < durs.length → times (c.vodFirst + i) = (durs.take i).sum) {j : Nat} {now : Rat} {v : Served}
    (hv : getMedia pf (c.forNr j) now = .ok (.media v)) :
    (times v.vodNr : Int) + v.offset * scale = loopStart durs j := by
  have hd := h.segDur
  have hn := h.vodNr
  have hf : firstNumber c = 0 := by unfold firstNumber; rw [hto, hs, if_neg (by decide)]
  have hm : mediaTime c j = j * c.segDur := by unfold mediaTime; rw [hf, hto]; simp
  have hv' := served_eq h hv
  have h1 : v.vodNr = c.vodFirst + ((j % durs.length : Nat) : Int) := by
    rw [hv']
    show mediaTime c j / c.segDur % c.vodNr + c.vodFirst = _
    rw [hm, Int.mul_ediv_cancel _ (by omega), ← hlen]
    push_cast
    omega
  have h2 : v.offset = ((j / durs.length : Nat) : Int) * (c.segDur * c.vodNr) := by
    rw [hv']
    show mediaTime c j / (c.segDur * c.vodNr) * (c.segDur * c.vodNr) = _
    rw [hm, ← Int.ediv_ediv_of_nonneg (by omega : 0 ≤ c.segDur), Int.mul_ediv_cancel _ (by omega), ← hlen]
    push_cast
    rfl
  rw [h1, h2, htimes _ (Nat.mod_lt _ (by omega))]
  unfold loopStart
  push_cast
  rw [hsum]
  ring

theorem near_sum {segDur : Int} {scale : Nat} {durs : List Nat} (hne : durs ≠ []) (hsc : 0 < scale)
    (h : NearNominal segDur scale durs) : (durs.sum : Int) = segDur * durs.length * scale := by
  have hl := List.length_pos_iff.2 hne
  obtain ⟨h1, -⟩ := h (scale * durs.length)
  have e : loopStart durs (scale * durs.length) = scale * durs.sum := by
    have := loopStart_split durs scale 0 hl
    simpa using this
  have e2 : ((scale * durs.sum : Nat) : Int) - (scale * durs.length : Nat) * (segDur * scale) =
      scale * ((durs.sum : Int) - segDur * durs.length * scale) := by push_cast; ring
  rw [e, e2, abs_mul, abs_of_nonneg (by omega : (0 : Int) ≤ scale)] at h1
  have h2 : |(durs.sum : Int) - segDur * durs.length * scale| < 1 := by
    by_contra hc
    have := mul_le_mul_of_nonneg_left (not_lt.1 hc) (by omega : (0 : Int) ≤ scale)
    omega
  have := Int.abs_lt_one_iff.1 h2
  omega

/-- The reply to the request for the segment at the media time `T` of the looped track, until a segment duration
after the manifest (the path with `more`, of the second `now`), as long as its options mean the same: the URL leads to
the server, which answers with the segment at `T` of duration `d`: the one that has this time in the track, moved by its offset; and
what a client reads from the reply is `T`, if the file that is served has its time in the track as its decode time. -/
def Fetched (pf : Text → Option Rat) (vodOf : Text → Py VodCfg) (c : Cfg) (now : Int) (s url : Text)
    (path more : List Text) (rep : Text) (scale : Nat) (durs : List Nat) (T : Int) (d : Nat) : Prop :=
  ∃ file, LeadsTo s url (path ++ [rep, file]) ∧ (splitext file).2 = ".m4s".toList ∧
    ∀ (at' : Int) (time : Rat), Means pf vodOf (path ++ more) at' c → now ≤ time → time ≤ now + c.segDur →
    ∃ c', processUrl pf vodOf (path ++ [rep, file]) at' = .ok c' ∧ service c' = service c ∧ ∃ (w : Served) (j : Nat), getMedia pf c' time = .ok (.media w) ∧
      w.segNr = j ∧ (loopStart durs j : Int) = T ∧ loopDur durs j = d ∧
      ∀ times : Int → Nat, (∀ i : Nat, i < durs.length → times (c.vodFirst + i) = (durs.take i).sum) →
        (times w.vodNr : Int) + w.offset * scale = T ∧
        ∀ (wide : Bool) (f2 f1 f0 : UInt8) (st st' : MfState) (out : Bytes),
          times w.vodNr < (if wide then 2 ^ 64 else 2 ^ 32) →
          processTfdt (filterFor c' w scale) (boxBytes tyTfdt (tfdtPayload wide f2 f1 f0 (times w.vodNr))) st =
            .ok (out, st') →
          decodeTimeOf out = some T.toNat

theorem served_decodes {pf : Text → Option Rat} {c : Cfg} (h : WellFormed c) (hs : c.startNr = 0)
    (hto : c.timeoffset = none) {durs : List Nat} {scale : Nat} (hlen : (durs.length : Int) = c.vodNr)
    (hsum : (durs.sum : Int) = c.segDur * c.vodNr * scale) {times : Int → Nat}
    (htimes : ∀ i : Nat, i < durs.length → times (c.vodFirst + i) = (durs.take i).sum) {j : Nat} {now : Rat} {v : Served}
    (hv : getMedia pf (c.forNr j) now = .ok (.media v)) (wide : Bool) (f2 f1 f0 : UInt8) (st st' : MfState) (out : Bytes)
    (c' : Cfg) (hx : times v.vodNr < (if wide then 2 ^ 64 else 2 ^ 32))
    (hp : processTfdt (filterFor c' v scale) (boxBytes tyTfdt (tfdtPayload wide f2 f1 f0 (times v.vodNr))) st =
      .ok (out, st')) : decodeTimeOf out = some (loopStart durs j) := by
  have e := served_time h hs hto hlen hsum htimes hv
  have := C10_exact (filterFor c' v scale) scale rfl wide f2 f1 f0 _ hx st
  have off : (filterFor c' v scale).offset = v.offset := rfl
  simp only [off, e] at this
  by_cases hr : (loopStart durs j : Int) < 0 ∨ 2 ^ 64 ≤ (loopStart durs j : Int)
  · rw [this.2 hr] at hp; cases hp
  · obtain ⟨o, s2, e1, e2, -⟩ := this.1 (by omega) (by omega)
    rw [e1] at hp
    simp only [Except.ok.injEq, Prod.mk.injEq] at hp
    obtain ⟨rfl, -⟩ := hp
    simpa using e2

theorem natText_slash (n : Nat) : '/' ∉ natText n := by
  intro h
  exact (natText_digits n _ h).ne (by decide) rfl

/-- One listed segment. -/
theorem listed_fetched {pf : Text → Option Rat} (hpf : ∀ n : Nat, pf (natText n) = some (n : Rat))
    {vodOf : Text → Py VodCfg} {c : Cfg} (h : Running c) (hsnr : c.startNr = 0) (hto : c.timeoffset = none) {tsbd : Int}
    (ht : c.tsbd = some tsbd) {durs : List Nat} {scale : Nat} (hsc : 0 < scale) (hn : NearNominal c.segDur scale durs)
    (hne : durs ≠ []) (hpos : ∀ d ∈ durs, 0 < d) (hlen : (durs.length : Int) = c.vodNr)
    {now a b : Int} {k l j : Nat} (ha : now - tsbd - c.ast ≤ a) (hb : b ≤ now - c.ast)
    (hend : ∀ d ∈ c.mpdDur, ((now - c.ast : Int) : Rat) ≤ d) (hk : Holds durs (a * scale) k) (hl : LastEnded durs (b * scale) l) (h1 : k ≤ j) (h2 : j ≤ l)
    {opts more : List Text} {name s : Text} (ho : ∀ p ∈ opts, (partSlot p).isSome) (hname : partSlot name = none)
    (hslash : ∀ p ∈ opts ++ [name], '/' ∉ p)
    {v : VodCfg} (hv : vodOf name = .ok v) {rep : Text} {r : Rep} (hrep : '/' ∉ rep) (hdiv : splitDivider rep = [rep])
    (hr : v.repInfo rep = .ok r) (hts : r.timescale = scale) (byTime : Bool) :
    Fetched pf vodOf c now s (s ++ '/' :: joinSlash (opts ++ [name]) ++ "/".toList ++
      (if byTime then rep ++ '/' :: 't' :: natText (loopStart durs j) ++ ".m4s".toList
        else rep ++ '/' :: intText j ++ ".m4s".toList)) (opts ++ [name]) more rep scale durs (loopStart durs j)
      (loopDur durs j) := by
  have hmap : (splitDivider rep).mapM v.repInfo = .ok [r] := by rw [hdiv]; simp [hr, bind, Except.bind, pure, Except.pure]
  have hid : r.id = rep := by
    unfold VodCfg.repInfo at hr
    split at hr
    · cases hr
    · cases hr; rfl
  have hnat : intText (j : Int) = natText j := by unfold intText; rw [if_neg (by omega)]; rfl
  let file : Text := if byTime then 't' :: natText (loopStart durs j) ++ ".m4s".toList else intText j ++ ".m4s".toList
  have hfile : '/' ∉ file := by
    show '/' ∉ (if byTime then 't' :: natText (loopStart durs j) ++ ".m4s".toList else intText j ++ ".m4s".toList)
    have e1 : '/' ∉ ".m4s".toList := by decide
    split
    · intro hc
      rcases List.mem_append.1 hc with hc | hc
      · rcases List.mem_cons.1 hc with hc | hc
        · exact absurd hc (by decide)
        · exact natText_slash _ hc
      · exact e1 hc
    · rw [hnat]
      intro hc
      rcases List.mem_append.1 hc with hc | hc
      · exact natText_slash _ hc
      · exact e1 hc
  have hext : (splitext file).2 = ".m4s".toList := by
    show (splitext (if byTime then 't' :: natText (loopStart durs j) ++ ".m4s".toList
      else intText j ++ ".m4s".toList)).2 = _
    split
    · have e : (".m4s".toList : Text) = '.' :: "m4s".toList := rfl
      rw [e, splitext_dot (by decide) ⟨'t', by simp, by decide⟩]
    · rw [intText_splitext]
  refine ⟨file, ?_, hext, ?_⟩
  · have := leadsTo_path (s := s) (name := name) (opts := opts) (path := [rep, file]) (by simp) hslash (by
      intro p hp
      simp only [List.mem_cons, List.not_mem_nil, or_false] at hp
      rcases hp with rfl | rfl
      · exact hrep
      · exact hfile)
    have e : joinSlash [rep, file] = (if byTime then rep ++ '/' :: 't' :: natText (loopStart durs j) ++ ".m4s".toList
        else rep ++ '/' :: intText j ++ ".m4s".toList) := by
      show rep ++ '/' :: file = _
      show rep ++ '/' :: (if byTime then _ else _) = _
      cases byTime <;> simp
    rw [← e]
    simpa using this
  · intro at' time ⟨pub, hu⟩ t1 t2
    rw [List.append_assoc] at hu
    have hpu := processUrl_more ho hname hu hv [] rep file hmap
    refine ⟨withFile (joinSlash ([] ++ [rep])) file (splitext file).2 [r] { c with publishTime := pub },
      by rw [List.append_assoc]; exact hpu, rfl, ?_⟩
    have hd := h.segDur
    let c0 : Cfg := withFile rep file ".m4s".toList [r] { c with publishTime := pub }
    have hc0 : withFile (joinSlash ([] ++ [rep])) file (splitext file).2 [r] { c with publishTime := pub } = c0 := by rw [hext]; rfl
    rw [hc0]
    have hp0 : Running c0 := ⟨h.segDur, h.vodNr, h.ato, h.last, h.aet, h.urls, h.tsbd, h.stop⟩
    have hw0 : WellFormed c0 := hp0.wellFormed
    have hsd : (1 : Rat) ≤ c.segDur := by exact_mod_cast hd
    obtain ⟨hav, hup⟩ := listed_available h hsnr hto ht hsc hn ha hb hne hpos hk hl h1 h2 t1 t2
    obtain ⟨w, hw1⟩ : IsServed pf c0 j time := hp0.served pf hsnr hto hav (by
      intro z hz
      have e1 := hend _ (h.stop z hz).2
      have e1 : now - c.ast ≤ z - c.ast := by exact_mod_cast e1
      have e2 : c0.ast = c.ast := rfl
      have e3 : c0.segDur = c.segDur := rfl
      rw [e2, e3]
      omega)
    have hw2 : w.segNr = j := by rw [served_eq hw0 hw1]
    have hsum := near_sum hne hsc hn
    rw [hlen] at hsum
    have hget : getMedia pf c0 time = getMedia pf (c0.forNr j) time := by
      cases hbt : byTime with
      | false =>
        have e : c0 = c0.forNr j := by
          show withFile rep (if byTime then _ else _) _ [r] { c with publishTime := pub } = _
          rw [hbt]; rfl
        rw [← e]
      | true =>
        have e : c0 = c0.forTime (loopStart durs j) := by
          show withFile rep (if byTime then _ else _) _ [r] { c with publishTime := pub } = _
          rw [hbt]; rfl
        rw [show getMedia pf c0 time = getMedia pf (c0.forTime (loopStart durs j)) time from congrArg (getMedia pf · time) e]
        have hcur : c0.curTimescale = some (scale : Int) := by
          show ([r].find? (fun r => r.id = rep)).map (·.timescale) = _
          simp [hid, hts]
        refine C30_time_number_partial hpf (c := c0) hd hcur (by omega) hsnr ?_ ?_ time
        · intro t htt
          have e : c0.timeoffset = none := hto
          rw [e] at htt; cases htt
        · have e : mediaTime c0 j = j * c.segDur := by
            have hf : firstNumber c0 = 0 := by
              unfold firstNumber
              have e1 : c0.timeoffset = none := hto
              have e2 : c0.startNr = 0 := hsnr
              rw [e1, e2, if_neg (by decide)]
            unfold mediaTime
            rw [hf]
            have e1 : c0.timeoffset = none := hto
            rw [e1]
            show ((j : Int) - 0) * c.segDur + _ = _
            simp
          rw [e, mul_assoc]
          exact (hn j).2
    refine ⟨w, j, hget.trans hw1, hw2, rfl, rfl, ?_⟩
    intro times htimes
    refine ⟨served_time hw0 hsnr hto hlen hsum htimes hw1, ?_⟩
    intro wide f2 f1 f0 st st' out hx hp
    exact served_decodes hw0 hsnr hto hlen hsum htimes hw1 wide f2 f1 f0 st st' out c0 hx hp

/-! ### The manifest -/

/-- Every element with this name comes from one of the VoD manifest. -/
theorem AddedBefore.old {tags : List Text} {tag : String} (hn : tag.toList ∉ tags) {rel : Xml → Xml → Prop}
    {a b : Xml} (h : AddedBefore tags (OnlyTag tag.toList rel) a.kids b.kids) {y : Xml} (hy : y ∈ named tag b) :
    ∃ x ∈ named tag a, rel x y := by
  obtain ⟨added, kept, he, ha, hk⟩ := h
  unfold named at hy ⊢
  rw [List.mem_filter, he, List.mem_append] at hy
  obtain ⟨hy, ht⟩ := hy
  have ht : y.tag = tag.toList := by simpa using ht
  rcases hy with hy | hy
  · exact absurd (ht ▸ ha y hy) hn
  · obtain ⟨i, hi, rfl⟩ := List.getElem_of_mem hy
    have hi' : i < a.kids.length := by rw [hk.length_eq]; exact hi
    obtain ⟨r1, r2⟩ := hk.get hi' hi
    simp only [List.get_eq_getElem] at r1 r2
    by_cases hx : (a.kids[i]).tag = tag.toList
    · exact ⟨_, List.mem_filter.2 ⟨List.getElem_mem hi', by simpa using hx⟩, r1 hx⟩
    · rw [r2 hx] at ht
      exact absurd ht hx

theorem EachTemplate.old {rel : Option Text → Xml → Xml → Prop} {a b : Xml} (h : EachTemplate rel a b) {y t' : Xml}
    (hy : y ∈ named "AdaptationSet" b) (ht : t' ∈ named "SegmentTemplate" y) :
    ∃ t ∈ templates a, rel (y.get "contentType".toList) t t' := by
  obtain ⟨x, hx, ⟨-, hg⟩, hk⟩ := AddedBefore.old (by decide +kernel) h hy
  obtain ⟨t, ht, hr⟩ := AddedBefore.old (by decide +kernel) hk ht
  refine ⟨t, List.mem_flatMap.2 ⟨x, hx, ht⟩, ?_⟩
  rw [hg _ (by simp)]
  exact hr

theorem listed_get {durs : List Nat} {k n i : Nat} {p : Int × Nat} (h : (loopSegments durs k n)[i]? = some p) :
    i < n ∧ p.1 = loopStart durs (k + i) ∧ p.2 = loopDur durs (k + i) := by
  unfold loopSegments at h
  rw [List.getElem?_map] at h
  cases hr : (List.range' k n)[i]? with
  | none => rw [hr] at h; cases h
  | some m =>
    rw [hr] at h
    cases h
    obtain ⟨hi, rfl⟩ := List.getElem?_eq_some_iff.1 hr
    rw [List.length_range'] at hi
    simp [hi]

/-- A table fits the content: as many segments as the configuration says, which are near the times
at which they would be if all of them had the same duration, and in the buffer no entry of the table occurs twice. -/
structure TableFits (c : Cfg) (now tsbd : Int) (tab : SegTable) (durs : List Nat) : Prop where
  describes : tab.Describes durs
  scale : 0 < tab.timescale
  count : (tab.nrInLoop : Int) = c.vodNr
  nominal : NearNominal c.segDur tab.timescale durs
  near : ∀ a b : Int, 0 ≤ a → now - tsbd - c.ast ≤ a → b ≤ now - c.ast → tab.Near durs (a * tab.timescale) (b * tab.timescale)

/-- **C74.** Every segment that a timeline of the manifest lists can be fetched: the URL that a client makes from the
BaseURL, the template and the place of the segment in the timeline leads to the server, the answer is the segment at the
listed time, until a segment duration after the manifest as long as the options mean the same (up to the publish time),
and its decode time is the listed time.  This is so for numbers and for times in the names, from the start of the service
on and, if it has a stop, until the stop.
Missing: content whose segments drift from the average (`C74_drift_violation`), start numbers other than 0
(`C30_snr_violation`), time offsets (`C68_timeoffset_violation`), manifests after the stop (`C68_stop_violation`), other
ends, one entry twice in the buffer (`C28_one_entry_violation`). -/
theorem C74_fetch_partial {pf : Text → Option Rat} (hpf : ∀ n : Nat, pf (natText n) = some (n : Rat))
    {vodOf : Text → Py VodCfg} {c : Cfg} {e : MpdEnv} {now tsbd : Int}
    {vod out : Xml} {infos rest : List Xml} {base : Option Xml} {period : Xml}
    -- the VoD manifest
    (hs : VodShape vod.kids infos base period rest) (hrb : ∀ x ∈ rest, x.tag ≠ "BaseURL".toList) (hr : VodRoot vod)
    (hv : VodTemplates period) (hpd : period.get "duration".toList = none)
    (hmedia : ∀ t ∈ templates period, t.get "media".toList = some "$RepresentationID$/$Number$.m4s".toList)
    -- the URL
    {opts more : List Text} {name s : Text} {v : VodCfg} (ho : ∀ p ∈ opts, (partSlot p).isSome)
    (hn : partSlot name = none) (hslash : ∀ p ∈ opts ++ [name], '/' ∉ p) (hparts : e.parts = opts ++ name :: more)
    (hpos : e.pos = opts.length) (hstart : e.start = s ++ "/".toList)
    (hvod : vodOf name = .ok v)
    -- the service
    (h : Running c) (htl : (c.segTimeline || c.segTimelineNr) = true) (hl : c.addLocation = false)
    (hm : c.multiUrl = []) (hsnr : c.startNr = 0) (hto : c.timeoffset = none)
    (hend : ∀ d ∈ c.mpdDur, ((now - c.ast : Int) : Rat) ≤ d) (hetp : c.etpDuration = -1 ∨ 0 ≤ c.etpDuration)
    (ht : c.tsbd = some tsbd) (hb : 0 ≤ tsbd) (hnow : c.ast ≤ now) (hfull : 0 < c.periods → tsbd + c.segDur ≤ now)
    -- the tables of the segments
    {tv ta : SegTable} {dv da : List Nat} (hev : e.video = some tv) (hea : e.audio = some ta)
    (hfv : TableFits c now tsbd tv dv) (hfa : TableFits c now tsbd ta da)
    (hsv : ∀ m ∈ v.media, m.1 = "video".toList → m.2.1 = tv.timescale)
    (hsa : ∀ m ∈ v.media, m.1 = "audio".toList → m.2.1 = ta.timescale)
    (hg : generateXml c e now vod = .ok out) :
    ∃ b, named "BaseURL" out = [b] ∧
      ∀ x ∈ named "Period" out, ∀ y ∈ named "AdaptationSet" x, ∀ t ∈ named "SegmentTemplate" y,
        ∃ tab durs m tl segs,
          ((y.get "contentType".toList = some "video".toList ∧ tab = tv ∧ durs = dv) ∨
            (y.get "contentType".toList = some "audio".toList ∧ tab = ta ∧ durs = da)) ∧
          IntAttr t "timescale" (some tab.timescale) ∧ t.get "media".toList = some m ∧
          named "SegmentTimeline" t = [tl] ∧ Lists 0 tl.kids segs ∧
          ∀ (i : Nat) (T : Int) (d : Nat), segs[i]? = some (T, d) →
            ∀ first : Int, (∀ n ∈ t.get "startNumber".toList, pyInt n = .ok first) →
            ∀ (rep : Text) (r : Rep), '/' ∉ rep → splitDivider rep = [rep] → v.repInfo rep = .ok r →
              y.get "contentType".toList = some r.contentType →
              Fetched pf vodOf c now s (b.text ++ fillTemplate rep (intText (first + i)) (intText T) m)
                (opts ++ [name]) more rep tab.timescale durs T d := by
  have hd := h.segDur
  obtain ⟨b, hb1, hb2⟩ := base_text hs hrb hd.le (by rw [ht]; intro t h; cases h; exact hb) hparts hpos hstart hl hm hg
  refine ⟨b, hb1, ?_⟩
  obtain ⟨M, hM, -, hper⟩ := C68_timeline_partial hs hd.le ht hb hr hv hpd htl hto hend hev hea hfv.describes
    hfa.describes hg
  obtain ⟨mp⟩ := generateXml_parts hs hd.le (by rw [ht]; intro t h; cases h; exact hb) hg
  obtain ⟨M1, hM1, -, hpds, -⟩ := mp.rootSays hr
  rw [hM] at hM1
  cases hM1
  obtain ⟨M2, hM2, -, -, -, -, -, -, hmd, -⟩ := mp.generateMpd
  rw [hM] at hM2
  cases hM2
  have hspan := periodData_spans mp.hpds
  have hpto := periodData_pto hto mp.hpds
  have hnn := periodData_nonneg hd ht hfull hetp mp.hpds
  rw [hpds] at hper
  intro x hx y hy t ht'
  obtain ⟨i, hi, rfl⟩ := List.getElem_of_mem hx
  have hi1 : i < (spans (mp.pds.map periodElem)).length := by rw [← hper.length_eq]; exact hi
  have hi2 : i < mp.pds.length := by rw [hspan.length_eq]; exact hi1
  obtain ⟨-, a, bb, hbuf, heach⟩ := hper.get hi hi1
  obtain ⟨hsp1, hsp2⟩ := hspan.get hi2 hi1
  simp only [List.get_eq_getElem] at hbuf heach hsp1 hsp2
  have hmem : mp.pds[i] ∈ mp.pds := List.getElem_mem hi2
  generalize (spans (mp.pds.map periodElem))[i] = span at *
  obtain ⟨t0, ht0, tab, durs, hct, hrel⟩ := EachTemplate.old heach hy ht'
  have hmt : ∀ z, mediaAt span.1 z = z := fun z => by
    have := hpto _ hmem
    rw [hsp1]
    show z - (mp.pds[i]).start + (mp.pds[i]).pto = z
    omega
  obtain ⟨hn1, hn2⟩ := hnn _ hmem
  have hstart : span.1.start = (mp.pds[i]).start := by rw [hsp1]; rfl
  have ha0 : 0 ≤ a := by rw [hbuf.start]; omega
  have hage : now - tsbd - c.ast ≤ a := by rw [hbuf.start]; omega
  have hb0 : 0 ≤ bb := by
    rcases hbuf.most with hx | hx | hx
    · omega
    · rw [hsp2] at hx
      cases hdu : (mp.pds[i]).durS with
      | none => rw [hdu] at hx; cases hx
      | some dd =>
        rw [hdu] at hx
        cases hx
        have := hn2 dd hdu
        show 0 ≤ (mp.pds[i]).start + dd
        omega
    · rw [hmd] at hx
      cases hdu : c.mpdDur with
      | none => rw [hdu] at hx; cases hx
      | some dd =>
        rw [hdu] at hx
        have hx : dd.floor = bb := Option.some.inj hx
        have h1 := hend dd hdu
        have : now - c.ast ≤ dd.floor := Rat.le_floor_iff.2 h1
        omega
  have hfit : TableFits c now tsbd tab durs := by
    rcases hct with ⟨-, rfl, rfl⟩ | ⟨-, rfl, rfl⟩
    · exact hfv
    · exact hfa
  rw [hmt, hmt] at hrel
  obtain ⟨k, l, hk, hle, hsays⟩ := hrel ha0 hb0 (hfit.near a bb ha0 hage hbuf.now_le)
  obtain ⟨s1, -, ⟨tl, htl1, htl2⟩, s4, ⟨m, m', hm1, hm2, hm3⟩, -⟩ := hsays
  rw [hmedia t0 ht0] at hm1
  cases hm1
  refine ⟨tab, durs, m', tl, _, hct, s1, hm2, htl1, htl2, ?_⟩
  intro j T d hj first hfirst rep r hrep hdiv hri hctype
  obtain ⟨hj1, hj2, hj3⟩ := listed_get hj
  simp only at hj2 hj3
  subst hj2 hj3
  have hne : durs ≠ [] := durs_ne hfit.describes
  have hposd : ∀ d ∈ durs, 0 < d := durs_pos hfit.describes
  have hts : r.timescale = tab.timescale := by
    have hmm : ∃ m ∈ v.media, m.1 = r.contentType ∧ m.2.1 = r.timescale := by
      unfold VodCfg.repInfo at hri
      cases hf : v.media.find? (fun m => m.2.2.contains rep) with
      | none => rw [hf] at hri; cases hri
      | some mm => rw [hf] at hri; cases hri; exact ⟨mm, List.mem_of_find?_eq_some hf, rfl, rfl⟩
    obtain ⟨mm, hmm1, hmm2, hmm3⟩ := hmm
    rw [← hmm3]
    rcases hct with ⟨hc, rfl, -⟩ | ⟨hc, rfl, -⟩
    · exact hsv mm hmm1 (hmm2.trans (Option.some.inj (hctype.symm.trans hc)))
    · exact hsa mm hmm1 (hmm2.trans (Option.some.inj (hctype.symm.trans hc)))
  have hfet := listed_fetched (s := s) (more := more) hpf h hsnr hto ht hfit.scale hfit.nominal hne hposd
    (hfit.describes.count ▸ hfit.count) hage hbuf.now_le hend hk hle (j := k + j) (by omega) (by omega) ho hn hslash hvod hrep
    hdiv hri hts c.segTimeline
  rw [hb2]
  have hnat : intText (loopStart durs (k + j) : Int) = natText (loopStart durs (k + j)) := by
    unfold intText; rw [if_neg (by omega)]; rfl
  cases hbt : c.segTimeline with
  | true =>
    rw [hbt] at hm3 hfet
    rw [renamed_media hm3, fill_time, hnat]
    exact hfet
  | false =>
    rw [hbt] at hm3 hfet s4
    have hm3 : m' = vodMedia := hm3
    rw [hm3, fill_number]
    have hkl : k ≤ l := by omega
    rw [if_pos hkl] at s4
    obtain ⟨txt, hx1, hx2⟩ := s4 k rfl
    have := hfirst txt hx1
    rw [hx2] at this
    have hfk : (k : Int) = first := Except.ok.inj this
    have : first + (j : Int) = ((k + j : Nat) : Int) := by push_cast; omega
    rw [this]
    exact hfet

/-! ### Examples -/

/-- Content of four segments of about 2 s. -/
def fetchVod (name : Text) : Py VodCfg :=
  if name = "testpic".toList then
    .ok ⟨1, 4, 2, 300, [("video".toList, 10, ["V1".toList]), ("audio".toList, 10, ["A1".toList])]⟩
  else .error .configError

/-- Segments of 1.9 s, 2.1 s, 2 s and 2 s. -/
def fetchTable : SegTable := ⟨[⟨1, 0, 0, 19⟩, ⟨2, 0, 19, 21⟩, ⟨3, 1, 40, 20⟩], 10, 8, 4, 1⟩

theorem fetchTable_describes : fetchTable.Describes [19, 21, 20, 20] where
  nonempty := by decide
  positive := by decide
  expands := by decide
  chain := by
    intro i e h
    match i with
    | 0 => simp only [fetchTable, List.getElem?_cons_zero, Option.some.injEq] at h; subst h; decide
    | 1 =>
      simp only [fetchTable, List.getElem?_cons_succ, List.getElem?_cons_zero, Option.some.injEq] at h
      subst h; decide
    | 2 =>
      simp only [fetchTable, List.getElem?_cons_succ, List.getElem?_cons_zero, Option.some.injEq] at h
      subst h; decide
    | i + 3 => simp [fetchTable] at h
  wrap := by decide
  count := by decide

/-- One loop is enough to see that a track is near its nominal times. -/
theorem nearNominal_of_loop {segDur : Int} {scale : Nat} {durs : List Nat} (hne : durs ≠ [])
    (hsum : (durs.sum : Int) = segDur * durs.length * scale)
    (h : ∀ i < durs.length, |((durs.take i).sum : Int) - i * (segDur * scale)| < scale ∧
      2 * |((durs.take i).sum : Int) - i * (segDur * scale)| < segDur * scale) : NearNominal segDur scale durs := by
  intro j
  have hl := List.length_pos_iff.2 hne
  have e : (loopStart durs j : Int) - j * (segDur * scale) =
      ((durs.take (j % durs.length)).sum : Int) - ((j % durs.length : Nat) : Int) * (segDur * scale) := by
    have hj : (j : Int) = durs.length * ((j / durs.length : Nat) : Int) + ((j % durs.length : Nat) : Int) := by
      have := Nat.div_add_mod j durs.length
      exact_mod_cast this.symm
    unfold loopStart
    push_cast
    rw [hsum]
    push_cast at hj
    generalize hq : (j : Int) / durs.length = q at *
    generalize hm : (j : Int) % durs.length = m at *
    rw [hj]
    ring
  rw [e]
  exact h _ (Nat.mod_lt _ hl)

/-- The URL of the manifest. -/
def fetchParts (tl : String) : List Text := [tl.toList, "tsbd_4".toList] ++ "testpic".toList :: ["Manifest.mpd".toList]

/-- The surroundings of its request. -/
def fetchEnv (tl : String) (t : SegTable) : MpdEnv :=
  { sampleEnv with parts := fetchParts tl, pos := 2, video := some t, audio := some t }

/-- Its configuration. -/
def fetchCfg (tl : String) (now : Int) : Cfg := (processUrl examplePf fetchVod (fetchParts tl) now).toOption.getD {}

/-- The manifest. -/
def fetchOut (tl : String) (t : SegTable) (now : Int) : Py Xml :=
  match processUrl examplePf fetchVod (fetchParts tl) now with
  | .error e => .error e
  | .ok c => generateXml c (fetchEnv tl t) now (sampleVod [samplePeriod])

theorem fetchTable_fits : TableFits (fetchCfg "segtimeline_1" 1005) 1005 4 fetchTable [19, 21, 20, 20] where
  describes := fetchTable_describes
  scale := by decide
  count := by decide +kernel
  nominal := by
    have e : (fetchCfg "segtimeline_1" 1005).segDur = 2 := by decide +kernel
    rw [e]
    exact nearNominal_of_loop (by decide) (by decide) (by decide)
  near := by
    intro a b _ ha hb
    have e : (fetchCfg "segtimeline_1" 1005).ast = 0 := by decide +kernel
    rw [e] at ha hb
    refine near_of_short _ _ fetchTable_describes _ _ ?_
    have e1 : fetchTable.timescale = 10 := rfl
    have e2 : fetchTable.wrap = 80 := rfl
    rw [e1, e2]
    intro en hen
    have : (en.repeats + 1) * en.dur ≤ 40 := by
      revert en
      decide
    have : ((en.repeats : Int) + 1) * en.dur ≤ 40 := by exact_mod_cast this
    omega

/-- The theorem applies to this manifest. -/
example {out : Xml} (hout : fetchOut "segtimeline_1" fetchTable 1005 = .ok out) : ∃ b, named "BaseURL" out = [b] := by
  have hc : processUrl examplePf fetchVod (fetchParts "segtimeline_1") 1005 = .ok (fetchCfg "segtimeline_1" 1005) := by
    decide +kernel
  unfold fetchOut at hout
  rw [hc] at hout
  obtain ⟨b, hb, -⟩ := C74_fetch_partial examplePf_nat (vodOf := fetchVod) (s := "http://h/livesim".toList) (tsbd := 4)
    (infos := []) (rest := []) (base := none) (period := samplePeriod) (vod := sampleVod [samplePeriod])
    (v := ⟨1, 4, 2, 300, [("video".toList, 10, ["V1".toList]), ("audio".toList, 10, ["A1".toList])]⟩)
    ⟨rfl, by simp, by simp, by decide +kernel, by simp⟩ (by simp)
    ⟨by decide +kernel, by decide +kernel, by decide +kernel, by decide +kernel⟩
    ⟨by decide +kernel, by decide +kernel⟩ (by decide +kernel) (by decide +kernel)
    (opts := ["segtimeline_1".toList, "tsbd_4".toList]) (more := ["Manifest.mpd".toList]) (name := "testpic".toList)
    (by decide +kernel) (by decide +kernel) (by decide +kernel) rfl rfl (by decide +kernel) (by decide +kernel)
    (Plain.running ⟨by decide +kernel, by decide +kernel, by decide +kernel, by decide +kernel, by decide +kernel,
      by decide +kernel, by decide +kernel, by decide +kernel⟩)
    (by decide +kernel) (by decide +kernel) (by decide +kernel) (by decide +kernel) (by decide +kernel)
    (by
      have e : (fetchCfg "segtimeline_1" 1005).mpdDur = none := by decide +kernel
      rw [e]; simp)
    (by decide +kernel) (by decide +kernel) (by decide) (by decide +kernel) (by decide +kernel)
    rfl rfl fetchTable_fits fetchTable_fits (by decide +kernel) (by decide +kernel) hout
  exact ⟨b, hb⟩

/-- Its timeline has the two segments from 1000 s to 1004 s. -/
example : tlTexts (fetchOut "segtimeline_1" fetchTable 1005) =
    some [⟨some "PT0S", none, none, [[some "10000", some "19", none], [none, some "21", none]]⟩] := by
  decide +kernel

/-- The reply to a request for a file of the same content. -/
def fetchReply (tl : String) (rep file : String) (now : Int) : Py MediaOut :=
  match processUrl examplePf fetchVod ([tl.toList, "tsbd_4".toList, "testpic".toList, rep.toList, file.toList]) now with
  | .error e => .error e
  | .ok c => getMedia examplePf c now

/-- Segments of 1 s, 3 s, 2 s and 2 s. -/
def driftTable : SegTable := ⟨[⟨1, 0, 0, 10⟩, ⟨2, 0, 10, 30⟩, ⟨3, 1, 40, 20⟩], 10, 8, 4, 1⟩

/-- **C74 fails** for content with segments of 1 s, 3 s, 2 s and 2 s: the timeline at 1001 s lists the segment from 1000 s
to 1001 s, number 500, but a request for it at that time, by number or by time, is answered that it is too early. -/
theorem C74_drift_violation :
    tlTexts (fetchOut "segtimeline_1" driftTable 1001) =
      some [⟨some "PT0S", none, none, [[some "9960", some "20", some "1"], [none, some "10", none]]⟩] ∧
    tlTexts (fetchOut "segtimelinenr_1" driftTable 1001) =
      some [⟨some "PT0S", some "498", none, [[some "9960", some "20", some "1"], [none, some "10", none]]⟩] ∧
    fetchReply "segtimeline_1" "V1" "t10000.m4s" 1001 = .ok .tooEarly ∧
    fetchReply "segtimelinenr_1" "V1" "500.m4s" 1001 = .ok .tooEarly := by
  decide +kernel

end Verif
