import Verif.Modulo
import Verif.Spec.Modulo
import Verif.Props.TimeAddressing
/-
C22, C23: modulo sessions.
-/
namespace Verif
open Spec

theorem mkModulo_eq {m : Int} (hm : 0 < m) (now : Int) :
    mkModulo m now =
      let L := 60 * m
      let pc : Rat := ((now % L * 100 : Int) : Rat) / (L : Int)
      let a := if 90 ≤ pc then now / L * L + L else now / L * L
      .ok { modSecs := L, now := now, percent := pc, ast := a, mup := ((L : Int) : Rat) / 20,
            mpd := moduloMpd L pc, aet := a + moduloMpd L pc + ((L : Int) : Rat) / 20 } := by
  have hL : 0 < 60 * m := by omega
  unfold mkModulo moduloPercent moduloAst quantize
  simp only [pyDiv_pos hL, pyMod_pos hL, bind, Except.bind, pure, Except.pure]

/-- Every instant belongs to exactly one session. -/
theorem session_unique {m k k' now : Int} (hm : 0 < m) (h : InSession m k now)
    (h' : InSession m k' now) : k = k' := by
  unfold InSession slotStart slotLen at h h'
  have e : ∀ x : Int, ((x * (60 * m) : Int) : Rat) = x * (60 * m) := by intro x; push_cast; ring
  have e2 : ((60 * m : Int) : Rat) = 60 * m := by push_cast; ring
  rw [e, e2] at h h'
  have hmq : (0 : Rat) < m := by exact_mod_cast hm
  by_contra hne
  rcases Int.lt_or_gt_of_ne hne with hlt | hlt
  · have : (k : Rat) + 1 ≤ k' := by exact_mod_cast hlt
    nlinarith [mul_le_mul_of_nonneg_right this hmq.le]
  · have : (k' : Rat) + 1 ≤ k := by exact_mod_cast hlt
    nlinarith [mul_le_mul_of_nonneg_right this hmq.le]

/-- **C22.** For every slot length and every instant of the session of slot `k`: the announced
availability start is the start of slot `k`, the presentation duration is the share of the
slot that belongs to the phase, the end time is start + duration + 5 percent, it lies before
the end of the slot, and it lies in the future except from 85 percent of the slot on. -/
theorem C22_phases {m k now : Int} (hm : 0 < m) (h : InSession m k now) :
    ∃ s : Modulo, mkModulo m now = .ok s ∧ s.ast = slotStart m k ∧
      s.mpd = slotLen m * share (position m k now) / 100 ∧
      s.mup = (slotLen m : Rat) * 5 / 100 ∧
      s.aet = s.ast + s.mpd + (slotLen m : Rat) * 5 / 100 ∧
      s.aet < slotStart m (k + 1) ∧
      (s.aet > now ↔ position m k now < 85) := by
  have hL : 0 < 60 * m := by omega
  have hLq : (0 : Rat) < ((60 * m : Int) : Rat) := by exact_mod_cast hL
  have h0 := Int.emod_nonneg now (show 60 * m ≠ 0 by omega)
  have h1 := Int.emod_lt_of_pos now hL
  have hdm := Int.mul_ediv_add_emod now (60 * m)
  have h0q : (0 : Rat) ≤ ((now % (60 * m) : Int) : Rat) := by exact_mod_cast h0
  have h1q : ((now % (60 * m) : Int) : Rat) < ((60 * m : Int) : Rat) := by exact_mod_cast h1
  rw [mkModulo_eq hm]
  refine ⟨_, rfl, ?_⟩
  dsimp only
  have hdq : (now : Rat) = ((now / (60 * m) : Int) : Rat) * ((60 * m : Int) : Rat)
      + ((now % (60 * m) : Int) : Rat) := by
    rw [← Int.cast_mul, ← Int.cast_add, Int.mul_comm, hdm]
  generalize hq : now / (60 * m) = q at *
  generalize hr : now % (60 * m) = r at *
  unfold InSession at h
  have hslot : ∀ j, slotStart m j = j * (60 * m) := fun _ => rfl
  have hlen : slotLen m = 60 * m := rfl
  rw [hslot, hlen] at h
  unfold position
  simp only [hslot, hlen] at *
  generalize hLL : 60 * m = L at *
  -- which slot
  have key : (90 ≤ ((r * 100 : Int) : Rat) / (L : Rat)) ↔ (L : Rat) * 9 / 10 ≤ r := by
    rw [le_div_iff₀ hLq]; push_cast; constructor <;> intro h <;> linarith
  have hk : (if 90 ≤ ((r * 100 : Int) : Rat) / (L : Rat) then q * L + L else q * L) = k * L := by
    have hkL : ((k * L : Int) : Rat) = k * L := by push_cast; ring
    rw [hkL] at h
    have bound : ∀ j : Int, (j : Rat) * L - L / 10 ≤ now → (now : Rat) < j * L + L * 9 / 10 → j = k := by
      intro j a1 a2
      by_contra hne
      rcases Int.lt_or_gt_of_ne hne with hlt | hlt
      · have : (j : Rat) + 1 ≤ k := by exact_mod_cast hlt
        nlinarith [mul_le_mul_of_nonneg_right this hLq.le]
      · have : (k : Rat) + 1 ≤ j := by exact_mod_cast hlt
        nlinarith [mul_le_mul_of_nonneg_right this hLq.le]
    split
    · rename_i hc
      have := bound (q + 1) (by push_cast; linarith [key.mp hc]) (by push_cast; linarith)
      rw [← this]; ring
    · rename_i hc
      rw [key] at hc
      have := bound q (by linarith) (by linarith)
      rw [this]
  have hkq : (k : Rat) * L = if (L : Rat) * 9 / 10 ≤ r then (q : Rat) * L + L else q * L := by
    have := congrArg (fun x : Int => (x : Rat)) hk
    push_cast at this
    rw [← this]
    push_cast at key
    split <;> split <;> first | rfl | (exfalso; simp_all)
  have hpos : ((now : Rat) - ((k * L : Int) : Rat)) * 100 / L = (r + (q * L - k * L)) * 100 / L := by
    rw [hdq]; push_cast; ring
  have thr : ∀ x : Rat, ((r + ((q : Rat) * L - k * L)) * 100 / L < x ↔ (r + ((q : Rat) * L - k * L)) * 100 < x * L) :=
    fun x => div_lt_iff₀ hLq
  have thr2 : ∀ x : Rat, (((r * 100 : Int) : Rat) / L < x ↔ (r : Rat) * 100 < x * L) := by
    intro x; rw [div_lt_iff₀ hLq]; push_cast; rfl
  have hmpd : moduloMpd L (((r * 100 : Int) : Rat) / L) =
      L * share (((now : Rat) - ((k * L : Int) : Rat)) * 100 / L) / 100 := by
    rw [hpos]
    unfold moduloMpd share
    simp only [thr, thr2]
    split at hkq <;> rw [hkq] <;> split_ifs <;> first | (exfalso; linarith) | ring
  have hshare : ∀ p, share p ≤ 80 := by intro p; unfold share; split_ifs <;> norm_num
  refine ⟨hk, hmpd, by ring, ?_, ?_, ?_⟩
  · rw [hmpd]; ring
  · rw [hk, hmpd]
    push_cast
    have := mul_le_mul_of_nonneg_left (hshare (((now : Rat) - ((k * L : Int) : Rat)) * 100 / L)) hLq.le
    push_cast at this
    linarith
  · rw [hk, hmpd, hpos, thr, hdq]
    unfold share
    simp only [thr]
    push_cast
    split at hkq <;> rw [hkq] <;> split_ifs <;> constructor <;> intro hh <;> linarith

/-- At second 6000·…: the 10-minute session of slot 3 at 55 percent. -/
example : InSession 10 3 2130 ∧ position 10 3 2130 = 55 ∧
    (mkModulo 10 2130).toOption.map (fun s => (s.ast, s.mpd, s.aet)) = some (1800, 480, 2310) := by
  refine ⟨⟨?_, ?_⟩, ?_, ?_⟩ <;> decide +kernel

/-- In the last 10 percent of a slot the next one is announced. -/
example : InSession 10 4 2399 ∧
    (mkModulo 10 2399).toOption.map (fun s => (s.ast, s.mpd)) = some (2400, 120) := by
  refine ⟨⟨?_, ?_⟩, ?_⟩ <;> decide +kernel

/-- **C23 (announced end).** Two requests of one session (same announced availability start):
the later one announces a presentation duration, an availability end and a last segment
number that are not smaller. -/
theorem C23_monotone_partial {m now now' : Int} {s s' : Modulo} (hm : 0 < m) (hn : now ≤ now')
    (h : mkModulo m now = .ok s) (h' : mkModulo m now' = .ok s') (hs : s.ast = s'.ast) :
    s.mpd ≤ s'.mpd ∧ s.aet ≤ s'.aet ∧
    ∀ d, 0 < d → ∃ l l', s.lastSegmentNumber d = .ok l ∧ s'.lastSegmentNumber d = .ok l' ∧ l ≤ l' := by
  have hL : 0 < 60 * m := by omega
  have hLq : (0 : Rat) < ((60 * m : Int) : Rat) := by exact_mod_cast hL
  -- existence of the session of an instant
  have ex : ∀ t : Int, ∃ k, InSession m k t := by
    intro t
    have h0 := Int.emod_nonneg t (show 60 * m ≠ 0 by omega)
    have h1 := Int.emod_lt_of_pos t hL
    have hdm := Int.mul_ediv_add_emod t (60 * m)
    have hdq : (t : Rat) = ((t / (60 * m) : Int) : Rat) * ((60 * m : Int) : Rat)
      + ((t % (60 * m) : Int) : Rat) := by
      rw [← Int.cast_mul, ← Int.cast_add, Int.mul_comm, hdm]
    have h0q : (0 : Rat) ≤ ((t % (60 * m) : Int) : Rat) := by exact_mod_cast h0
    have h1q : ((t % (60 * m) : Int) : Rat) < ((60 * m : Int) : Rat) := by exact_mod_cast h1
    unfold InSession slotStart slotLen
    by_cases hc : ((t % (60 * m) : Int) : Rat) < ((60 * m : Int) : Rat) * 9 / 10
    · exact ⟨t / (60 * m), by rw [Int.cast_mul]; linarith, by rw [Int.cast_mul]; linarith⟩
    · refine ⟨t / (60 * m) + 1, ?_, ?_⟩ <;> rw [Int.cast_mul, Int.cast_add] <;> push_cast at * <;> linarith
  obtain ⟨k, hk⟩ := ex now
  obtain ⟨k', hk'⟩ := ex now'
  obtain ⟨t, ht, a1, a2, a3, a4, -, -⟩ := C22_phases hm hk
  obtain ⟨t', ht', b1, b2, b3, b4, -, -⟩ := C22_phases hm hk'
  rw [h] at ht; rw [h'] at ht'
  cases ht; cases ht'
  have hkk : k = k' := by
    have : k * (60 * m) = k' * (60 * m) := by rw [a1, b1] at hs; exact hs
    exact Int.eq_of_mul_eq_mul_right (by omega) this
  subst hkk
  have hpos : position m k now ≤ position m k now' := by
    unfold position slotLen
    have : (now : Rat) ≤ now' := by exact_mod_cast hn
    exact div_le_div_of_nonneg_right (by linarith) hLq.le
  have hsh : share (position m k now) ≤ share (position m k now') := by
    unfold share; split_ifs <;> linarith
  have hd : s.mpd ≤ s'.mpd := by
    rw [a2, b2]
    have := mul_le_mul_of_nonneg_left hsh (show (0:Rat) ≤ (slotLen m : Rat) from hLq.le)
    linarith
  have hsq : (s.ast : Rat) = s'.ast := by rw [hs]
  refine ⟨hd, by rw [a4, b4, hsq]; linarith, ?_⟩
  intro d hdpos
  refine ⟨_, _, if_neg (by omega), if_neg (by omega), ?_⟩
  have hdq : (0 : Rat) < d := by exact_mod_cast hdpos
  have := div_le_div_of_nonneg_right (show (s.ast : Rat) + s.mpd ≤ s'.ast + s'.mpd by linarith) hdq.le
  linarith

/-- **C23 (last number).** The last number is that of the segment which ends at the announced end of
the presentation, counted from the epoch; it is a whole number exactly if the end is on the segment
grid. -/
theorem C23_last_number (s : Modulo) {d : Int} (hd : 0 < d) :
    ∃ l, s.lastSegmentNumber d = .ok l ∧ (l + 1) * d = s.ast + s.mpd := by
  refine ⟨_, if_neg (by omega), ?_⟩
  have hdq : (d : Rat) ≠ 0 := by exact_mod_cast (show d ≠ 0 by omega)
  rw [sub_add_cancel, div_mul_cancel₀ _ hdq]

example : (mkModulo 10 2900).toOption.bind (fun s => (s.lastSegmentNumber 2).toOption) = some 1439 ∧
    (1439 + 1) * 2 = 2400 + 480 := by decide +kernel

/-- **C23 (comparison).** `compare_with_last_segment` is the distance, in segments, from the announced end of the
presentation to the end of the segment: 0 exactly for the last number, positive exactly for segments that end after
the presentation. -/
theorem C23_compare (s : Modulo) (nr : Int) {d : Int} (hd : 0 < d) :
    ∃ v, s.compareWithLast nr d = .ok v ∧ ((nr + 1 : Int) : Rat) * d = s.ast + s.mpd + v * d ∧
      (v = 0 ↔ s.lastSegmentNumber d = .ok (nr : Rat)) ∧
      (0 < v ↔ (s.ast : Rat) + s.mpd < ((nr + 1 : Int) : Rat) * d) := by
  have hdq : (0 : Rat) < d := by exact_mod_cast hd
  have hne : (d : Rat) ≠ 0 := hdq.ne'
  refine ⟨_, if_neg (by omega), ?_, ?_, ?_⟩
  · rw [div_mul_cancel₀ _ hne]
    push_cast
    ring
  · unfold Modulo.lastSegmentNumber
    rw [if_neg (by omega), div_eq_zero_iff, or_iff_left hne, Except.ok.injEq,
      sub_eq_iff_eq_add (a := _ / _), div_eq_iff hne]
    push_cast
    constructor <;> intro h <;> linarith
  · rw [lt_div_iff₀ hdq, zero_mul]
    push_cast
    constructor <;> intro h <;> linarith

example : ((mkModulo 10 2900).toOption.map fun s => (s.compareWithLast 1439 2, s.compareWithLast 1440 2)) =
    some (.ok 0, .ok 1) := by decide +kernel

/-- A session seen before its slot, in the second and in the final phase. -/
example : ((mkModulo 10 2399).toOption.map (fun s => (s.ast, s.mpd)),
    (mkModulo 10 2500).toOption.map (fun s => (s.ast, s.mpd)),
    (mkModulo 10 2900).toOption.map (fun s => (s.ast, s.mpd)))
    = (some (2400, 120), some (2400, 240), some (2400, 480)) := by decide +kernel

/-- A VoD configuration with 2 s segments. -/
def exampleVod (_ : Text) : Py VodCfg :=
  .ok { firstSeg := 1, nrSegs := 30, segDurS := 2, defaultTsbd := 300,
        media := [("video".toList, 90000, ["V1".toList])] }

/-- What a request for segment `n` of a 10-minute modulo session gets at time `now`. -/
def moduloRequest (n now : Int) : Py MediaOut := do
  let c ← processUrl examplePf exampleVod
    ["modulo_10".toList, "c".toList, "V1".toList, intText n ++ ".m4s".toList] now
  getMedia examplePf c now

/-- **C23 (violation).** The last segment number of a modulo session counts from the epoch
while segments are numbered from the session start.  In the session that starts at 2400 with
an announced duration of 480 s, at 2900 s: the segment that ends the presentation (239) is
served without the last-segment mark, segment 240 beyond the announced end is served as well,
and the number that would get the mark (1439) is refused as too early. -/
theorem C23_lmsg_violation :
    (mkModulo 10 2900).toOption.map (fun s => (s.ast, s.mpd)) = some (2400, 480) ∧
    moduloRequest 239 2900 = .ok (.media
      { vodNr := 30, segNr := 239, offset := 420, lmsg := false, segTime := 478, emsgLast := false }) ∧
    moduloRequest 240 2900 = .ok (.media
      { vodNr := 1, segNr := 240, offset := 480, lmsg := false, segTime := 480, emsgLast := false }) ∧
    moduloRequest 1439 2900 = .ok .tooEarly := by
  decide +kernel

end Verif
