import Verif.Stpp
import Verif.Spec.Stpp
import Verif.Lemmas.Ttml
import Mathlib.Tactic.Linarith
/-
C88: the generator of subtitle segments.
-/
namespace Verif

theorem pad3_nat (n : Nat) (h : n < 1000) :
    Digits (pad3 (n : Int)) ∧ decVal (pad3 (n : Int)) = n ∧ (pad3 (n : Int)).length = 3 := by
  unfold pad3
  split
  · rename_i k
    obtain ⟨h1, h2, h3, _⟩ := pad2_nat n
    refine ⟨?_, ?_, ?_⟩
    · intro b hb
      rcases List.mem_cons.mp hb with rfl | hb
      · decide
      · exact h1 b hb
    · have : decVal (48 :: pad2 (n : Int)) = decVal (pad2 (n : Int)) := by simp [decVal]
      rw [this, h2]
    · rw [List.length_cons, h3 (by omega)]
  · rename_i k
    have h100 : 100 ≤ n := by omega
    rw [decInt_nat]
    obtain ⟨a1, a2, _⟩ := decBytes_spec n
    refine ⟨a1, a2, ?_⟩
    unfold decBytes
    rw [decLoop, if_neg (by omega), List.length_append]
    obtain ⟨_, _, _, _, _, b6, _⟩ := decLoop_spec n (n / 10) (by omega)
    rw [b6 (by omega) (by omega)]
    rfl

/-- **C88, times.** The text of a time stands for it, to the millisecond. -/
theorem C88_time (ms : Nat) : IsMsTime (timeString (ms : Int)) ms := by
  have e1 : Int.fdiv (ms : Int) 3600000 = ((ms / 3600000 : Nat) : Int) := by
    rw [Int.fdiv_eq_ediv_of_nonneg _ (by omega)]; omega
  have e2 : Int.fmod (ms : Int) 3600000 = ((ms % 3600000 : Nat) : Int) := by
    rw [Int.fmod_eq_emod_of_nonneg _ (by omega)]; omega
  have e3 : Int.fdiv ((ms % 3600000 : Nat) : Int) 60000 = ((ms % 3600000 / 60000 : Nat) : Int) := by
    rw [Int.fdiv_eq_ediv_of_nonneg _ (by omega)]; omega
  have e4 : Int.fmod ((ms % 3600000 : Nat) : Int) 60000 = ((ms % 60000 : Nat) : Int) := by
    rw [Int.fmod_eq_emod_of_nonneg _ (by omega)]; omega
  have e5 : Int.fdiv ((ms % 60000 : Nat) : Int) 1000 = ((ms % 60000 / 1000 : Nat) : Int) := by
    rw [Int.fdiv_eq_ediv_of_nonneg _ (by omega)]; omega
  have e6 : Int.fmod ((ms % 60000 : Nat) : Int) 1000 = ((ms % 1000 : Nat) : Int) := by
    rw [Int.fmod_eq_emod_of_nonneg _ (by omega)]; omega
  obtain ⟨p1, p2, p3⟩ := pad3_nat (ms % 1000) (by omega)
  obtain ⟨a1, a2, _, a4⟩ := pad2_nat (ms / 3600000)
  obtain ⟨b1, b2, b3, _⟩ := pad2_nat (ms % 3600000 / 60000)
  obtain ⟨c1, c2, c3, _⟩ := pad2_nat (ms % 60000 / 1000)
  unfold timeString
  dsimp only
  rw [e1, e2, e3, e4, e5, e6]
  refine ⟨_, _, ms / 1000, rfl, ⟨_, _, _, rfl, a1, b1, c1, a4, b3 (by omega), c3 (by omega), ?_, ?_, ?_⟩, p1, p3, ?_⟩
  · rw [b2]; omega
  · rw [c2]; omega
  · rw [a2, b2, c2]; omega
  · rw [p2]; omega

/-- **C88, cues.** For a segment at any time, of any duration and any positive resolution, the texts of the
paragraphs name times that follow each other without gaps from the start of the segment on, each paragraph shows
the language and its own start, and together they cover the segment: the last one ends less than one resolution
after the end of the segment, and exactly there if the resolution divides the duration.  Missing: that they end
with the segment otherwise (`C88_beyond_violation`), and that there is a segment at all (`C88_nothing_violation`). -/
theorem C88_cues_partial (lang : Bytes) (time dur res : Nat) (hres : 0 < res) :
    ∃ ps, stppPars lang time dur res = .ok ps ∧
      (∀ i p, ps[i]? = some p → IsMsTime p.begin' (time + i * res) ∧ IsMsTime p.end' (time + (i + 1) * res) ∧
        p.text = lang ++ [32, 58, 32] ++ p.begin') ∧
      dur ≤ ps.length * res ∧ ps.length * res < dur + res ∧ (res ∣ dur → ps.length * res = dur) := by
  have en : (Int.fdiv ((dur : Int) + res - 1) res).toNat = (dur + res - 1) / res := by
    rw [Int.fdiv_eq_ediv_of_nonneg _ (by omega)]
    have : (dur : Int) + res - 1 = ((dur + res - 1 : Nat) : Int) := by omega
    rw [this, ← Int.natCast_ediv, Int.toNat_natCast]
  unfold stppPars pyRange0
  rw [if_neg (by omega), if_pos (by omega), en]
  refine ⟨_, rfl, ?_, ?_, ?_, ?_⟩
  · intro i p hp
    rw [List.getElem?_map, List.getElem?_map] at hp
    cases hr : (List.range ((dur + res - 1) / res))[i]? with
    | none => rw [hr] at hp; simp at hp
    | some j =>
      have hj : j = i := by
        rw [List.getElem?_range] at hr
        · simpa using hr.symm
        · by_contra hc
          rw [List.getElem?_eq_none (by simpa using Nat.not_lt.mp hc)] at hr
          cases hr
      subst hj
      rw [hr] at hp
      simp only [Option.map_some, Option.some.injEq] at hp
      subst hp
      dsimp only
      have e1 : (time : Int) + (j : Int) * res = ((time + j * res : Nat) : Int) := by push_cast; ring
      have e2 : ((time + j * res : Nat) : Int) + res = ((time + (j + 1) * res : Nat) : Int) := by push_cast; ring
      rw [e1, e2]
      exact ⟨C88_time _, C88_time _, rfl⟩
  · rw [List.length_map, List.length_map, List.length_range]
    have := Nat.lt_div_mul_add hres (a := dur + res - 1)
    omega
  · rw [List.length_map, List.length_map, List.length_range]
    have := Nat.div_mul_le_self (dur + res - 1) res
    omega
  · rintro ⟨k, rfl⟩
    rw [List.length_map, List.length_map, List.length_range]
    have : (res * k + res - 1) / res = k := by
      rw [Nat.div_eq_of_lt_le]
      · rw [Nat.mul_comm]; omega
      · rw [Nat.succ_mul, Nat.mul_comm]; omega
    rw [this, Nat.mul_comm]

/-- Two cues of a segment of two seconds, one hour into the presentation. -/
example : (stppPars [101, 110, 103] 3600000 2000 1000) = .ok
    [⟨"01:00:00.000".toUTF8.toList, "01:00:01.000".toUTF8.toList, "sub3600000".toUTF8.toList, "eng : 01:00:00.000".toUTF8.toList⟩,
     ⟨"01:00:01.000".toUTF8.toList, "01:00:02.000".toUTF8.toList, "sub3601000".toUTF8.toList, "eng : 01:00:01.000".toUTF8.toList⟩] := by
  decide +kernel

/-- **C88 fails** where the resolution does not divide the duration: the last cue of a segment of two seconds
with a resolution of 1.5 seconds ends a second after the segment, over the first cue of the next one. -/
theorem C88_beyond_violation :
    (stppPars [] 0 2000 1500).map (fun l => l.map fun p => (p.begin', p.end')) =
      .ok [("00:00:00.000".toUTF8.toList, "00:00:01.500".toUTF8.toList),
        ("00:00:01.500".toUTF8.toList, "00:00:03.000".toUTF8.toList)] ∧
    (stppPars [] 2000 2000 1500).map (fun l => (l.map fun p => (p.begin', p.end')).head?) =
      .ok (some ("00:00:02.000".toUTF8.toList, "00:00:03.500".toUTF8.toList)) := by
  decide +kernel

/-- **C88 fails** for every input: the templates are texts, which the box filter cannot take apart, so the
generator ends with a TypeError and leaves nothing but an empty init segment. -/
theorem C88_nothing_violation (a : StppArgs) (initName : Text) (name : Int → Text) (render : List StppPar → Bytes) :
    stppSegments a initName name render = ([(initName, [])], .error .typeError) := by
  unfold stppSegments stppInit strFilter
  rw [if_neg (by decide +kernel)]

/-- **C88 fails** for single segments too: neither an init segment nor a media segment can be made. -/
theorem C88_segment_violation (lang : Text) (trackId ts nr dur time : Int) (ttml : Bytes) :
    stppInit lang trackId ts = .error .typeError ∧ stppMedia trackId nr dur time ttml = .error .typeError := by
  unfold stppInit stppMedia strFilter
  rw [if_neg (by decide +kernel), if_neg (by decide +kernel)]
  exact ⟨rfl, rfl⟩

end Verif
