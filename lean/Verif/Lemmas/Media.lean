import Verif.Media
import Verif.Lemmas.Text
import Mathlib.Tactic.Linarith
import Mathlib.Tactic.Ring
import Mathlib.Algebra.Order.Field.Rat
/- Helper lemmas about the media timing model. -/
namespace Verif

/-- The configuration of a request for the segment file `<n>.m4s`. -/
def Cfg.forNr (c : Cfg) (n : Int) : Cfg :=
  { c with filename := intText n ++ ".m4s".toList, ext := ".m4s".toList }

theorem pyDiv_pos {a b : Int} (h : 0 < b) : pyDiv a b = .ok (a / b) := by
  unfold pyDiv
  rw [if_neg (by omega), Int.fdiv_eq_ediv_of_nonneg _ (by omega)]

theorem pyMod_pos {a b : Int} (h : 0 < b) : pyMod a b = .ok (a % b) := by
  unfold pyMod
  rw [if_neg (by omega), Int.fmod_eq_emod_of_nonneg _ (by omega)]

theorem intText_has_digit (n : Int) : ∃ c ∈ intText n, c ≠ '.' := by
  unfold intText
  obtain ⟨c, cs, h, hd⟩ := natText_head (n := n.natAbs)
  refine ⟨c, ?_, hd.ne (by decide)⟩
  rw [h]
  split <;> simp

theorem intText_splitext (n : Int) :
    splitext (intText n ++ ".m4s".toList) = (intText n, ".m4s".toList) := by
  have : (".m4s".toList : Text) = '.' :: "m4s".toList := rfl
  rw [this]
  exact splitext_dot (by decide) (intText_has_digit n)

theorem intText_head (n : Int) : ∃ c cs, intText n = c :: cs ∧ c ≠ 't' := by
  unfold intText
  split
  · exact ⟨'-', _, rfl, by decide⟩
  · obtain ⟨c, cs, h, hd⟩ := natText_head (n := n.natAbs)
    exact ⟨c, cs, h, hd.ne (by decide)⟩

/-- A request for `<n>.m4s` asks for segment number `n`. -/
theorem requestedNr_forNr (pf : Text → Option Rat) (c : Cfg) (n : Int) :
    (c.forNr n).requestedNr pf = .ok n := by
  unfold Cfg.requestedNr Cfg.forNr
  simp only [intText_splitext]
  obtain ⟨ch, cs, h, hne⟩ := intText_head n
  have hp := pyInt_intText n
  rw [h] at hp ⊢
  simp [hne, hp]

/-- The loop position for positive durations: the assertion of the code never fires. -/
theorem loopPos_eq {segTime d n first : Int} (hd : 0 < d) (hn : 0 < n) :
    loopPos segTime d n first =
      .ok (segTime / d % n + first, segTime / (d * n) * (d * n)) := by
  have hp : 0 < d * n := Int.mul_pos hd hn
  have e : segTime % (d * n) / d = segTime / d % n := by
    rw [Int.emod_def segTime (d * n), Int.emod_def (segTime / d) n,
      ← Int.ediv_ediv_of_nonneg (by omega : (0:Int) ≤ d)]
    have : segTime - d * n * (segTime / d / n) = segTime + d * (-(n * (segTime / d / n))) := by
      rw [Int.mul_neg, Int.mul_assoc]; rfl
    rw [this, Int.add_mul_ediv_left _ _ (by omega : d ≠ 0)]
    rfl
  unfold loopPos
  simp only [pyDiv_pos hp, pyMod_pos hp, pyDiv_pos hd, bind, Except.bind, e]
  have h1 : 0 ≤ segTime / d % n := Int.emod_nonneg _ (by omega)
  have h2 : segTime / d % n < n := Int.emod_lt_of_pos _ hn
  rw [if_pos ⟨by omega, by omega⟩]
  rfl

end Verif
