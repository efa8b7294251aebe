import Verif.SegTimeline
/-
Python's bisect on sorted lists.
-/
namespace Verif

theorem bisectLoop_spec (l : List Nat) (x : Nat) (hs : l.Pairwise (· ≤ ·)) (fuel lo hi : Nat)
    (hf : hi - lo ≤ fuel) (hle : lo ≤ hi) (hhi : hi ≤ l.length)
    (hlo : ∀ i v, i < lo → l[i]? = some v → v ≤ x) (hup : ∀ i v, hi ≤ i → l[i]? = some v → x < v) :
    let r := bisectLoop l x fuel lo hi
    r ≤ l.length ∧ (∀ i v, i < r → l[i]? = some v → v ≤ x) ∧ (∀ i v, r ≤ i → l[i]? = some v → x < v) := by
  induction fuel generalizing lo hi with
  | zero =>
    have : lo = hi := by omega
    subst this
    exact ⟨hhi, hlo, hup⟩
  | succ fuel ih =>
    unfold bisectLoop
    have hmono : ∀ (i j v w : Nat), i ≤ j → l[i]? = some v → l[j]? = some w → v ≤ w := by
      intro i j v w hij hi hj
      rcases Nat.lt_or_eq_of_le hij with h | h
      · obtain ⟨h1, e1⟩ := List.getElem?_eq_some_iff.mp hi
        obtain ⟨h2, e2⟩ := List.getElem?_eq_some_iff.mp hj
        have := List.pairwise_iff_getElem.mp hs i j h1 h2 h
        rwa [e1, e2] at this
      · subst h
        rw [hi] at hj
        cases hj
        exact Nat.le_refl _
    split
    · rename_i hlt
      have hm : (lo + hi) / 2 < l.length := by omega
      have hmv : l[(lo + hi) / 2]? = some l[(lo + hi) / 2] := List.getElem?_eq_getElem hm
      split
      · rename_i hx
        rw [hmv] at hx
        refine ih lo ((lo + hi) / 2) (by omega) (by omega) (by omega) hlo ?_
        intro i v hi' hv
        exact Nat.lt_of_lt_of_le hx (hmono _ _ _ _ hi' hmv hv)
      · rename_i hx
        rw [hmv] at hx
        refine ih ((lo + hi) / 2 + 1) hi (by omega) (by omega) hhi ?_ hup
        intro i v hi' hv
        exact Nat.le_trans (hmono _ _ _ _ (by omega) hv hmv) (Nat.not_lt.mp hx)
    · have : lo = hi := by omega
      subst this
      exact ⟨hhi, hlo, hup⟩

/-- On a sorted list `bisect` separates the elements that are at most `x` from those above. -/
theorem bisect_spec (l : List Nat) (x : Nat) (hs : l.Pairwise (· ≤ ·)) :
    bisect l x ≤ l.length ∧ (∀ i v, i < bisect l x → l[i]? = some v → v ≤ x) ∧
      (∀ i v, bisect l x ≤ i → l[i]? = some v → x < v) := by
  refine bisectLoop_spec l x hs l.length 0 l.length (by omega) (by omega) (Nat.le_refl _) ?_ ?_
  · intro i v h; omega
  · intro i v h hv
    obtain ⟨h1, _⟩ := List.getElem?_eq_some_iff.mp hv
    omega

end Verif
