import Verif.Lemmas.Text
import Verif.Lemmas.AnalyzerFiles
import Verif.Spec.SegmentFiles
import Mathlib.Data.List.TakeWhile
/- The numbers that the analyser takes from the names of files. -/
namespace Verif
open Spec

theorem sortIn_mem {n k : Nat} : ∀ {l : List Nat}, k ∈ sortIn n l ↔ k = n ∨ k ∈ l
  | [] => by simp [sortIn]
  | m :: r => by
    unfold sortIn
    split
    · simp
    · simp only [List.mem_cons, sortIn_mem (l := r)]
      tauto

theorem sortNats_mem {k : Nat} {l : List Nat} : k ∈ sortNats l ↔ k ∈ l := by
  unfold sortNats
  induction l with
  | nil => simp
  | cons a l ih => rw [List.foldr_cons, sortIn_mem, ih, List.mem_cons]

/-- Numbers without gap, from the first on: everything between the first and any of them is among them. -/
theorem consecutive_mem : ∀ {l : List Nat} {n : Nat}, consecutive (n :: l) = true →
    (∀ j ∈ n :: l, n ≤ j ∧ ∀ k, n ≤ k → k ≤ j → k ∈ n :: l)
  | [], n, _, j, hj => by
    simp only [List.mem_singleton] at hj
    subst hj
    exact ⟨Nat.le_refl _, fun k h1 h2 => by rw [Nat.le_antisymm h2 h1]; exact List.mem_cons_self⟩
  | m :: l, n, h, j, hj => by
    unfold consecutive at h
    rw [Bool.and_eq_true, decide_eq_true_eq] at h
    obtain ⟨rfl, h⟩ := h
    rcases List.mem_cons.mp hj with rfl | hj
    · exact ⟨Nat.le_refl _, fun k h1 h2 => by rw [Nat.le_antisymm h2 h1]; exact List.mem_cons_self⟩
    · obtain ⟨a, b⟩ := consecutive_mem h j hj
      refine ⟨by omega, fun k h1 h2 => ?_⟩
      by_cases hk : k = n
      · rw [hk]; exact List.mem_cons_self
      · exact List.mem_cons_of_mem _ (b k (by omega) h2)

theorem digit_range {c : Char} (h : (digitVal c).isSome = true) : '0' ≤ c ∧ c ≤ '9' := by
  unfold digitVal at h
  split at h
  · assumption
  · cases h

theorem IsDigit.val {c : Char} (h : IsDigit c) : (digitVal c).isSome = true := by
  obtain ⟨d, hd, rfl⟩ := h
  rw [digitVal_digitChar hd]
  rfl

/-- The number of a segment file. -/
theorem fileNumber_segment (n : Nat) : fileNumber [] ".m4s".toList (segmentName n) = some n := by
  unfold fileNumber segmentName
  rw [if_pos (by rfl)]
  dsimp only
  rw [List.length_nil, List.drop_zero, List.takeWhile_append_of_pos (by
    intro c hc
    exact (natText_digits n c hc).val)]
  have e : List.takeWhile (fun c => (digitVal c).isSome) ".m4s".toList = [] := by decide +kernel
  rw [e, List.append_nil]
  obtain ⟨k, hk⟩ : ∃ k, (natText n).length = k + 1 := ⟨(natText n).length - 1, by
    have := List.length_pos_iff.mpr (natText_ne_nil n)
    omega⟩
  rw [hk]
  unfold digitsThen
  rw [← hk, List.drop_left, List.take_left, if_pos (by decide +kernel), intDigits_natText]

theorem digitsThen_some {suf t : Text} : ∀ {k n : Nat}, digitsThen suf t k = some n →
    ∃ j, 0 < j ∧ j ≤ k ∧ suf <+: t.drop j
  | 0, n, h => by cases h
  | k + 1, n, h => by
    unfold digitsThen at h
    split at h
    · rename_i hp
      exact ⟨k + 1, by omega, Nat.le_refl _, List.isPrefixOf_iff_prefix.mp hp⟩
    · obtain ⟨j, a, b, c⟩ := digitsThen_some h
      exact ⟨j, a, by omega, c⟩

/-- A file that the analyser counts, where no other files look like segments. -/
theorem fileNumber_some {files : List Text} (hf : OnlySegments files) {name : Text} (hn : name ∈ files) {n : Nat}
    (h : fileNumber [] ".m4s".toList name = some n) : name = segmentName n := by
  have h' := h
  unfold fileNumber at h
  rw [if_pos (by rfl)] at h
  dsimp only at h
  rw [List.length_nil, List.drop_zero] at h
  obtain ⟨j, a, b, rest, c⟩ := digitsThen_some h
  have hpre : name.take j <+: name.takeWhile fun c => (digitVal c).isSome := by
    have h1 : name.take j <+: name := List.take_prefix _ _
    have h2 : name.takeWhile (fun c => (digitVal c).isSome) <+: name := List.takeWhile_prefix _
    refine List.prefix_of_prefix_length_le h1 h2 ?_
    rw [List.length_take]
    omega
  have hlen : j ≤ name.length := Nat.le_trans b (List.takeWhile_prefix _).length_le
  obtain ⟨m, hm⟩ := hf name hn (name.take j) rest (by
    intro e
    have := congrArg List.length e
    rw [List.length_take, List.length_nil] at this
    omega) (by
    intro c hc
    have := hpre.subset hc
    exact digit_range (List.mem_takeWhile_imp (p := fun c => (digitVal c).isSome) this)) (by
    rw [List.append_assoc, c, List.take_append_drop])
  rw [hm, fileNumber_segment] at h'
  cases h'
  exact hm

theorem pathSplit_number (id : Text) : pathSplit (id ++ "/%d.m4s".toList) = (id, "%d.m4s".toList) := by
  unfold pathSplit
  have e1 : ((id ++ '/' :: "%d.m4s".toList).reverse.takeWhile (· ≠ '/')).reverse = "%d.m4s".toList :=
    takeWhile_rev_append (by decide +kernel) (by decide)
  have e2 : (id ++ "/%d.m4s".toList).reverse = "s4m.d%".toList ++ '/' :: id.reverse := by
    rw [List.reverse_append]; rfl
  rw [show id ++ "/%d.m4s".toList = id ++ '/' :: "%d.m4s".toList from rfl, e1,
    show id ++ '/' :: "%d.m4s".toList = id ++ "/%d.m4s".toList from rfl, e2,
    List.dropWhile_append_of_pos (by decide +kernel), List.dropWhile_cons_of_neg (by decide)]
  rw [List.drop_succ_cons, List.drop_zero, List.reverse_reverse]

/-- What the analyser makes of a directory. -/
theorem segmentRange_ok {fs : Files} {id : Text} {range : Nat × Nat}
    (h : segmentRange fs (id ++ "/%d.m4s".toList) = .ok range) :
    ∃ files, fs.list id = some files ∧ (∃ name ∈ files, fileNumber [] ".m4s".toList name = some range.1) ∧
      ∀ name ∈ files, ∀ j, fileNumber [] ".m4s".toList name = some j → range.1 ≤ j ∧
        ∀ k, range.1 ≤ k → k ≤ j → ∃ name' ∈ files, fileNumber [] ".m4s".toList name' = some k := by
  unfold segmentRange at h
  rw [pathSplit_number] at h
  dsimp only at h
  cases hl : fs.list id with
  | none => rw [hl] at h; cases h
  | some files =>
    rw [hl, show cutFormat "%d.m4s".toList = some ([], ".m4s".toList) from rfl] at h
    dsimp only at h
    have hmem : ∀ k, k ∈ sortNats (files.filterMap (fileNumber [] ".m4s".toList)) ↔
        ∃ name ∈ files, fileNumber [] ".m4s".toList name = some k := by
      intro k
      rw [sortNats_mem, List.mem_filterMap]
    split at h
    · rename_i hc
      revert hc hmem h
      generalize sortNats (files.filterMap (fileNumber [] ".m4s".toList)) = l
      intro hmem hc h
      cases l with
      | nil => cases h
      | cons n r =>
        cases h
        refine ⟨files, rfl, (hmem n).mp List.mem_cons_self, ?_⟩
        intro name hn j hj
        obtain ⟨a, b⟩ := consecutive_mem hc j ((hmem j).mpr ⟨name, hn, hj⟩)
        exact ⟨a, fun k h1 h2 => (hmem k).mp (b k h1 h2)⟩
    · cases h

theorem sortIn_perm (n : Nat) : ∀ l : List Nat, (sortIn n l).Perm (n :: l)
  | [] => List.Perm.refl _
  | m :: r => by
    unfold sortIn
    split
    · exact List.Perm.refl _
    · exact ((sortIn_perm n r).cons m).trans (List.Perm.swap n m r)

theorem sortNats_perm (l : List Nat) : (sortNats l).Perm l := by
  unfold sortNats
  induction l with
  | nil => exact List.Perm.refl _
  | cons a l ih => exact (sortIn_perm a _).trans (ih.cons a)

theorem sortIn_sorted (n : Nat) : ∀ {l : List Nat}, l.Pairwise (· ≤ ·) → (sortIn n l).Pairwise (· ≤ ·)
  | [], _ => by simp [sortIn]
  | m :: r, h => by
    unfold sortIn
    split
    · rename_i hle
      refine List.pairwise_cons.mpr ⟨?_, h⟩
      intro k hk
      rcases List.mem_cons.mp hk with rfl | hk
      · exact hle
      · exact Nat.le_trans hle ((List.pairwise_cons.mp h).1 k hk)
    · rename_i hle
      refine List.pairwise_cons.mpr ⟨?_, sortIn_sorted n (List.pairwise_cons.mp h).2⟩
      intro k hk
      rcases sortIn_mem.mp hk with rfl | hk
      · omega
      · exact (List.pairwise_cons.mp h).1 k hk

theorem sortNats_sorted (l : List Nat) : (sortNats l).Pairwise (· ≤ ·) := by
  unfold sortNats
  induction l with
  | nil => exact List.Pairwise.nil
  | cons a l ih => exact sortIn_sorted a ih

/-- Increasing numbers without gap are consecutive. -/
theorem consecutive_of : ∀ {l : List Nat}, l.Pairwise (· < ·) →
    (∀ i ∈ l, ∀ j ∈ l, ∀ k, i ≤ k → k ≤ j → k ∈ l) → consecutive l = true
  | [], _, _ => rfl
  | [_], _, _ => rfl
  | a :: b :: r, h, hg => by
    obtain ⟨h1, h2⟩ := List.pairwise_cons.mp h
    obtain ⟨h3, -⟩ := List.pairwise_cons.mp h2
    have hab := h1 b List.mem_cons_self
    have hb : b = a + 1 := by
      have := hg a List.mem_cons_self b (List.mem_cons_of_mem _ List.mem_cons_self) (a + 1) (by omega) (by omega)
      rcases List.mem_cons.mp this with h | h
      · omega
      · rcases List.mem_cons.mp h with h | h
        · exact h.symm
        · have := h3 _ h
          omega
    unfold consecutive
    rw [Bool.and_eq_true, decide_eq_true_eq]
    refine ⟨hb, consecutive_of h2 ?_⟩
    intro i hi j hj k hik hkj
    have hk := hg i (List.mem_cons_of_mem _ hi) j (List.mem_cons_of_mem _ hj) k hik hkj
    rcases List.mem_cons.mp hk with rfl | hk
    · have := h1 i hi
      omega
    · exact hk

/-- A directory without gap is accepted. -/
theorem segmentRange_complete {fs : Files} {id : Text} {files : List Text} (hl : fs.list id = some files)
    (hn : files.Nodup) (ho : OnlySegments files) (hg : NoGap files) {n : Nat} (hs : segmentName n ∈ files) :
    ∃ range, segmentRange fs (id ++ "/%d.m4s".toList) = .ok range := by
  unfold segmentRange
  rw [pathSplit_number]
  dsimp only
  rw [hl, show cutFormat "%d.m4s".toList = some ([], ".m4s".toList) from rfl]
  dsimp only
  have hmem : ∀ k, k ∈ sortNats (files.filterMap (fileNumber [] ".m4s".toList)) ↔ segmentName k ∈ files := by
    intro k
    rw [sortNats_mem, List.mem_filterMap]
    constructor
    · rintro ⟨name, h1, h2⟩
      rw [← fileNumber_some ho h1 h2]
      exact h1
    · exact fun h => ⟨_, h, fileNumber_segment k⟩
  have hnd : (files.filterMap (fileNumber [] ".m4s".toList)).Nodup := by
    refine List.Pairwise.filterMap _ ?_ (List.Pairwise.imp_of_mem (S := fun a b => a ∈ files ∧ b ∈ files ∧ a ≠ b)
      (fun ha hb hab => ⟨ha, hb, hab⟩) hn)
    intro a a' h b hb b' hb'
    rintro rfl
    exact h.2.2 ((fileNumber_some ho h.1 hb).trans (fileNumber_some ho h.2.1 hb').symm)
  have hlt : (sortNats (files.filterMap (fileNumber [] ".m4s".toList))).Pairwise (· < ·) := by
    refine List.Pairwise.imp₂ (fun a b h1 h2 => Nat.lt_of_le_of_ne h1 h2) (sortNats_sorted _) ?_
    exact (sortNats_perm _).nodup_iff.mpr hnd
  have hc := consecutive_of hlt (by
    intro i hi j hj k h1 h2
    exact (hmem k).mpr (hg i j k ((hmem i).mp hi) ((hmem j).mp hj) h1 h2))
  rw [if_pos hc]
  have hne := (hmem n).mpr hs
  revert hne
  generalize sortNats (files.filterMap (fileNumber [] ".m4s".toList)) = l
  intro hne
  cases l with
  | nil => cases hne
  | cons m r => exact ⟨_, rfl⟩

/-- The first number of a representation that the analyser accepts. -/
theorem seeRep_range {fs : Files} {s : AsNode} {rep : NodeAttrs} {q : RepSeen} (h : seeRep fs s rep = .ok q) :
    ∃ path range, s.mediaPath rep = .ok path ∧ segmentRange fs path = .ok range ∧ q.first = range.1 := by
  unfold seeRep at h
  simp only [Py.bind_ok] at h
  obtain ⟨id, h1, ip, h2, init, h3, info, h4, t, h5, path, h6, range, h7, segs, h8, h9⟩ := h
  split at h9
  · cases h9
  · cases h9
    exact ⟨path, range, h6, h7, rfl⟩

end Verif
