import Verif.Text
/- Helper lemmas about text. -/
namespace Verif

theorem digitVal_digitChar {d : Nat} (h : d < 10) : digitVal (digitChar d) = some d := by
  have : ∀ d : Fin 10, digitVal (digitChar d.val) = some d.val := by decide
  exact this ⟨d, h⟩

/-- Characters that are decimal digits. -/
def IsDigit (c : Char) : Prop := ∃ d, d < 10 ∧ c = digitChar d

theorem isDigit_digitChar {d : Nat} (h : d < 10) : IsDigit (digitChar d) := ⟨d, h, rfl⟩

theorem IsDigit.ne {c : Char} (h : IsDigit c) {x : Char}
    (hx : ∀ d : Fin 10, digitChar d.val ≠ x) : c ≠ x := by
  obtain ⟨d, hd, rfl⟩ := h
  exact hx ⟨d, hd⟩

theorem IsDigit.not_space {c : Char} (h : IsDigit c) : isPySpace c = false := by
  obtain ⟨d, hd, rfl⟩ := h
  have : ∀ d : Fin 10, isPySpace (digitChar d.val) = false := by decide
  exact this ⟨d, hd⟩

theorem natText_digits (n : Nat) : ∀ c ∈ natText n, IsDigit c := by
  induction n using Nat.strongRecOn with
  | _ n ih =>
    rw [natText]
    split
    · intro c hc
      simp only [List.mem_singleton] at hc
      exact hc ▸ isDigit_digitChar (by omega)
    · intro c hc
      simp only [List.mem_append, List.mem_singleton] at hc
      rcases hc with hc | hc
      · exact ih (n / 10) (by omega) c hc
      · exact hc ▸ isDigit_digitChar (by omega)

theorem natText_ne_nil (n : Nat) : natText n ≠ [] := by
  rw [natText]
  split <;> simp

/-- Value of a character as a digit (0 for other characters). -/
def dval (c : Char) : Nat := (digitVal c).getD 0

theorem dval_digitChar {d : Nat} (h : d < 10) : dval (digitChar d) = d := by
  simp [dval, digitVal_digitChar h]

theorem intDigits_digits : ∀ (cs : Text) (acc : Nat), (∀ c ∈ cs, IsDigit c) →
    intDigits true acc cs = some (cs.foldl (fun a c => a * 10 + dval c) acc)
  | [], acc, _ => by simp [intDigits]
  | c :: cs, acc, h => by
    have hc : IsDigit c := h c (by simp)
    have hne : c ≠ '_' := hc.ne (by decide)
    obtain ⟨d, hd, rfl⟩ := hc
    simp only [intDigits, hne, if_false, digitVal_digitChar hd, List.foldl_cons,
      dval_digitChar hd]
    exact intDigits_digits cs _ (fun c' hc' => h c' (by simp [hc']))

theorem foldl_natText (n : Nat) : (natText n).foldl (fun a c => a * 10 + dval c) 0 = n := by
  induction n using Nat.strongRecOn with
  | _ n ih =>
    rw [natText]
    split
    · simp [dval_digitChar (by omega : n < 10)]
    · rw [List.foldl_append, ih (n / 10) (by omega)]
      simp only [List.foldl_cons, List.foldl_nil, dval_digitChar (by omega : n % 10 < 10)]
      omega

theorem intDigits_natText (n : Nat) : intDigits false 0 (natText n) = some n := by
  have hd := natText_digits n
  have hf := foldl_natText n
  cases h : natText n with
  | nil => exact absurd h (natText_ne_nil n)
  | cons c cs =>
    rw [h] at hd hf
    have hc : IsDigit c := hd c (by simp)
    have hne : c ≠ '_' := hc.ne (by decide)
    obtain ⟨d, hdd, rfl⟩ := hc
    simp only [intDigits, hne, if_false, digitVal_digitChar hdd]
    rw [intDigits_digits _ _ (fun c' hc' => hd c' (by simp [hc']))]
    simpa [dval_digitChar hdd] using hf

theorem dropWhile_of_head {p : α → Bool} {l : List α} (h : ∀ x ∈ l, p x = false) :
    l.dropWhile p = l := by
  cases l with
  | nil => rfl
  | cons x xs => simp [List.dropWhile, h x (by simp)]

theorem pyStrip_of_noSpace {s : Text} (h : ∀ c ∈ s, isPySpace c = false) : pyStrip s = s := by
  unfold pyStrip
  rw [dropWhile_of_head h, dropWhile_of_head (by simpa using h), List.reverse_reverse]

theorem pyInt_natText (n : Nat) : pyInt (natText n) = .ok (n : Int) := by
  have hd := natText_digits n
  have hs : pyStrip (natText n) = natText n :=
    pyStrip_of_noSpace (fun c hc => (hd c hc).not_space)
  unfold pyInt
  rw [hs]
  have hi := intDigits_natText n
  cases h : natText n with
  | nil => exact absurd h (natText_ne_nil n)
  | cons c cs =>
    rw [h] at hd hi
    have hc : IsDigit c := hd c (by simp)
    have h1 : c ≠ '-' := hc.ne (by decide)
    have h2 : c ≠ '+' := hc.ne (by decide)
    split
    · rename_i heq; injection heq with e1 _; exact absurd e1 h1
    · rename_i heq; injection heq with e1 _; exact absurd e1 h2
    · rw [hi]

theorem natText_head {n : Nat} : ∃ c cs, natText n = c :: cs ∧ IsDigit c := by
  cases h : natText n with
  | nil => exact absurd h (natText_ne_nil n)
  | cons c cs => exact ⟨c, cs, rfl, natText_digits n c (by simp [h])⟩

theorem takeWhile_append_stop {p : α → Bool} {l r : List α} {x : α} (h : ∀ y ∈ l, p y = true)
    (hx : p x = false) : (l ++ x :: r).takeWhile p = l := by
  induction l with
  | nil => simp [hx]
  | cons y ys ih =>
    have := h y (by simp)
    simp [this, ih (fun z hz => h z (by simp [hz]))]

/-- The extension of a name `base.ext` whose extension part has no dot and whose base has a
character other than a dot. -/
theorem splitext_dot {base ext : Text} (h1 : ∀ c ∈ ext, c ≠ '.') (h2 : ∃ c ∈ base, c ≠ '.') :
    splitext (base ++ '.' :: ext) = (base, '.' :: ext) := by
  have e : (base ++ '.' :: ext).reverse.takeWhile (· ≠ '.') = ext.reverse := by
    rw [List.reverse_append, List.reverse_cons, List.append_assoc]
    apply takeWhile_append_stop
    · simpa using h1
    · simp
  unfold splitext
  simp only [e, List.reverse_reverse, List.length_append, List.length_cons]
  have hn : base.length + (ext.length + 1) - ext.length = base.length + 1 := by omega
  rw [hn]
  obtain ⟨c, hc, hne⟩ := h2
  have : (base.all (· = '.')) = false := by
    rw [List.all_eq_false]
    exact ⟨c, hc, by simpa using hne⟩
  simp [this]

theorem natText_inj {a b : Nat} (h : natText a = natText b) : a = b := by
  have := congrArg (fun t => t.foldl (fun a c => a * 10 + dval c) 0) h
  simpa [foldl_natText] using this

theorem intDigits_intText_neg {n : Int} (h : n < 0) : pyInt (intText n) = .ok n := by
  have hd := natText_digits n.natAbs
  have e : intText n = '-' :: natText n.natAbs := by simp [intText, h]
  have hs : pyStrip (intText n) = intText n := by
    apply pyStrip_of_noSpace
    intro c hc
    rw [e] at hc
    rcases List.mem_cons.mp hc with rfl | hc
    · decide
    · exact (hd c hc).not_space
  unfold pyInt
  rw [hs, e]
  simp only [intDigits_natText]
  congr 1
  omega

/-- `int("%d" % n) = n`. -/
theorem pyInt_intText (n : Int) : pyInt (intText n) = .ok n := by
  by_cases h : n < 0
  · exact intDigits_intText_neg h
  · have e : intText n = natText n.natAbs := by simp [intText, h]
    rw [e, pyInt_natText]
    congr 1
    omega

end Verif
