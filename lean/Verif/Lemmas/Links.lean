import Verif.Lemmas.MpdTree
import Verif.Props.UrlOrder
import Verif.Props.UpDown
/-
The URLs in the manifest as lists of parts.
-/
namespace Verif

/-! ### Splitting and joining -/

theorem splitChar_ne_nil (c : Char) (t : Text) : splitChar c t ≠ [] := by
  cases t with
  | nil => simp [splitChar]
  | cons x xs =>
    unfold splitChar
    split
    · simp
    · split <;> simp

theorem splitChar_append (c : Char) (a b : Text) :
    splitChar c (a ++ c :: b) = splitChar c a ++ splitChar c b := by
  induction a with
  | nil => simp [splitChar]
  | cons x xs ih =>
    rw [List.cons_append, splitChar, splitChar, ih]
    by_cases hx : x = c
    · rw [if_pos hx, if_pos hx]; rfl
    · rw [if_neg hx, if_neg hx]
      cases hs : splitChar c xs with
      | nil => exact absurd hs (splitChar_ne_nil c xs)
      | cons y ys => rfl

/-- A text is the first part and the others with slashes before them. -/
theorem splitChar_text (t : Text) : ∃ p ps, splitChar '/' t = p :: ps ∧ '/' ∉ p ∧ (∀ q ∈ ps, '/' ∉ q) ∧
    t = p ++ ps.flatMap ('/' :: ·) := by
  induction t with
  | nil => exact ⟨[], [], rfl, by simp, by simp, rfl⟩
  | cons x xs ih =>
    obtain ⟨p, ps, h1, h2, h3, h4⟩ := ih
    by_cases hx : x = '/'
    · refine ⟨[], p :: ps, by simp [splitChar, hx, h1], by simp, ?_, by rw [hx]; simpa using h4⟩
      intro q hq
      rcases List.mem_cons.1 hq with rfl | hq
      · exact h2
      · exact h3 q hq
    · refine ⟨x :: p, ps, by simp [splitChar, hx, h1], ?_, h3, by rw [List.cons_append, ← h4]⟩
      rw [List.mem_cons]
      rintro (h | h)
      · exact hx h.symm
      · exact h2 h

theorem splitChar_flat {p : Text} (hp : '/' ∉ p) {ps : List Text} (hs : ∀ q ∈ ps, '/' ∉ q) :
    splitChar '/' (p ++ ps.flatMap ('/' :: ·)) = p :: ps := by
  induction ps generalizing p with
  | nil => rw [List.flatMap_nil, List.append_nil]; exact splitChar_noSep (fun x hx e => hp (by rw [← e]; exact hx))
  | cons q qs ih =>
    rw [List.flatMap_cons, List.cons_append, splitChar_sep (c := '/') (fun x hx e => hp (by rw [← e]; exact hx)),
      ih (hs q (List.mem_cons_self ..)) (fun r hr => hs r (List.mem_cons_of_mem _ hr))]

theorem joinSlash_flat (p : Text) (ps : List Text) : joinSlash (p :: ps) = p ++ ps.flatMap ('/' :: ·) := by
  induction ps generalizing p with
  | nil => simp [joinSlash]
  | cons q qs ih => rw [joinSlash, ih]; simp; simp

/-- The parts of a URL that starts with `s`. -/
theorem splitChar_join (s : Text) {l : List Text} (hl : l ≠ []) (hs : ∀ q ∈ l, '/' ∉ q) :
    splitChar '/' (s ++ '/' :: joinSlash l) = splitChar '/' s ++ l := by
  rw [splitChar_append]
  cases l with
  | nil => exact absurd rfl hl
  | cons p ps =>
    rw [joinSlash_flat, splitChar_flat (hs p (List.mem_cons_self ..)) (fun q hq => hs q (List.mem_cons_of_mem _ hq))]

theorem joinSlash_append {a b : List Text} (ha : a ≠ []) (hb : b ≠ []) :
    joinSlash (a ++ b) = joinSlash a ++ '/' :: joinSlash b := by
  cases a with
  | nil => exact absurd rfl ha
  | cons p ps =>
    cases b with
    | nil => exact absurd rfl hb
    | cons q qs => rw [List.cons_append, joinSlash_flat, joinSlash_flat, joinSlash_flat]; simp

/-! ### Replacing relative times -/

/-- What `re.sub` makes of one part: the key and the digits become `new`. -/
def relPart (k new p : Text) : Text :=
  if k.isPrefixOf p then
    match p.drop k.length with
    | x :: r => if relChar x then new ++ r.dropWhile relChar else p
    | [] => p
  else p

theorem isPrefixOf_slash {k : Text} (hk : '/' ∉ k) (p : Text) {t : Text} (ht : ∀ c ∈ t.head?, c = '/') :
    k.isPrefixOf (p ++ t) = k.isPrefixOf p := by
  induction k generalizing p with
  | nil => simp [List.isPrefixOf]
  | cons c k ih =>
    rw [List.mem_cons, not_or] at hk
    cases p with
    | nil =>
      cases t with
      | nil => rfl
      | cons x xs =>
        have := ht x rfl
        subst this
        simp [List.isPrefixOf, Ne.symm hk.1]
    | cons x xs => simp [List.isPrefixOf, ih hk.2]

theorem subRel_skip {k new : Text} {r : Text} (hr : '/' ∉ r) (t : Text) : ∀ {n : Nat}, r.length ≤ n →
    subRel ('/' :: k) new n (r ++ t) = r ++ subRel ('/' :: k) new (n - r.length) t := by
  induction r with
  | nil => intro n _; simp
  | cons c r ih =>
    intro n hn
    rw [List.mem_cons, not_or] at hr
    cases n with
    | zero => simp at hn
    | succ n =>
      rw [List.cons_append, subRel]
      have : ('/' :: k).isPrefixOf (c :: (r ++ t)) = false := by simp [List.isPrefixOf, hr.1]
      rw [this]
      simp only [Bool.false_eq_true, if_false, List.length_cons] at hn ⊢
      rw [ih hr.2 (by omega), show n + 1 - (r.length + 1) = n - r.length by omega]
      rfl

theorem dropWhile_slash (r : Text) {t : Text} (ht : ∀ c ∈ t.head?, c = '/') :
    (r ++ t).dropWhile relChar = r.dropWhile relChar ++ t := by
  induction r with
  | nil =>
    cases t with
    | nil => rfl
    | cons x xs =>
      have := ht x rfl
      subst this
      rw [List.nil_append, List.dropWhile_cons, if_neg (by decide +kernel)]
      rfl
  | cons x xs ih =>
    rw [List.cons_append, List.dropWhile_cons, List.dropWhile_cons, ih]
    split <;> simp_all

theorem subRel_parts {k new : Text} (hk : '/' ∉ k) {l : List Text} (hl : ∀ p ∈ l, '/' ∉ p) :
    ∀ {n : Nat}, (l.flatMap ('/' :: ·)).length ≤ n →
    subRel ('/' :: k) ('/' :: new) n (l.flatMap ('/' :: ·)) = (l.map (relPart k new)).flatMap ('/' :: ·) := by
  induction l with
  | nil => intro n _; cases n <;> rfl
  | cons p ps ih =>
    intro n hn
    have hp := hl p (List.mem_cons_self ..)
    have hps := fun q hq => hl q (List.mem_cons_of_mem _ hq)
    have ht : ∀ c ∈ (ps.flatMap ('/' :: ·)).head?, c = '/' := by
      intro c hc
      cases ps with
      | nil => cases hc
      | cons q qs => simpa using hc.symm
    rw [List.flatMap_cons, List.map_cons, List.flatMap_cons] at *
    generalize hT : ps.flatMap ('/' :: ·) = T at *
    have ih' : ∀ {n : Nat}, T.length ≤ n →
        subRel ('/' :: k) ('/' :: new) n T = (ps.map (relPart k new)).flatMap ('/' :: ·) := fun {n} h => ih hps h
    cases n with
    | zero => simp at hn
    | succ n =>
      rw [List.cons_append, List.length_cons, List.length_append] at hn
      rw [List.cons_append, subRel]
      have skip : '/' :: subRel ('/' :: k) ('/' :: new) n (p ++ T) =
          '/' :: (p ++ (ps.map (relPart k new)).flatMap ('/' :: ·)) := by
        rw [subRel_skip hp T (by omega), ih' (by omega)]
      have e1 : ('/' :: k).isPrefixOf ('/' :: (p ++ T)) = k.isPrefixOf p := by
        rw [← isPrefixOf_slash hk p ht]; simp [List.isPrefixOf]
      rw [e1]
      generalize (ps.map (relPart k new)).flatMap ('/' :: ·) = U at ih' skip ⊢
      unfold relPart
      cases hpre : k.isPrefixOf p with
      | false => simp only [Bool.false_eq_true, if_false]; exact skip
      | true =>
        obtain ⟨q, rfl⟩ := List.isPrefixOf_iff_prefix.1 hpre
        simp only [if_true]
        rw [List.drop_left, show ('/' :: k).length = k.length + 1 from rfl, List.drop_succ_cons,
          List.append_assoc, List.drop_left]
        rw [List.append_assoc] at skip
        cases q with
        | nil =>
          simp only [List.append_nil, List.nil_append]
          cases T with
          | nil => simpa using skip
          | cons x xs =>
            have := ht x rfl
            subst this
            dsimp only
            rw [if_neg (by decide +kernel)]
            simpa using skip
        | cons x r =>
          dsimp only [List.cons_append]
          cases hx : relChar x with
          | false => simp only [Bool.false_eq_true, if_false]; simpa using skip
          | true =>
            simp only [if_true]
            have hr : '/' ∉ r.dropWhile relChar := by
              intro h
              exact hp (List.mem_append_right _ (List.mem_cons_of_mem _ ((List.dropWhile_sublist _).subset h)))
            have hlen : (r.dropWhile relChar).length ≤ r.length := (List.dropWhile_sublist _).length_le
            rw [List.length_append, List.length_cons] at hn
            rw [dropWhile_slash r ht, subRel_skip hr T (by omega), ih' (by omega)]
            simp

theorem relPart_slash {k new p : Text} (hn : '/' ∉ new) (hp : '/' ∉ p) : '/' ∉ relPart k new p := by
  unfold relPart
  split
  · split
    · rename_i x r hd
      split
      · rw [List.mem_append]
        rintro (h | h)
        · exact hn h
        · have h1 : '/' ∈ p.drop k.length := by
            rw [hd]; exact List.mem_cons_of_mem _ ((List.dropWhile_sublist _).subset h)
          exact hp (List.mem_of_mem_drop h1)
      · exact hp
    · exact hp
  · exact hp

theorem relPart_other {k new p : Text} (h : ¬k <+: p) : relPart k new p = p := by
  unfold relPart
  rw [if_neg]
  intro h'
  exact h (List.isPrefixOf_iff_prefix.1 h')

/-- The whole URL, of which no part of the start is replaced. -/
theorem subRel_url {k new : Text} (hk : '/' ∉ k) (s : Text) (hs : ∀ p ∈ splitChar '/' s, ¬k <+: p)
    {l : List Text} (hl : ∀ p ∈ l, '/' ∉ p) :
    subRel ('/' :: k) ('/' :: new) (s ++ l.flatMap ('/' :: ·)).length (s ++ l.flatMap ('/' :: ·)) =
      s ++ (l.map (relPart k new)).flatMap ('/' :: ·) := by
  obtain ⟨p, ps, h1, h2, h3, h4⟩ := splitChar_text s
  have e : (ps.map (relPart k new)) = ps := by
    conv_rhs => rw [← List.map_id ps]
    apply List.map_congr_left
    intro q hq
    exact relPart_other (hs q (by rw [h1]; exact List.mem_cons_of_mem _ hq))
  have e2 : s ++ l.flatMap ('/' :: ·) = p ++ (ps ++ l).flatMap ('/' :: ·) := by
    rw [List.flatMap_append, ← List.append_assoc, ← h4]
  rw [e2, subRel_skip h2 _ (by simp), subRel_parts hk, List.map_append, e, List.flatMap_append,
    ← List.append_assoc, ← h4]
  · intro q hq
    rcases List.mem_append.1 hq with hq | hq
    · exact h3 q hq
    · exact hl q hq
  · simp

end Verif
