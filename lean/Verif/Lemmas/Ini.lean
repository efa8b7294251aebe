import Verif.VodConfig
import Verif.Lemmas.Text
/-
Lemmas: what `RawConfigParser` writes is what it reads.
-/
namespace Verif

/-- `text.rstrip()`. -/
def rstrip (t : Text) : Text := (t.reverse.dropWhile isPySpace).reverse

theorem pyStrip_eq (t : Text) : pyStrip t = rstrip (t.dropWhile isPySpace) := rfl

theorem rstrip_mid (a b : Text) {c : Char} (hc : isPySpace c = false) :
    rstrip (a ++ c :: b) = a ++ c :: rstrip b := by
  unfold rstrip
  rw [List.reverse_append, List.reverse_cons, List.append_assoc, List.dropWhile_append]
  split
  · rename_i h
    have hn : b.reverse.dropWhile isPySpace = [] := by simpa using h
    rw [hn]
    simp [hc]
  · simp

theorem dropWhile_length_le {p : Char → Bool} (l : Text) : (l.dropWhile p).length ≤ l.length :=
  (List.dropWhile_sublist p).length_le

theorem rstrip_length_le (t : Text) : (rstrip t).length ≤ t.length := by
  unfold rstrip
  rw [List.length_reverse]
  exact Nat.le_trans (dropWhile_length_le _) (by simp)

theorem stripped_left {t : Text} (h : pyStrip t = t) : t.dropWhile isPySpace = t := by
  have h1 := rstrip_length_le (t.dropWhile isPySpace)
  rw [← pyStrip_eq, h] at h1
  exact (List.dropWhile_sublist isPySpace).eq_of_length_le h1

theorem stripped_right {t : Text} (h : pyStrip t = t) : rstrip t = t := by
  rw [pyStrip_eq, stripped_left h] at h
  exact h

theorem rstrip_cons {t : Text} (h : rstrip t = t) (hne : t ≠ []) (a : Text) : rstrip (a ++ t) = a ++ t := by
  obtain ⟨b, c, rfl⟩ : ∃ b c, t = b ++ [c] := ⟨t.dropLast, t.getLast hne, (List.dropLast_concat_getLast hne).symm⟩
  have hc : isPySpace c = false := by
    cases hc : isPySpace c with
    | false => rfl
    | true =>
    have h1 : rstrip (b ++ [c]) = rstrip b := by
      unfold rstrip
      simp [hc]
    rw [h1] at h
    have h2 := rstrip_length_le b
    rw [h] at h2
    simp at h2
    omega
  rw [← List.append_assoc, rstrip_mid (a ++ b) [] hc]
  rfl

/-- The text has no line breaks. -/
def OneLine (t : Text) : Prop := '\n' ∉ t ∧ '\r' ∉ t

instance (t : Text) : Decidable (OneLine t) := by unfold OneLine; exact inferInstance

theorem OneLine.append {a b : Text} (ha : OneLine a) (hb : OneLine b) : OneLine (a ++ b) :=
  ⟨fun h => (List.mem_append.mp h).elim ha.1 hb.1, fun h => (List.mem_append.mp h).elim ha.2 hb.2⟩

theorem fileLines_line {a : Text} (ha : OneLine a) (b : Text) : fileLines (a ++ '\n' :: b) = a :: fileLines b := by
  induction a with
  | nil =>
    show fileLines ('\n' :: b) = _
    rw [fileLines.eq_3]
    · simp
    · intro _ h _; cases h
  | cons c cs ih =>
    have hc : ¬(c = '\n' ∨ c = '\r') := by
      rintro (h | h)
      · exact ha.1 (by rw [h]; exact List.mem_cons_self)
      · exact ha.2 (by rw [h]; exact List.mem_cons_self)
    have hcs : OneLine cs := ⟨fun h => ha.1 (List.mem_cons_of_mem _ h), fun h => ha.2 (List.mem_cons_of_mem _ h)⟩
    show fileLines (c :: (cs ++ '\n' :: b)) = _
    rw [fileLines.eq_3]
    · rw [if_neg hc, ih hcs]
    · intro _ h _; exact hc (Or.inr h)

theorem iniValue_eq {v : Text} (h : OneLine v) : iniValue v = v := by
  unfold iniValue
  have : ∀ (t : Text), '\n' ∉ t → t.flatMap (fun c => if c = '\n' then ['\n', '\t'] else [c]) = t := by
    intro t ht
    induction t with
    | nil => rfl
    | cons c cs ih =>
      rw [List.flatMap_cons, if_neg (fun e => ht (by rw [e]; exact List.mem_cons_self)),
        ih (fun hm => ht (List.mem_cons_of_mem _ hm))]
      rfl
  exact this v h.1

/-- A name of an option that is read as written. -/
def KeyOk (k : Text) : Prop :=
  k ≠ [] ∧ (∀ c ∈ k, isPySpace c = false ∧ c ≠ '=' ∧ c ≠ ':' ∧ c ≠ '\n' ∧ c ≠ '\r') ∧
    k.head? ≠ some '#' ∧ k.head? ≠ some ';' ∧ k.head? ≠ some '[' ∧ lowerText k = k

instance (k : Text) : Decidable (KeyOk k) := by unfold KeyOk; exact inferInstance

/-- A value that is read as written. -/
def ValueOk (v : Text) : Prop := OneLine v ∧ pyStrip v = v

instance (v : Text) : Decidable (ValueOk v) := by unfold ValueOk; exact inferInstance

theorem strip_option {k v : Text} (hk : KeyOk k) :
    pyStrip (k ++ " = ".toList ++ v) = k ++ ' ' :: '=' :: rstrip (' ' :: v) := by
  obtain ⟨c, cs, rfl⟩ := List.exists_cons_of_ne_nil hk.1
  have hc := (hk.2.1 c List.mem_cons_self).1
  rw [pyStrip_eq]
  have e : (c :: cs ++ " = ".toList ++ v).dropWhile isPySpace = (c :: cs ++ [' ']) ++ '=' :: (' ' :: v) := by
    show (c :: (cs ++ " = ".toList ++ v)).dropWhile isPySpace = _
    rw [List.dropWhile_cons, if_neg (by simp [hc])]
    simp
  rw [e, rstrip_mid _ _ (by decide)]
  simp

theorem takeWhile_front {p : Char → Bool} {a : Text} (h : ∀ c ∈ a, p c = true) (b : Text) :
    (a ++ b).takeWhile p = a ++ b.takeWhile p := by
  induction a with
  | nil => rfl
  | cons c cs ih =>
    rw [List.cons_append, List.takeWhile_cons, if_pos (h c List.mem_cons_self),
      ih (fun x hx => h x (List.mem_cons_of_mem _ hx))]
    rfl

theorem dropWhile_front {p : Char → Bool} {a : Text} (h : ∀ c ∈ a, p c = true) (b : Text) :
    (a ++ b).dropWhile p = b.dropWhile p := by
  induction a with
  | nil => rfl
  | cons c cs ih =>
    rw [List.cons_append, List.dropWhile_cons, if_pos (h c List.mem_cons_self),
      ih (fun x hx => h x (List.mem_cons_of_mem _ hx))]

theorem rstrip_key {k : Text} (hk : KeyOk k) : rstrip (k ++ [' ']) = k := by
  obtain ⟨b, c, rfl⟩ : ∃ b c, k = b ++ [c] :=
    ⟨k.dropLast, k.getLast hk.1, (List.dropLast_concat_getLast hk.1).symm⟩
  have hc := (hk.2.1 c (by simp)).1
  rw [List.append_assoc]
  show rstrip (b ++ c :: [' ']) = _
  rw [rstrip_mid _ _ hc]
  rfl

theorem strip_value {v : Text} (hv : pyStrip v = v) : pyStrip (rstrip (' ' :: v)) = v := by
  by_cases hne : v = []
  · subst hne; rfl
  · have h1 : rstrip (' ' :: v) = ' ' :: v := rstrip_cons (stripped_right hv) hne [' ']
    rw [h1, pyStrip_eq]
    have h2 : (' ' :: v).dropWhile isPySpace = v := by
      rw [List.dropWhile_cons, if_pos (by decide), stripped_left hv]
    rw [h2, stripped_right hv]

theorem optionLine_eq {k v : Text} (hk : KeyOk k) (hv : pyStrip v = v) :
    optionLine (k ++ ' ' :: '=' :: rstrip (' ' :: v)) = some (k, v) := by
  unfold optionLine
  have hp : ∀ c ∈ k ++ [' '], (fun c => decide (c ≠ '=') && decide (c ≠ ':')) c = true := by
    intro c hc
    rcases List.mem_append.mp hc with hc | hc
    · have := hk.2.1 c hc
      simp [this.2.1, this.2.2.1]
    · simp at hc; subst hc; decide
  have e : k ++ ' ' :: '=' :: rstrip (' ' :: v) = (k ++ [' ']) ++ '=' :: rstrip (' ' :: v) := by simp
  simp only []
  rw [e, dropWhile_front hp, takeWhile_front hp]
  have e2 : ('=' :: rstrip (' ' :: v)).dropWhile (fun c => decide (c ≠ '=') && decide (c ≠ ':')) =
      '=' :: rstrip (' ' :: v) := by
    rw [List.dropWhile_cons, if_neg (by decide)]
  have e3 : ('=' :: rstrip (' ' :: v)).takeWhile (fun c => decide (c ≠ '=') && decide (c ≠ ':')) = [] := by
    rw [List.takeWhile_cons, if_neg (by decide)]
  rw [e2, e3, List.append_nil]
  simp only []
  have e4 : ((k ++ [' ']).reverse.dropWhile isPySpace).reverse = k := rstrip_key hk
  rw [e4, strip_value hv]

/-- The sections as they will be at the end. -/
def IniLines.view (l : IniLines) : Ini := l.map fun x => (x.1, x.2.map fun y => (y.1, joinLines y.2))

theorem joinWith_snoc (c : Char) {l : List Text} (h : l ≠ []) (t : Text) :
    joinWith c (l ++ [t]) = joinWith c l ++ c :: t := by
  induction l with
  | nil => exact absurd rfl h
  | cons a r ih =>
    cases r with
    | nil => rfl
    | cons b r =>
      show a ++ c :: joinWith c (b :: r ++ [t]) = (a ++ c :: joinWith c (b :: r)) ++ c :: t
      rw [ih (by simp)]
      simp

theorem joinLines_blank (l : List Text) : joinLines (l ++ [[]]) = joinLines l := by
  by_cases h : l = []
  · subst h; rfl
  · unfold joinLines
    rw [joinWith_snoc '\n' h]
    have : isPySpace '\n' = true := by decide
    simp [this]

theorem view_append_blank (l : IniLines) (s o : Text) : (l.append s o []).view = l.view := by
  unfold IniLines.append IniLines.view
  rw [List.map_map]
  apply List.map_congr_left
  intro x _
  simp only [Function.comp]
  split
  · simp only [List.map_map]
    congr 1
    apply List.map_congr_left
    intro y _
    simp only [Function.comp]
    split
    · rw [joinLines_blank]
    · rfl
  · rfl

theorem view_names (l : IniLines) : l.view.map (·.1) = l.map (·.1) := by
  unfold IniLines.view
  rw [List.map_map]
  rfl

theorem view_any (l : IniLines) (h : Text) :
    (l.any fun x => decide (x.1 = h)) = decide (h ∈ l.view.map (·.1)) := by
  rw [view_names]
  apply Bool.eq_iff_iff.mpr
  rw [List.any_eq_true, decide_eq_true_iff, List.mem_map]
  exact ⟨fun ⟨x, hx, e⟩ => ⟨x, hx, by simpa using e⟩, fun ⟨x, hx, e⟩ => ⟨x, hx, by simpa using e⟩⟩

theorem joinLines_one {v : Text} (hv : pyStrip v = v) : joinLines [v] = v := stripped_right hv

theorem view_add (l : IniLines) (s k v : Text) (hv : pyStrip v = v) :
    (l.add s k v).view = l.view.map fun x => if x.1 = s then (x.1, x.2 ++ [(k, v)]) else x := by
  unfold IniLines.add IniLines.view
  rw [List.map_map, List.map_map]
  apply List.map_congr_left
  intro x _
  simp only [Function.comp]
  split
  · simp [joinLines_one hv]
  · rfl

theorem view_has {l : IniLines} {s k : Text}
    (h : ∀ x ∈ l.view, x.1 = s → k ∉ x.2.map (·.1)) : l.has s k = false := by
  unfold IniLines.has
  rw [List.any_eq_false]
  intro x hx
  rw [Bool.and_eq_true, decide_eq_true_iff]
  rintro ⟨h1, h2⟩
  rw [List.any_eq_true] at h2
  obtain ⟨y, hy, e⟩ := h2
  have hm : (x.1, x.2.map fun y => (y.1, joinLines y.2)) ∈ l.view := List.mem_map.mpr ⟨x, hx, rfl⟩
  apply h _ hm h1
  rw [List.map_map]
  exact List.mem_map.mpr ⟨y, hy, by simpa using e⟩

/-- Between the lines that were written: no indentation, no error, and the sections read so far. -/
structure IniState.Has (st : IniState) (x : Ini) : Prop where
  indent : st.indent = 0
  bad : st.bad = false
  view : st.secs.view = x

theorem iniLine_blank {st : IniState} {x : Ini} (h : st.Has x) : ∃ st', iniLine st [] = .ok st' ∧ st'.Has x := by
  unfold iniLine
  have e : pyStrip ([] : Text) = [] := rfl
  rw [e]
  simp only []
  split
  · rename_i s o _ _
    by_cases ho : o = []
    · rw [if_pos ho]; exact ⟨_, rfl, h⟩
    · rw [if_neg ho]
      exact ⟨_, rfl, h.indent, h.bad, by rw [view_append_blank]; exact h.view⟩
  · exact ⟨_, rfl, h⟩

theorem sectHeader_eq {n : Text} (hn : n ≠ []) : sectHeader ('[' :: (n ++ [']'])) = some n := by
  unfold sectHeader
  have e : ((n ++ [']']).reverse.dropWhile (· ≠ ']')).reverse = n ++ [']'] := by
    rw [List.reverse_append]
    show ((']' :: n.reverse).dropWhile (· ≠ ']')).reverse = _
    rw [List.dropWhile_cons, if_neg (by decide)]
    simp
  simp only []
  rw [e]
  split
  · rename_i h; simp at h
  · rename_i h
    rw [List.dropLast_concat, if_neg hn]

theorem strip_header (n : Text) : pyStrip ('[' :: n ++ [']']) = '[' :: (n ++ [']']) := by
  rw [pyStrip_eq]
  have e : ('[' :: n ++ [']']).dropWhile isPySpace = ('[' :: n) ++ ']' :: [] := by
    show ('[' :: (n ++ [']'])).dropWhile isPySpace = _
    rw [List.dropWhile_cons, if_neg (by decide)]
    rfl
  rw [e, rstrip_mid _ _ (by decide)]
  rfl

theorem iniLine_header {st : IniState} {x : Ini} (h : st.Has x) {n : Text} (hn : n ≠ [])
    (hnew : n ∉ x.map (·.1)) :
    ∃ st', iniLine st ('[' :: n ++ [']']) = .ok st' ∧ st'.Has (x ++ [(n, [])]) ∧ st'.sect = some n := by
  unfold iniLine
  rw [strip_header]
  simp only []
  have hind : (('[' :: n ++ [']']).takeWhile isPySpace).length = 0 := by
    show (('[' :: (n ++ [']'])).takeWhile isPySpace).length = 0
    rw [List.takeWhile_cons, if_neg (by decide)]
    rfl
  rw [if_neg (by decide), hind, h.indent]
  have hd : decide (st.opt ≠ some [] ∧ 0 > 0) = false := by simp
  rw [hd]
  have hany : (st.secs.any fun x => decide (x.1 = n)) = false := by
    rw [view_any, h.view]
    simpa using hnew
  have hgoal : ∀ st' : IniState, st' = { st with secs := st.secs ++ [(n, [])], sect := some n, opt := none, indent := 0 } →
      st'.Has (x ++ [(n, [])]) ∧ st'.sect = some n := by
    rintro _ rfl
    refine ⟨⟨rfl, h.bad, ?_⟩, rfl⟩
    show (st.secs ++ [(n, [])]).view = _
    rw [← h.view]
    simp [IniLines.view]
  split
  · rename_i hc; cases hc
  · rw [sectHeader_eq hn]
    simp only []
    rw [hany]
    exact ⟨_, rfl, hgoal _ rfl⟩

theorem iniLine_option {st : IniState} {x : Ini} {n : Text} {os : List (Text × Text)}
    (h : st.Has (x ++ [(n, os)])) (hs : st.sect = some n) (hn : n ∉ x.map (·.1)) {k v : Text} (hk : KeyOk k)
    (hv : pyStrip v = v) (hnew : k ∉ os.map (·.1)) :
    ∃ st', iniLine st (k ++ " = ".toList ++ v) = .ok st' ∧ st'.Has (x ++ [(n, os ++ [(k, v)])]) ∧
      st'.sect = some n := by
  unfold iniLine
  rw [strip_option hk]
  obtain ⟨c, cs, hkc⟩ := List.exists_cons_of_ne_nil hk.1
  have hc := hk.2.1 c (by rw [hkc]; exact List.mem_cons_self)
  have hlow := hk.2.2.2.2.2
  have hind : ((k ++ " = ".toList ++ v).takeWhile isPySpace).length = 0 := by
    rw [hkc]
    show ((c :: (cs ++ " = ".toList ++ v)).takeWhile isPySpace).length = 0
    rw [List.takeWhile_cons, if_neg (by simp [hc.1])]
    rfl
  have ek : k ++ ' ' :: '=' :: rstrip (' ' :: v) = c :: (cs ++ ' ' :: '=' :: rstrip (' ' :: v)) := by
    rw [hkc]; rfl
  have hsect : sectHeader (k ++ ' ' :: '=' :: rstrip (' ' :: v)) = none := by
    rw [ek]
    unfold sectHeader
    split
    · rename_i r hr
      have : c = '[' := by injection hr
      exact absurd (by rw [hkc, this]; rfl) hk.2.2.2.2.1
    · rfl
  have hopt := optionLine_eq hk hv
  rw [hind]
  rw [ek] at hsect hopt ⊢
  simp only []
  have hcm : ¬(c = '#' ∨ c = ';') := by
    rintro (e | e)
    · exact hk.2.2.1 (by rw [hkc, e]; rfl)
    · exact hk.2.2.2.1 (by rw [hkc, e]; rfl)
  rw [if_neg hcm, h.indent]
  have hd : decide (st.opt ≠ some [] ∧ 0 > 0) = false := by simp
  rw [hd]
  have hhas : st.secs.has n k = false := by
    apply view_has
    rw [h.view]
    intro y hy e
    rcases List.mem_append.mp hy with hy | hy
    · exact absurd (List.mem_map.mpr ⟨y, hy, e⟩) hn
    · simp at hy; subst hy; exact hnew
  have hgoal : ∀ st' : IniState, st' = { secs := st.secs.add n k v, sect := some n, opt := some k, indent := 0, bad := st.bad || decide (k = []) } →
      st'.Has (x ++ [(n, os ++ [(k, v)])]) ∧ st'.sect = some n := by
    rintro _ rfl
    refine ⟨⟨rfl, ?_, ?_⟩, rfl⟩
    · show (st.bad || decide (k = [])) = false
      rw [h.bad, Bool.false_or, decide_eq_false hk.1]
    · show (st.secs.add n k v).view = _
      rw [view_add _ _ _ _ hv, h.view, List.map_append]
      congr 1
      · have : ∀ y ∈ x, (if y.1 = n then (y.1, y.2 ++ [(k, v)]) else y) = y := by
          intro y hy
          rw [if_neg]
          intro e
          exact hn (List.mem_map.mpr ⟨y, hy, e⟩)
        rw [List.map_congr_left this, List.map_id']
      · simp
  split
  · rename_i hc; cases hc
  · rw [hsect]
    simp only []
    rw [hs]
    simp only []
    rw [hopt]
    simp only []
    rw [hlow, hhas]
    exact ⟨_, rfl, hgoal _ rfl⟩

theorem iniLoop_append (a b : List Text) (st : IniState) :
    iniLoop (a ++ b) st = match iniLoop a st with
      | .error e => .error e
      | .ok st => iniLoop b st := by
  induction a generalizing st with
  | nil => rfl
  | cons l ls ih =>
    show (match iniLine st l with | .error e => _ | .ok st => iniLoop (ls ++ b) st) =
      match (match iniLine st l with | .error e => _ | .ok st => iniLoop ls st) with | .error e => _ | .ok st => _
    cases iniLine st l with
    | error e => rfl
    | ok st' => exact ih st'

theorem iniLoop_options (opts : List (Text × Text)) : ∀ (st : IniState) (x : Ini) (n : Text) (os : List (Text × Text)),
    st.Has (x ++ [(n, os)]) → st.sect = some n → n ∉ x.map (·.1) →
    (∀ y ∈ opts, KeyOk y.1 ∧ pyStrip y.2 = y.2) → ((os ++ opts).map (·.1)).Nodup →
    ∃ st', iniLoop (opts.map fun y => y.1 ++ " = ".toList ++ y.2) st = .ok st' ∧
      st'.Has (x ++ [(n, os ++ opts)]) := by
  induction opts with
  | nil => intro st x n os h _ _ _ _; exact ⟨st, rfl, by simpa using h⟩
  | cons y ys ih =>
    intro st x n os h hs hn hok hnd
    have hy := hok y List.mem_cons_self
    have hnew : y.1 ∉ os.map (·.1) := by
      intro hm
      rw [List.map_append, List.nodup_append] at hnd
      exact hnd.2.2 _ hm _ (by simp) rfl
    obtain ⟨st1, h1, h2, h3⟩ := iniLine_option h hs hn hy.1 hy.2 hnew
    obtain ⟨st2, h4, h5⟩ := ih st1 x n (os ++ [y]) h2 h3 hn (fun z hz => hok z (List.mem_cons_of_mem _ hz))
      (by simpa using hnd)
    refine ⟨st2, ?_, by simpa using h5⟩
    show (match iniLine st _ with | .error e => _ | .ok st => _) = _
    rw [h1]
    exact h4

/-- Sections that are read as written. -/
structure IniOk (x : Ini) : Prop where
  names : (x.map (·.1)).Nodup
  name : ∀ s ∈ x, s.1 ≠ [] ∧ OneLine s.1
  keys : ∀ s ∈ x, (s.2.map (·.1)).Nodup
  options : ∀ s ∈ x, ∀ y ∈ s.2, KeyOk y.1 ∧ ValueOk y.2

/-- The lines of a section. -/
def sectionLines (s : Text × List (Text × Text)) : List Text :=
  ('[' :: s.1 ++ [']']) :: (s.2.map fun y => y.1 ++ " = ".toList ++ y.2) ++ [[]]

theorem KeyOk.oneLine {k : Text} (h : KeyOk k) : OneLine k :=
  ⟨fun hm => (h.2.1 _ hm).2.2.2.1 rfl, fun hm => (h.2.1 _ hm).2.2.2.2 rfl⟩

theorem fileLines_section {s : Text × List (Text × Text)} (hn : OneLine s.1)
    (ho : ∀ y ∈ s.2, KeyOk y.1 ∧ ValueOk y.2) (b : Text) :
    fileLines (writeSection s ++ b) = sectionLines s ++ fileLines b := by
  unfold writeSection sectionLines
  have e : ('[' :: s.1 ++ "]\n".toList ++ s.2.flatMap (fun y => y.1 ++ " = ".toList ++ iniValue y.2 ++ ['\n']) ++ ['\n']) ++ b
      = ('[' :: s.1 ++ [']']) ++ '\n' :: (s.2.flatMap (fun y => y.1 ++ " = ".toList ++ iniValue y.2 ++ ['\n']) ++ '\n' :: b) := by
    simp
  have h1 : OneLine ('[' :: s.1 ++ [']']) := OneLine.append (OneLine.append (a := ['[']) (by decide) hn) (by decide)
  rw [e, fileLines_line h1]
  have h2 : ∀ (os : List (Text × Text)), (∀ y ∈ os, KeyOk y.1 ∧ ValueOk y.2) →
      fileLines (os.flatMap (fun y => y.1 ++ " = ".toList ++ iniValue y.2 ++ ['\n']) ++ '\n' :: b) =
        (os.map fun y => y.1 ++ " = ".toList ++ y.2) ++ [] :: fileLines b := by
    intro os
    induction os with
    | nil => intro _; exact fileLines_line (a := []) (by decide) b
    | cons y ys ih =>
      intro h
      have hy := h y List.mem_cons_self
      rw [List.flatMap_cons, iniValue_eq hy.2.1]
      have e : (y.1 ++ " = ".toList ++ y.2 ++ ['\n'] ++ ys.flatMap (fun y => y.1 ++ " = ".toList ++ iniValue y.2 ++ ['\n'])) ++ '\n' :: b
          = (y.1 ++ " = ".toList ++ y.2) ++ '\n' :: (ys.flatMap (fun y => y.1 ++ " = ".toList ++ iniValue y.2 ++ ['\n']) ++ '\n' :: b) := by
        simp
      rw [e, fileLines_line ((hy.1.oneLine.append (by decide)).append hy.2.1), ih (fun z hz => h z (List.mem_cons_of_mem _ hz))]
      rfl
  rw [h2 _ ho]
  simp

theorem iniLoop_section {st : IniState} {x : Ini} (h : st.Has x) {s : Text × List (Text × Text)} (hn : s.1 ≠ [])
    (hnew : s.1 ∉ x.map (·.1)) (hk : (s.2.map (·.1)).Nodup) (ho : ∀ y ∈ s.2, KeyOk y.1 ∧ ValueOk y.2) :
    ∃ st', iniLoop (sectionLines s) st = .ok st' ∧ st'.Has (x ++ [s]) := by
  obtain ⟨st1, h1, h2, h3⟩ := iniLine_header h hn hnew
  obtain ⟨st2, h4, h5⟩ := iniLoop_options s.2 st1 x s.1 [] h2 h3 hnew (fun y hy => ⟨(ho y hy).1, (ho y hy).2.2⟩) hk
  obtain ⟨st3, h6, h7⟩ := iniLine_blank h5
  refine ⟨st3, ?_, h7⟩
  unfold sectionLines
  rw [iniLoop_append]
  have e : iniLoop (('[' :: s.1 ++ [']']) :: s.2.map fun y => y.1 ++ " = ".toList ++ y.2) st = .ok st2 := by
    show (match iniLine st _ with | .error e => _ | .ok st => _) = _
    rw [h1]
    exact h4
  rw [e]
  simp only []
  show (match iniLine st2 [] with | .error e => _ | .ok st => _) = _
  rw [h6]
  rfl

/-- **Reading what was written gives what was there.** -/
theorem readIni_writeIni {x : Ini} (h : IniOk x) : readIni (writeIni x) = .ok x := by
  have key : ∀ (y done : Ini) (st : IniState), st.Has done → IniOk y → (∀ s ∈ y, s.1 ∉ done.map (·.1)) →
      ∃ st', iniLoop (fileLines (writeIni y)) st = .ok st' ∧ st'.Has (done ++ y) := by
    intro y
    induction y with
    | nil =>
      intro done st hst _ _
      obtain ⟨st1, h1, h2⟩ := iniLine_blank hst
      refine ⟨st1, ?_, by simpa using h2⟩
      show (match iniLine st [] with | .error e => _ | .ok st => _) = _
      rw [h1]
      rfl
    | cons s ss ih =>
      intro done st hst hok hnew
      have hs := hok.name s List.mem_cons_self
      have ho := hok.options s List.mem_cons_self
      obtain ⟨st1, h1, h2⟩ := iniLoop_section hst hs.1 (hnew s List.mem_cons_self) (hok.keys s List.mem_cons_self) ho
      have hnd := hok.names
      rw [List.map_cons, List.nodup_cons] at hnd
      obtain ⟨st2, h3, h4⟩ := ih (done ++ [s]) st1 h2
        ⟨hnd.2, fun z hz => hok.name z (List.mem_cons_of_mem _ hz), fun z hz => hok.keys z (List.mem_cons_of_mem _ hz),
          fun z hz => hok.options z (List.mem_cons_of_mem _ hz)⟩
        (by
          intro z hz hm
          rw [List.map_append] at hm
          rcases List.mem_append.mp hm with hm | hm
          · exact hnew z (List.mem_cons_of_mem _ hz) hm
          · simp at hm
            exact hnd.1 (by rw [← hm]; exact List.mem_map.mpr ⟨z, hz, rfl⟩))
      refine ⟨st2, ?_, by simpa using h4⟩
      show iniLoop (fileLines (writeSection s ++ writeIni ss)) st = _
      rw [fileLines_section hs.2 ho, iniLoop_append, h1]
      exact h3
  obtain ⟨st, h1, h2⟩ := key x [] {} ⟨rfl, rfl, rfl⟩ h (by simp)
  unfold readIni
  rw [h1]
  simp only []
  rw [h2.bad]
  have := h2.view
  unfold IniLines.view at this
  rw [this]
  rfl

end Verif
