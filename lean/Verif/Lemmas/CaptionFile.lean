import Verif.CaptionFile
import Verif.Spec.CaptionFile
import Verif.Lemmas.Text
import Verif.Lemmas.MpdText
import Verif.Props.UpDown
import Verif.Props.Captions
import Mathlib.Data.Rat.Floor
/-
Reading of caption files.
-/
namespace Verif
open Spec

theorem decimal_char {c : Char} (h : c ∈ "0123456789".toList) :
    IsDigit c ∧ dval c = "0123456789abcdef".toList.idxOf c.toLower := by
  have key : ∀ c ∈ "0123456789".toList, c = digitChar (dval c) ∧ dval c < 10 ∧
      dval c = "0123456789abcdef".toList.idxOf c.toLower := by decide +kernel
  obtain ⟨h1, h2, h3⟩ := key c h
  exact ⟨⟨_, h2, h1⟩, h3⟩

theorem hex_char {c : Char} (h : c ∈ "0123456789abcdefABCDEF".toList) :
    hexVal c = some ("0123456789abcdef".toList.idxOf c.toLower) ∧ isPySpace c = false ∧ c ≠ ' ' := by
  have key : ∀ c ∈ "0123456789abcdefABCDEF".toList,
      hexVal c = some ("0123456789abcdef".toList.idxOf c.toLower) ∧ isPySpace c = false ∧ c ≠ ' ' := by decide +kernel
  exact key c h

theorem decimal_digits {t : Text} (h : Decimal t) : ∀ c ∈ t, IsDigit c :=
  fun c hc => (decimal_char (h.2 c hc)).1

theorem foldl_dval (t : Text) (h : ∀ c ∈ t, c ∈ "0123456789".toList) (a : Nat) :
    t.foldl (fun a c => a * 10 + dval c) a =
      t.foldl (fun a c => a * 10 + "0123456789abcdef".toList.idxOf c.toLower) a := by
  induction t generalizing a with
  | nil => rfl
  | cons c t ih =>
    rw [List.foldl_cons, List.foldl_cons, (decimal_char (h c (List.mem_cons_self ..))).2]
    exact ih (fun x hx => h x (List.mem_cons_of_mem _ hx)) _

theorem pyInt_decimal {t : Text} (h : Decimal t) : pyInt t = .ok (baseVal 10 t : Int) := by
  rw [pyInt_digits h.1 (decimal_digits h), foldl_dval t h.2]
  rfl

theorem hexWord_value {t : Text} (h : Hexadecimal t) : hexWord t = .ok (baseVal 16 t) := by
  unfold hexWord baseVal
  rw [if_neg h.1]
  have : ∀ (t : Text) (n : Nat), (∀ c ∈ t, c ∈ "0123456789abcdefABCDEF".toList) →
      t.foldl (fun a c =>
        match a, hexVal c with
        | .ok n, some d => .ok (n * 16 + d)
        | .error e, _ => .error e
        | .ok _, none => .error .valueError) (.ok n : Py Nat) =
      .ok (t.foldl (fun a c => a * 16 + "0123456789abcdef".toList.idxOf c.toLower) n) := by
    intro t
    induction t with
    | nil => intro n _; rfl
    | cons c t ih =>
      intro n hc
      rw [List.foldl_cons, List.foldl_cons, (hex_char (hc c (List.mem_cons_self ..))).1]
      exact ih _ (fun x hx => hc x (List.mem_cons_of_mem _ hx))
  exact this t 0 h.2

theorem readWords_values {ws : List Text} (h : ∀ w ∈ ws, Hexadecimal w) :
    readWords ws = .ok (ws.map (baseVal 16)) := by
  induction ws with
  | nil => rfl
  | cons w ws ih =>
    rw [readWords, hexWord_value (h w (List.mem_cons_self ..))]
    simp only
    rw [ih (fun x hx => h x (List.mem_cons_of_mem _ hx))]
    rfl

theorem digit_ne {t : Text} (h : ∀ c ∈ t, IsDigit c) {x : Char} (hx : ∀ d : Fin 10, digitChar d.val ≠ x) :
    ∀ c ∈ t, c ≠ x := fun c hc => (h c hc).ne hx

/-- The time part of a line. -/
def Spec.Cue.timeText (c : Cue) : Text := c.h ++ [':'] ++ c.m ++ [':'] ++ c.s ++ [':'] ++ c.f

theorem split_time {c : Cue} (hc : c.Ok) : splitChar ':' c.timeText = [c.h, c.m, c.s, c.f] := by
  obtain ⟨h1, h2, h3, h4, _⟩ := hc
  have e : c.timeText = c.h ++ ':' :: (c.m ++ ':' :: (c.s ++ ':' :: c.f)) := by simp [Cue.timeText]
  rw [e, splitChar_sep (digit_ne (decimal_digits h1) (by decide)), splitChar_sep (digit_ne (decimal_digits h2) (by decide)),
    splitChar_sep (digit_ne (decimal_digits h3) (by decide)), splitChar_noSep (digit_ne (decimal_digits h4) (by decide))]

/-- Frames in milliseconds. -/
theorem frame_ms (f : Nat) : pyTrunc (((((f : Int) * 1000 : Int)) : Rat) / (2997 / 100)) = ((f * 100000 / 2997 : Nat) : Int) := by
  have e : ((((f : Int) * 1000 : Int)) : Rat) / (2997 / 100) = (((f * 100000 : Nat) : Int) : Rat) / ((2997 : Nat) : Rat) := by
    push_cast; ring
  rw [e]
  unfold pyTrunc
  rw [if_pos (by positivity)]
  exact (Rat.floor_intCast_div_natCast _ 2997).trans (by push_cast; rfl)

theorem pad3_value {n : Nat} : pyInt (pad3Text (n : Int)) = .ok (n : Int) ∧
    (∀ c ∈ pad3Text (n : Int), IsDigit c) := by
  have e : pad3Text (n : Int) = List.replicate (3 - (natText n).length) '0' ++ natText n := by
    unfold pad3Text
    rw [if_neg (by omega), Int.natAbs_natCast]
  have hd : ∀ c ∈ pad3Text (n : Int), IsDigit c := by
    rw [e]
    intro c hc
    rcases List.mem_append.1 hc with h | h
    · rw [(List.mem_replicate.1 h).2]; exact ⟨0, by omega, by decide⟩
    · exact natText_digits n c h
  refine ⟨?_, hd⟩
  rw [pyInt_digits (by rw [e]; intro h; exact natText_ne_nil n (List.append_eq_nil_iff.1 h).2) hd, e, List.foldl_append]
  have hz : ∀ k, (List.replicate k '0').foldl (fun a c => a * 10 + dval c) 0 = 0 := by
    intro k
    induction k with
    | zero => rfl
    | succ k ih =>
      rw [List.replicate_succ, List.foldl_cons]
      have : 0 * 10 + dval '0' = 0 := by decide
      rw [this, ih]
  rw [hz, foldl_natText]

/-- The milliseconds of a cue. -/
def Spec.Cue.ms (c : Cue) : Nat :=
  baseVal 10 c.h * 3600000 + baseVal 10 c.m * 60000 + baseVal 10 c.s * 1000 + baseVal 10 c.f * 100000 / 2997

theorem convertTime_cue {c : Cue} (hc : c.Ok) : convertTime c.timeText = .ok ((c.ms : Rat) / 1000) := by
  have hs := split_time hc
  obtain ⟨h1, h2, h3, h4, h5, _⟩ := hc
  have hmin : min (((baseVal 10 c.f * 100000 / 2997 : Nat)) : Int) 999 = ((baseVal 10 c.f * 100000 / 2997 : Nat) : Int) := by
    apply min_eq_left; omega
  have ht : transformTime c.timeText =
      .ok (c.h ++ ':' :: (c.m ++ ':' :: c.s) ++ ['.'] ++ pad3Text ((baseVal 10 c.f * 100000 / 2997 : Nat) : Int)) := by
    unfold transformTime
    rw [hs]
    simp only [List.getLast?_cons_cons, List.getLast?_singleton, Option.getD_some]
    rw [pyInt_decimal h4]
    simp only
    rw [frame_ms, hmin]
    simp [joinColon]
  obtain ⟨p1, p2⟩ := pad3_value (n := baseVal 10 c.f * 100000 / 2997)
  have hsp : splitChar '.' (c.h ++ ':' :: (c.m ++ ':' :: c.s) ++ ['.'] ++
      pad3Text ((baseVal 10 c.f * 100000 / 2997 : Nat) : Int)) =
      [c.h ++ ':' :: (c.m ++ ':' :: c.s), pad3Text ((baseVal 10 c.f * 100000 / 2997 : Nat) : Int)] := by
    rw [List.append_assoc, List.singleton_append, splitChar_sep, splitChar_noSep (digit_ne p2 (by decide))]
    intro x hx
    simp only [List.mem_append, List.mem_cons] at hx
    rcases hx with h | rfl | h | rfl | h
    · exact digit_ne (decimal_digits h1) (by decide) x h
    · decide
    · exact digit_ne (decimal_digits h2) (by decide) x h
    · decide
    · exact digit_ne (decimal_digits h3) (by decide) x h
  have hsc : splitChar ':' (c.h ++ ':' :: (c.m ++ ':' :: c.s)) = [c.h, c.m, c.s] := by
    rw [splitChar_sep (digit_ne (decimal_digits h1) (by decide)), splitChar_sep (digit_ne (decimal_digits h2) (by decide)),
      splitChar_noSep (digit_ne (decimal_digits h3) (by decide))]
  unfold convertTime
  rw [ht]
  simp only
  unfold timeToMs
  rw [hsp]
  simp only [List.head?_cons, Option.getD_some]
  rw [hsc]
  simp only
  rw [pyInt_decimal h1]
  simp only
  rw [pyInt_decimal h2]
  simp only
  rw [pyInt_decimal h3]
  simp only
  rw [p1]
  simp only
  congr 1

theorem split_words (a : Text) (ha : ∀ x ∈ a, x ≠ ' ') (ws : List Text) (hw : ∀ w ∈ ws, ∀ x ∈ w, x ≠ ' ') :
    splitChar ' ' (a ++ ws.flatMap (fun w => ' ' :: w)) = a :: ws := by
  induction ws generalizing a with
  | nil => rw [List.flatMap_nil, List.append_nil, splitChar_noSep ha]
  | cons w ws ih =>
    rw [List.flatMap_cons, List.cons_append, splitChar_sep ha, ih w (hw w (List.mem_cons_self ..))
      (fun v hv => hw v (List.mem_cons_of_mem _ hv))]

theorem rstrip_tail {a : Text} {x : Char} (hx : isPySpace x = false) {tail : Text} (ht : ∀ c ∈ tail, isPySpace c = true) :
    pyRstrip (a ++ [x] ++ tail) = a ++ [x] := by
  unfold pyRstrip
  rw [List.reverse_append, List.dropWhile_append_of_pos (by simpa using ht), List.reverse_append]
  simp [List.dropWhile, hx]

theorem text_last {c : Cue} (hc : c.Ok) : ∃ a x, c.text = a ++ [x] ∧ isPySpace x = false := by
  obtain ⟨h1, h2, h3, h4, h5, h6⟩ := hc
  unfold Cue.text
  rcases List.eq_nil_or_concat c.words with hw | ⟨ws, w, hw⟩
  · rw [hw, List.flatMap_nil, List.append_nil]
    rcases List.eq_nil_or_concat c.f with hf | ⟨f, y, hf⟩
    · exact absurd hf h4.1
    · refine ⟨c.h ++ [':'] ++ c.m ++ [':'] ++ c.s ++ [':'] ++ f, y, by rw [hf]; simp, ?_⟩
      exact (decimal_digits h4 y (by rw [hf]; simp)).not_space
  · have hwm := (h6 w (by rw [hw]; simp)).1
    rcases List.eq_nil_or_concat w with hf | ⟨f, y, hf⟩
    · exact absurd hf hwm.1
    · refine ⟨c.h ++ [':'] ++ c.m ++ [':'] ++ c.s ++ [':'] ++ c.f ++ ws.flatMap (fun w => ' ' :: w) ++ (' ' :: f), y, ?_, ?_⟩
      · rw [hw, hf]; simp
      · exact (hex_char (hwm.2 y (by rw [hf]; simp))).2.1

theorem sccLine_cue {c : Cue} (hc : c.Ok) {tail : Text} (ht : Blank tail) :
    sccLine (c.text ++ tail) =
      .ok ((chunksOf 31 c.words.length c.words).map fun w => ⟨(c.ms : Rat) / 1000, w⟩) := by
  obtain ⟨a, x, ha, hx⟩ := text_last hc
  have hr : pyRstrip (c.text ++ tail) = c.text := by
    rw [ha]
    apply rstrip_tail hx
    have key : ∀ c ∈ [' ', '\n', '\r', '\t'], isPySpace c = true := by decide
    exact fun y hy => key y (ht y hy)
  have htt : c.text = c.timeText ++ c.words.flatMap (fun w => ' ' :: w) := rfl
  have hcv := convertTime_cue hc
  have hc' := hc
  obtain ⟨h1, h2, h3, h4, h5, h6⟩ := hc
  unfold sccLine
  dsimp only
  rw [hr, if_pos]
  · rw [htt, split_words]
    · simp only
      rw [hcv]
    · intro y hy
      unfold Cue.timeText at hy
      simp only [List.mem_append, List.mem_singleton] at hy
      rcases hy with (((((h | rfl) | h) | rfl) | h) | rfl) | h
      · exact digit_ne (decimal_digits h1) (by decide) y h
      · decide
      · exact digit_ne (decimal_digits h2) (by decide) y h
      · decide
      · exact digit_ne (decimal_digits h3) (by decide) y h
      · decide
      · exact digit_ne (decimal_digits h4) (by decide) y h
    · intro w hw y hy
      exact (hex_char ((h6 w hw).1.2 y hy)).2.2
  · refine ⟨by rw [ha]; simp, ?_, ?_⟩
    · rw [List.contains_iff_mem]
      unfold Cue.text
      simp
    · unfold Cue.text
      cases hh : c.h with
      | nil => exact absurd hh h1.1
      | cons y ys =>
        simp only [List.cons_append, List.head?_cons, ne_eq, Option.some.injEq]
        exact digit_ne (decimal_digits h1) (by decide) y (by rw [hh]; simp)

theorem sccLine_other {l : Text} (h : ':' ∉ l) : sccLine l = .ok [] := by
  unfold sccLine
  dsimp only
  rw [if_neg]
  rintro ⟨_, h2, _⟩
  rw [List.contains_iff_mem] at h2
  apply h
  unfold pyRstrip at h2
  rw [List.mem_reverse] at h2
  have := List.dropWhile_sublist isPySpace (l := l.reverse)
  exact List.mem_reverse.1 (this.mem h2)

theorem readCaps_append (a b : List SccCap) (a' b' : List Caption) (ha : readCaps a = .ok a') (hb : readCaps b = .ok b') :
    readCaps (a ++ b) = .ok (a' ++ b') := by
  induction a generalizing a' with
  | nil => cases ha; exact hb
  | cons c a ih =>
    rw [readCaps] at ha
    rw [List.cons_append, readCaps]
    cases h1 : readWords c.words with
    | error e => rw [h1] at ha; cases ha
    | ok ws =>
      rw [h1] at ha
      simp only at ha ⊢
      cases h2 : readCaps a with
      | error e => rw [h2] at ha; cases ha
      | ok r =>
        rw [h2] at ha
        cases ha
        rw [ih r h2]
        rfl

theorem readCaps_chunks (start : Rat) (l : List (List Text)) (h : ∀ ws ∈ l, ∀ w ∈ ws, Hexadecimal w) :
    readCaps (l.map fun w => ⟨start, w⟩) = .ok (l.map fun w => ⟨start, w.map (baseVal 16)⟩) := by
  induction l with
  | nil => rfl
  | cons ws l ih =>
    rw [List.map_cons, readCaps, readWords_values (h ws (List.mem_cons_self ..))]
    simp only
    rw [ih (fun x hx => h x (List.mem_cons_of_mem _ hx))]
    rfl

theorem cue_time (c : Cue) : ((c.ms : Rat) / 1000 ≤ c.time) ∧ c.time < (c.ms : Rat) / 1000 + 1 / 1000 := by
  unfold Cue.time Spec.Cue.ms
  have h1 : ((baseVal 10 c.f * 100000 / 2997 : Nat) : Rat) * 2997 ≤ (baseVal 10 c.f : Rat) * 100000 := by
    exact_mod_cast Nat.div_mul_le_self (baseVal 10 c.f * 100000) 2997
  have h2 : (baseVal 10 c.f : Rat) * 100000 < (((baseVal 10 c.f * 100000 / 2997 : Nat) : Rat) + 1) * 2997 := by
    have := (show baseVal 10 c.f * 100000 < (baseVal 10 c.f * 100000 / 2997 + 1) * 2997 by omega)
    exact_mod_cast this
  push_cast
  constructor
  · linarith
  · linarith

/-- A caption file is read to the captions of its cues. -/
theorem cueFile_read {lines : List Text} {cues : List Cue} (h : CueFile lines cues) :
    ∃ caps groups, sccParse lines = .ok caps ∧ readCaps caps = .ok (groups.flatten) ∧
      List.Forall₂ CaptionsOf cues groups := by
  induction h with
  | nil => exact ⟨[], [], rfl, rfl, List.Forall₂.nil⟩
  | other l ls cs hl h ih =>
    obtain ⟨caps, groups, h1, h2, h3⟩ := ih
    refine ⟨caps, groups, ?_, h2, h3⟩
    rw [sccParse, sccLine_other hl]
    simp only
    rw [h1]
    rfl
  | cue c tail ls cs hc ht h ih =>
    obtain ⟨caps, groups, h1, h2, h3⟩ := ih
    obtain ⟨k1, k2⟩ := chunksOf_spec 31 (by decide) c.words.length c.words (le_refl _)
    refine ⟨((chunksOf 31 c.words.length c.words).map fun w => ⟨(c.ms : Rat) / 1000, w⟩) ++ caps, (chunksOf 31 c.words.length c.words).map (fun w => ⟨(c.ms : Rat) / 1000, w.map (baseVal 16)⟩) :: groups,
      ?_, ?_, ?_⟩
    · rw [sccParse, sccLine_cue hc ht]
      simp only
      rw [h1]
    · rw [List.flatten_cons]
      apply readCaps_append _ _ _ _ _ h2
      apply readCaps_chunks
      intro ws hws w hw
      apply (hc.2.2.2.2.2 w _).1
      rw [← k1]
      exact List.mem_flatten.2 ⟨ws, hws, hw⟩
    · refine List.Forall₂.cons ⟨?_, ?_⟩ h3
      · rw [List.map_map]
        conv => rhs; rw [← k1, List.map_flatten]
        rfl
      · intro x hx
        obtain ⟨w, hw, rfl⟩ := List.mem_map.1 hx
        obtain ⟨t1, t2⟩ := cue_time c
        refine ⟨by simpa using (k2 w hw).1, by simpa using (k2 w hw).2, t1, t2, c.ms, rfl⟩

end Verif
