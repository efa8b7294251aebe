import Verif.Spec.Analyzer
import Verif.Lemmas.Bytes
import Mathlib.Tactic.Linarith
import Mathlib.Tactic.Ring
/-
The run-length loop of the analyser and the file it writes.
-/
namespace Verif

/-- The numbers of an entry fit the format of the file. -/
def SegEntry.Fits (e : SegEntry) : Prop :=
  e.startNr < 2 ^ 16 ∧ e.repeats < 2 ^ 16 ∧ e.start < 2 ^ 32 ∧ e.dur < 2 ^ 32

/-- An entry in the file. -/
def entryBytes (e : SegEntry) : Bytes :=
  leBytes 2 e.startNr ++ leBytes 2 e.repeats ++ leBytes 4 e.start ++ leBytes 4 e.dur

theorem segEntry_ext {a b : SegEntry} (h1 : a.startNr = b.startNr) (h2 : a.repeats = b.repeats)
    (h3 : a.start = b.start) (h4 : a.dur = b.dur) : a = b := by
  cases a; cases b; simp only at h1 h2 h3 h4; simp [h1, h2, h3, h4]

theorem leBytes_length (k n : Nat) : (leBytes k n).length = k := by simp [leBytes]

theorem leVal_leBytes {k n : Nat} (h : n < 256 ^ k) : leVal (leBytes k n) = n := by
  unfold leVal leBytes
  rw [List.reverse_reverse, beVal_beBytes_of_lt h]

theorem entryBytes_length (e : SegEntry) : (entryBytes e).length = 12 := by
  simp [entryBytes, leBytes_length]

theorem packSeg_ok (nr repeats start dur : Int) (b : Bytes) (h : packSeg nr repeats start dur = .ok b) :
    ∃ e : SegEntry, e.Fits ∧ (e.startNr : Int) = nr ∧ (e.repeats : Int) = repeats ∧ (e.start : Int) = start ∧
      (e.dur : Int) = dur ∧ b = entryBytes e := by
  unfold packSeg at h
  split at h
  · rename_i hc
    cases h
    refine ⟨⟨nr.toNat, repeats.toNat, start.toNat, dur.toNat⟩, ?_, ?_, ?_, ?_, ?_, rfl⟩
    · simp only [SegEntry.Fits]; omega
    all_goals simp only; omega
  · cases h

theorem packSeg_entry (e : SegEntry) (h : e.Fits) :
    packSeg e.startNr e.repeats e.start e.dur = .ok (entryBytes e) := by
  unfold packSeg
  obtain ⟨h1, h2, h3, h4⟩ := h
  rw [if_pos (by omega)]
  simp [entryBytes]

theorem readDatLoop_entries (es : List SegEntry) (hf : ∀ e ∈ es, e.Fits) (fuel : Nat)
    (hfuel : es.length ≤ fuel) : readDatLoop fuel (es.flatMap entryBytes) = .ok es := by
  induction es generalizing fuel with
  | nil => cases fuel <;> rfl
  | cons e es ih =>
    cases fuel with
    | zero => simp at hfuel
    | succ fuel =>
      have he : (entryBytes e).length = 12 := entryBytes_length e
      obtain ⟨h1, h2, h3, h4⟩ := hf e (by simp)
      rw [List.flatMap_cons]
      unfold readDatLoop
      rw [if_neg (by intro hc; have := congrArg List.length hc; simp [he] at this),
        if_neg (by rw [List.length_append]; omega), List.drop_left' he,
        ih (fun x hx => hf x (by simp [hx])) fuel (by simpa using hfuel)]
      simp only
      have e1 : slice (entryBytes e ++ es.flatMap entryBytes) 0 2 = leBytes 2 e.startNr :=
        slice_eq_of_append' [] _ (leBytes 2 e.repeats ++ leBytes 4 e.start ++ leBytes 4 e.dur ++ es.flatMap entryBytes) _
          (by simp [entryBytes]) rfl (by simp [leBytes_length])
      have e2 : slice (entryBytes e ++ es.flatMap entryBytes) 2 4 = leBytes 2 e.repeats :=
        slice_eq_of_append' (leBytes 2 e.startNr) _ (leBytes 4 e.start ++ leBytes 4 e.dur ++ es.flatMap entryBytes) _
          (by simp [entryBytes]) (by simp [leBytes_length]) (by simp [leBytes_length])
      have e3 : slice (entryBytes e ++ es.flatMap entryBytes) 4 8 = leBytes 4 e.start :=
        slice_eq_of_append' (leBytes 2 e.startNr ++ leBytes 2 e.repeats) _ (leBytes 4 e.dur ++ es.flatMap entryBytes) _
          (by simp [entryBytes]) (by simp [leBytes_length]) (by simp [leBytes_length])
      have e4 : slice (entryBytes e ++ es.flatMap entryBytes) 8 12 = leBytes 4 e.dur :=
        slice_eq_of_append' (leBytes 2 e.startNr ++ leBytes 2 e.repeats ++ leBytes 4 e.start) _
          (es.flatMap entryBytes) _
          (by simp [entryBytes]) (by simp [leBytes_length]) (by simp [leBytes_length])
      rw [e1, e2, e3, e4, leVal_leBytes (by omega), leVal_leBytes (by omega), leVal_leBytes (by omega),
        leVal_leBytes (by omega)]
where
  slice_eq_of_append' (p m s d : Bytes) {a b : Nat} (hd : d = p ++ m ++ s) (ha : a = p.length)
      (hb : b = p.length + m.length) : slice d a b = m := by
    rw [hd]; exact slice_eq_of_append p m s ha hb

theorem readDat_entries (es : List SegEntry) (hf : ∀ e ∈ es, e.Fits) :
    readDat (es.flatMap entryBytes) = .ok es := by
  apply readDatLoop_entries es hf
  clear hf
  induction es with
  | nil => simp
  | cons e es ih =>
    rw [List.flatMap_cons, List.length_append, List.length_cons, entryBytes_length]
    omega

/-! ### The loop -/

/-- The entries from the one in progress on. -/
def anaEntries (cur : SegEntry) : Nat → List AnaSeg → List SegEntry
  | _, [] => [cur]
  | nr, s :: rest =>
    if s.dur = cur.dur then anaEntries { cur with repeats := cur.repeats + 1 } (nr + 1) rest
    else cur :: anaEntries ⟨nr, 0, s.tfdt, s.dur⟩ (nr + 1) rest

/-- The state is in the middle of an entry. -/
structure AnaState.Has (st : AnaState) (cur : SegEntry) : Prop where
  nr : st.firstNr = cur.startNr
  repeats : st.repeats = cur.repeats
  start : st.firstStart = cur.start
  dur : st.lastDur = cur.dur

theorem anaStep_ok {write first segDur ts st nr s st'} (h : anaStep write first segDur ts st nr s = .ok st') :
    ∃ st1, anaRun write st nr s = .ok st1 ∧
      st' = { st1 with startTick := some (st1.startTick.getD s.tfdt), endTick := some (s.tfdt + s.dur),
                       endNr := some nr } ∧
      ((((nr : Int) - first + 1) * ((segDur * ts : Nat) : Int) + (st1.startTick.getD s.tfdt : Nat)) -
        ((s.tfdt + s.dur : Nat) : Int)).natAbs < ts / 10 := by
  unfold anaStep at h
  cases hr : anaRun write st nr s with
  | error e => rw [hr] at h; cases h
  | ok st1 =>
    rw [hr] at h
    simp only at h
    split at h
    · rename_i hc
      cases h
      exact ⟨st1, rfl, rfl, hc⟩
    · cases h

theorem anaRun_has (st st1 : AnaState) (nr : Nat) (s : AnaSeg) (cur : SegEntry) (hc : st.Has cur)
    (hp : 0 < cur.dur) (h : anaRun true st nr s = .ok st1) :
    (s.dur = cur.dur ∧ st1.Has { cur with repeats := cur.repeats + 1 } ∧ st1.out = st.out) ∨
    (s.dur ≠ cur.dur ∧ st1.Has ⟨nr, 0, s.tfdt, s.dur⟩ ∧ st1.out = st.out ++ entryBytes cur ∧ cur.Fits) := by
  unfold anaRun at h
  rw [hc.dur] at h
  split at h
  · rename_i hd
    cases h
    exact Or.inl ⟨hd, ⟨hc.nr, by simp only [hc.repeats]; omega, hc.start, rfl⟩, rfl⟩
  · rename_i hd
    rw [if_pos ⟨by omega, rfl⟩, hc.nr, hc.repeats, hc.start] at h
    cases hk : packSeg cur.startNr cur.repeats cur.start cur.dur with
    | error e => rw [hk] at h; cases h
    | ok b =>
      rw [hk] at h
      cases h
      obtain ⟨e, hf, h1, h2, h3, h4, rfl⟩ := packSeg_ok _ _ _ _ _ hk
      have he : e = cur := segEntry_ext (by omega) (by omega) (by omega) (by omega)
      subst he
      exact Or.inr ⟨hd, ⟨rfl, rfl, rfl, rfl⟩, rfl, hf⟩

theorem anaLoop_out (first segDur ts : Nat) (segs : List AnaSeg) (nr : Nat) (st st' : AnaState)
    (cur : SegEntry) (hc : st.Has cur) (hp : 0 < cur.dur) (hs : ∀ s ∈ segs, 0 < s.dur)
    (h : anaLoop true first segDur ts segs nr st = .ok st') :
    ∃ es cur', anaEntries cur nr segs = es ++ [cur'] ∧ st'.Has cur' ∧
      st'.out = st.out ++ es.flatMap entryBytes ∧ (∀ e ∈ es, e.Fits) ∧
      cur'.dur = (segs.getLast?.map AnaSeg.dur).getD cur.dur := by
  induction segs generalizing nr st cur with
  | nil =>
    cases h
    exact ⟨[], cur, rfl, hc, by simp, by simp, rfl⟩
  | cons s rest ih =>
    unfold anaLoop at h
    cases hst : anaStep true first segDur ts st nr s with
    | error e => rw [hst] at h; cases h
    | ok st2 =>
      rw [hst] at h
      simp only at h
      obtain ⟨st1, hr, hst2, _⟩ := anaStep_ok hst
      have ho2 : st2.out = st1.out := by rw [hst2]
      have hh2 : ∀ e, st1.Has e → st2.Has e := by
        intro e he; rw [hst2]; exact ⟨he.nr, he.repeats, he.start, he.dur⟩
      have hlast : ∀ d, ((s :: rest).getLast?.map AnaSeg.dur).getD d = (rest.getLast?.map AnaSeg.dur).getD s.dur := by
        intro d
        cases rest with
        | nil => rfl
        | cons a r => rw [List.getLast?_cons_cons]; cases hx : (a :: r).getLast? <;> simp_all
      rcases anaRun_has st st1 nr s cur hc hp hr with ⟨hd, hh, ho⟩ | ⟨hd, hh, ho, hf⟩
      · obtain ⟨es, cur', h1, h2, h3, h4, h5⟩ := ih (nr + 1) _ { cur with repeats := cur.repeats + 1 }
          (hh2 _ hh) hp (fun x hx => hs x (by simp [hx])) h
        refine ⟨es, cur', ?_, h2, ?_, h4, ?_⟩
        · unfold anaEntries; rw [if_pos hd, h1]
        · rw [h3, ho2, ho]
        · rw [h5, hlast, hd]
      · obtain ⟨es, cur', h1, h2, h3, h4, h5⟩ := ih (nr + 1) _ ⟨nr, 0, s.tfdt, s.dur⟩
          (hh2 _ hh) (hs s (by simp)) (fun x hx => hs x (by simp [hx])) h
        refine ⟨cur :: es, cur', ?_, h2, ?_, ?_, ?_⟩
        · unfold anaEntries; rw [if_neg hd, h1]; rfl
        · rw [h3, ho2, ho, List.flatMap_cons, List.append_assoc]
        · intro e he
          rcases List.mem_cons.mp he with rfl | he
          · exact hf
          · exact h4 e he
        · rw [h5, hlast]

/-- What a representation with at least one segment writes. -/
theorem anaRep_out (first segDur ts : Nat) (s : AnaSeg) (rest : List AnaSeg) (st : AnaState)
    (hs : ∀ x ∈ s :: rest, 0 < x.dur) (h : anaRep true first segDur ts (s :: rest) = .ok st) :
    st.out = (anaEntries ⟨first, 0, s.tfdt, s.dur⟩ (first + 1) rest).flatMap entryBytes ∧
      ∀ e ∈ anaEntries ⟨first, 0, s.tfdt, s.dur⟩ (first + 1) rest, e.Fits := by
  unfold anaRep at h
  cases hl : anaLoop true first segDur ts (s :: rest) first ⟨-1, -1, -1, 0, none, none, none, []⟩ with
  | error e => rw [hl] at h; cases h
  | ok st1 =>
    rw [hl] at h
    simp only [if_true] at h
    rw [anaLoop] at hl
    cases hst : anaStep true first segDur ts ⟨-1, -1, -1, 0, none, none, none, []⟩ first s with
    | error e => rw [hst] at hl; cases hl
    | ok st2 =>
      rw [hst] at hl
      simp only at hl
      obtain ⟨st0, hr, rfl, _⟩ := anaStep_ok hst
      have hsp := hs s (by simp)
      unfold anaRun at hr
      rw [if_neg (by simp only; omega), if_neg (by simp)] at hr
      cases hr
      obtain ⟨es, cur', h1, h2, h3, h4, h5⟩ := anaLoop_out first segDur ts rest (first + 1) _ st1
        ⟨first, 0, s.tfdt, s.dur⟩ ⟨rfl, rfl, rfl, rfl⟩ hsp (fun x hx => hs x (by simp [hx])) hl
      simp only [List.nil_append] at h3
      obtain ⟨z, hz⟩ : ∃ z, (s :: rest).getLast? = some z := ⟨_, List.getLast?_eq_some_getLast (by simp)⟩
      rw [hz] at h
      simp only at h
      have hzd : z.dur = cur'.dur := by
        rw [h5]
        cases rest with
        | nil => simp at hz; subst hz; rfl
        | cons a r => rw [List.getLast?_cons_cons] at hz; rw [hz]; rfl
      rw [hzd, h2.nr, h2.repeats, h2.start] at h
      cases hk : packSeg cur'.startNr cur'.repeats cur'.start cur'.dur with
      | error e => rw [hk] at h; cases h
      | ok b =>
        rw [hk] at h
        cases h
        obtain ⟨e, hf, e1, e2, e3, e4, rfl⟩ := packSeg_ok _ _ _ _ _ hk
        have he : e = cur' := segEntry_ext (by omega) (by omega) (by omega) (by omega)
        subst he
        rw [h1]
        refine ⟨?_, ?_⟩
        · rw [h3, List.flatMap_append]; simp
        · intro x hx
          rcases List.mem_append.mp hx with hx | hx
          · exact h4 x hx
          · simp at hx; subst hx; exact hf

/-! ### What the entries say -/

theorem entrySegs_snoc (e : SegEntry) :
    entrySegs { e with repeats := e.repeats + 1 } =
      entrySegs e ++ [(e.startNr + (e.repeats + 1), e.start + (e.repeats + 1) * e.dur, e.dur)] := by
  unfold entrySegs
  simp only
  rw [List.range_succ, List.map_append]
  rfl

theorem anaEntries_view (cur : SegEntry) (nr : Nat) (segs : List AnaSeg)
    (hn : nr = cur.startNr + cur.repeats + 1) :
    (tableSegs (anaEntries cur nr segs)).map (fun x => (x.1, x.2.2)) =
      (entrySegs cur ++ seenSegs nr segs).map (fun x => (x.1, x.2.2)) := by
  induction segs generalizing cur nr with
  | nil => simp [anaEntries, tableSegs, seenSegs]
  | cons s rest ih =>
    unfold anaEntries seenSegs
    split
    · rename_i hd
      rw [ih _ _ (by simp only; omega), entrySegs_snoc]
      simp [hd, hn, Nat.add_assoc]
    · have := ih ⟨nr, 0, s.tfdt, s.dur⟩ (nr + 1) (by simp)
      rw [show tableSegs (cur :: anaEntries ⟨nr, 0, s.tfdt, s.dur⟩ (nr + 1) rest) =
        entrySegs cur ++ tableSegs (anaEntries ⟨nr, 0, s.tfdt, s.dur⟩ (nr + 1) rest) from rfl,
        List.map_append, this]
      simp [entrySegs]

theorem anaEntries_segs (cur : SegEntry) (nr : Nat) (segs : List AnaSeg)
    (hn : nr = cur.startNr + cur.repeats + 1) (hg : NoGaps segs)
    (hf : ∀ s, segs.head? = some s → s.tfdt = cur.start + (cur.repeats + 1) * cur.dur) :
    tableSegs (anaEntries cur nr segs) = entrySegs cur ++ seenSegs nr segs := by
  induction segs generalizing cur nr with
  | nil => simp [anaEntries, tableSegs, seenSegs]
  | cons s rest ih =>
    have h0 := hf s rfl
    have hg' : NoGaps rest := by
      cases rest with
      | nil => trivial
      | cons a r => exact hg.2
    have hnext : ∀ a, rest.head? = some a → a.tfdt = s.tfdt + s.dur := by
      intro a ha
      cases rest with
      | nil => cases ha
      | cons b r => cases ha; exact hg.1
    unfold anaEntries seenSegs
    split
    · rename_i hd
      rw [ih _ _ (by simp only; omega) hg' ?_, entrySegs_snoc]
      · simp [hd, hn, h0, Nat.add_assoc]
      · intro a ha
        rw [hnext a ha, h0, hd]
        simp only
        ring
    · rw [show tableSegs (cur :: anaEntries ⟨nr, 0, s.tfdt, s.dur⟩ (nr + 1) rest) =
        entrySegs cur ++ tableSegs (anaEntries ⟨nr, 0, s.tfdt, s.dur⟩ (nr + 1) rest) from rfl,
        ih ⟨nr, 0, s.tfdt, s.dur⟩ (nr + 1) (by simp) hg' (by intro a ha; rw [hnext a ha]; simp)]
      simp [entrySegs]

theorem anaEntries_head (cur : SegEntry) (nr : Nat) (segs : List AnaSeg) :
    ∃ e l, anaEntries cur nr segs = e :: l ∧ e.dur = cur.dur := by
  induction segs generalizing cur nr with
  | nil => exact ⟨_, _, rfl, rfl⟩
  | cons s rest ih =>
    unfold anaEntries
    split
    · exact ih _ _
    · exact ⟨_, _, rfl, rfl⟩

theorem anaEntries_differ (cur : SegEntry) (nr : Nat) (segs : List AnaSeg) :
    RunsDiffer (anaEntries cur nr segs) := by
  induction segs generalizing cur nr with
  | nil => trivial
  | cons s rest ih =>
    unfold anaEntries
    split
    · exact ih _ _
    · rename_i hd
      obtain ⟨e, l, he, h1⟩ := anaEntries_head ⟨nr, 0, s.tfdt, s.dur⟩ (nr + 1) rest
      have := ih ⟨nr, 0, s.tfdt, s.dur⟩ (nr + 1)
      rw [he] at this ⊢
      exact ⟨by rw [h1]; exact fun hc => hd hc.symm, this⟩

end Verif

namespace Verif

/-! ### The checks -/

theorem anaRun_ticks {write st nr s st1} (h : anaRun write st nr s = .ok st1) :
    st1.startTick = st.startTick := by
  unfold anaRun at h
  split at h
  · cases h; rfl
  · split at h
    · split at h
      · cases h
      · cases h; rfl
    · cases h; rfl

/-- Where segment `i` may end. -/
def WithinTolerance (first segDur ts start nr : Nat) (s : AnaSeg) : Prop :=
  ((((nr : Int) - first + 1) * ((segDur * ts : Nat) : Int) + (start : Nat)) -
        ((s.tfdt + s.dur : Nat) : Int)).natAbs < ts / 10

theorem anaLoop_ticks (write : Bool) (first segDur ts : Nat) (segs : List AnaSeg) (nr start : Nat)
    (st st' : AnaState) (hst : st.startTick = some start)
    (h : anaLoop write first segDur ts segs nr st = .ok st') :
    st'.startTick = some start ∧
      (∀ s, segs.getLast? = some s → st'.endTick = some (s.tfdt + s.dur) ∧
        st'.endNr = some (nr + segs.length - 1)) ∧
      (segs = [] → st' = st) ∧
      ∀ i s, segs[i]? = some s → WithinTolerance first segDur ts start (nr + i) s := by
  induction segs generalizing nr st with
  | nil => cases h; exact ⟨hst, by simp, fun _ => rfl, by simp⟩
  | cons s rest ih =>
    unfold anaLoop at h
    cases hs : anaStep write first segDur ts st nr s with
    | error e => rw [hs] at h; cases h
    | ok st2 =>
      rw [hs] at h
      simp only at h
      obtain ⟨st1, hr, hst2, hd⟩ := anaStep_ok hs
      have h1 := anaRun_ticks hr
      rw [h1, hst] at hd hst2
      simp only [Option.getD_some] at hd hst2
      obtain ⟨i1, i2, i3, i4⟩ := ih (nr + 1) st2 (by rw [hst2]) h
      refine ⟨i1, ?_, by simp, ?_⟩
      · intro z hz
        cases rest with
        | nil =>
          simp at hz
          subst hz
          rw [i3 rfl, hst2]
          exact ⟨rfl, rfl⟩
        | cons a r =>
          rw [List.getLast?_cons_cons] at hz
          obtain ⟨j1, j2⟩ := i2 z hz
          refine ⟨j1, ?_⟩
          rw [j2]
          simp only [List.length_cons]
          congr 1
          omega
      · intro i z hz
        cases i with
        | zero => simp at hz; subst hz; exact hd
        | succ i =>
          rw [List.getElem?_cons_succ] at hz
          have := i4 i z hz
          rwa [show nr + 1 + i = nr + (i + 1) by omega] at this

theorem anaRep_ticks (write : Bool) (first segDur ts : Nat) (s : AnaSeg) (rest : List AnaSeg) (st : AnaState)
    (h : anaRep write first segDur ts (s :: rest) = .ok st) :
    st.startTick = some s.tfdt ∧
      (∀ z, (s :: rest).getLast? = some z → st.endTick = some (z.tfdt + z.dur)) ∧
      st.endNr = some (first + rest.length) ∧
      ∀ (i : Nat) z, (s :: rest)[i]? = some z → WithinTolerance first segDur ts s.tfdt (first + i) z := by
  unfold anaRep at h
  cases hl : anaLoop write first segDur ts (s :: rest) first ⟨-1, -1, -1, 0, none, none, none, []⟩ with
  | error e => rw [hl] at h; cases h
  | ok st1 =>
    have hfin : st.startTick = st1.startTick ∧ st.endTick = st1.endTick ∧ st.endNr = st1.endNr := by
      rw [hl] at h
      simp only at h
      split at h
      · split at h
        · cases h
        · split at h
          · cases h
          · cases h; exact ⟨rfl, rfl, rfl⟩
      · cases h; exact ⟨rfl, rfl, rfl⟩
    clear h
    unfold anaLoop at hl
    cases hs : anaStep write first segDur ts ⟨-1, -1, -1, 0, none, none, none, []⟩ first s with
    | error e => rw [hs] at hl; cases hl
    | ok st2 =>
      rw [hs] at hl
      simp only at hl
      obtain ⟨st0, hr, hst2, hd⟩ := anaStep_ok hs
      have h0 := anaRun_ticks hr
      simp only at h0
      rw [h0] at hst2 hd
      simp only [Option.getD_none] at hst2 hd
      obtain ⟨i1, i2, i3, i4⟩ := anaLoop_ticks write first segDur ts rest (first + 1) s.tfdt st2 st1
        (by rw [hst2]) hl
      rw [hfin.1, hfin.2.1, hfin.2.2]
      refine ⟨i1, ?_, ?_, ?_⟩
      · intro z hz
        cases rest with
        | nil => simp at hz; subst hz; rw [i3 rfl, hst2]
        | cons a r =>
          rw [List.getLast?_cons_cons] at hz
          exact (i2 z hz).1
      · cases rest with
        | nil => rw [i3 rfl, hst2]; rfl
        | cons a r =>
          rw [(i2 _ (List.getLast?_eq_some_getLast (by simp))).2]
          simp only [List.length_cons]
          congr 1
          omega
      · intro i z hz
        cases i with
        | zero => simp at hz; subst hz; exact hd
        | succ i =>
          rw [List.getElem?_cons_succ] at hz
          have := i4 i z hz
          rwa [show first + 1 + i = first + (i + 1) by omega] at this

/-! ### All content types -/

theorem setOrAssert_ok {x y : Option Nat} {v : Nat} (h : setOrAssert x v = .ok y) :
    y = some v ∧ (x = none ∨ x = some v) := by
  unfold setOrAssert at h
  cases x with
  | none => cases h; exact ⟨rfl, Or.inl rfl⟩
  | some w =>
    simp only at h
    split at h
    · rename_i hw; cases h; subst hw; exact ⟨rfl, Or.inr rfl⟩
    · cases h

theorem anaReps_ok (segDur ts startNr : Nat) (g g' : AnaGlobal) (reps : List (Nat × List AnaSeg)) (write : Bool)
    (o : Option AnaState) (h : anaReps segDur ts startNr g reps write = .ok (g', o)) :
    g'.segDur = g.segDur ∧ (∀ f, g.first = some f → g'.first = some f) ∧
      (∀ f segs, (f, segs) ∈ reps → g'.first = some f ∧
        ∃ w st, anaRep w f segDur ts segs = .ok st) ∧
      (∀ f segs rest, reps = (f, segs) :: rest → write = true →
        ∃ st, o = some st ∧ anaRep true f segDur ts segs = .ok st) := by
  induction reps generalizing g write o with
  | nil => cases h; exact ⟨rfl, fun _ h => h, by simp, by simp⟩
  | cons p rest ih =>
    obtain ⟨f, segs⟩ := p
    unfold anaReps at h
    cases h1 : setOrAssert g.first f with
    | error e => rw [h1] at h; cases h
    | ok f' =>
      rw [h1] at h
      simp only at h
      cases h2 : setOrAssert g.startNr startNr with
      | error e => rw [h2] at h; cases h
      | ok n =>
        rw [h2] at h
        simp only at h
        cases h3 : anaRep write f segDur ts segs with
        | error e => rw [h3] at h; cases h
        | ok st =>
          rw [h3] at h
          simp only at h
          cases h4 : anaReps segDur ts startNr ⟨g.segDur, f', n⟩ rest false with
          | error e => rw [h4] at h; cases h
          | ok q =>
            obtain ⟨g1, o1⟩ := q
            rw [h4] at h
            simp only at h
            obtain ⟨rfl, ho⟩ := Prod.mk.inj (Except.ok.inj h)
            obtain ⟨k1, k2, k3, k4⟩ := ih _ _ _ h4
            obtain ⟨e1, e2⟩ := setOrAssert_ok h1
            have hf : g1.first = some f := k2 f e1
            refine ⟨k1, ?_, ?_, ?_⟩
            · intro x hx
              rcases e2 with e2 | e2
              · rw [e2] at hx; cases hx
              · rw [hx] at e2; cases e2; exact hf
            · intro f2 segs2 hm
              rcases List.mem_cons.mp hm with hm | hm
              · cases hm; exact ⟨hf, write, st, h3⟩
              · exact k3 f2 segs2 hm
            · intro f2 segs2 r he hw
              cases he
              subst hw
              exact ⟨st, by rw [← ho]; rfl, h3⟩

theorem anaSets_ok (g g' : AnaGlobal) (sets : List AnaSet) (l : List (Nat × Bytes × Nat))
    (h : anaSets g sets = .ok (g', l)) (hne : ∀ a ∈ sets, a.reps ≠ []) :
    (∀ f, g.first = some f → g'.first = some f) ∧ (∀ d, g.segDur = some d → g'.segDur = some d) ∧
      l.length = sets.length ∧
      ∀ (i : Nat) a, sets[i]? = some a → g'.segDur = some a.segDur ∧
        (∀ f segs, (f, segs) ∈ a.reps → g'.first = some f ∧
          ∃ w st, anaRep w f a.segDur a.timescale segs = .ok st) ∧
        ∃ f segs rest st, a.reps = (f, segs) :: rest ∧ anaRep true f a.segDur a.timescale segs = .ok st ∧
          l[i]? = some (st.endNr.getD 0, st.out, st.endTick.getD 0 - st.startTick.getD 0) := by
  induction sets generalizing g g' l with
  | nil => cases h; exact ⟨fun _ h => h, fun _ h => h, rfl, by simp⟩
  | cons a rest ih =>
    unfold anaSets at h
    cases h1 : setOrAssert g.segDur a.segDur with
    | error e => rw [h1] at h; cases h
    | ok d =>
      rw [h1] at h
      simp only at h
      cases h2 : anaReps a.segDur a.timescale a.startNumber ⟨d, g.first, g.startNr⟩ a.reps true with
      | error e => rw [h2] at h; cases h
      | ok q =>
        obtain ⟨g1, st⟩ := q
        rw [h2] at h
        simp only at h
        cases h3 : anaSets g1 rest with
        | error e => rw [h3] at h; cases h
        | ok q2 =>
          obtain ⟨g2, l2⟩ := q2
          rw [h3] at h
          simp only at h
          obtain ⟨e1, e2⟩ := setOrAssert_ok h1
          obtain ⟨r1, r2, r3, r4⟩ := anaReps_ok _ _ _ _ _ _ _ _ h2
          obtain ⟨k1, k2, k3, k4⟩ := ih g1 g2 l2 h3 (fun x hx => hne x (by simp [hx]))
          simp only at r1 r2
          have hreps := hne a (by simp)
          cases hr : a.reps with
          | nil => exact absurd hr hreps
          | cons p tl =>
            obtain ⟨f, segs⟩ := p
            obtain ⟨st', rfl, hrep⟩ := r4 f segs tl hr rfl
            simp only at h
            obtain ⟨rfl, rfl⟩ := Prod.mk.inj (Except.ok.inj h)
            have hd : g2.segDur = some a.segDur := k2 _ (by rw [r1, e1])
            refine ⟨fun x hx => k1 x (r2 x hx), ?_, by simp [k3], ?_⟩
            · intro x hx
              rcases e2 with e2 | e2
              · rw [e2] at hx; cases hx
              · rw [hx] at e2; cases e2; exact hd
            · intro i b hb
              cases i with
              | zero =>
                simp at hb
                subst hb
                refine ⟨hd, ?_, f, segs, tl, st', hr, hrep, by simp⟩
                intro f2 s2 hm
                obtain ⟨m1, m2⟩ := r3 f2 s2 hm
                exact ⟨k1 _ m1, m2⟩
              | succ i =>
                rw [List.getElem?_cons_succ] at hb
                obtain ⟨m1, m2, f2, s2, t2, st2, m3, m4, m5⟩ := k4 i b hb
                exact ⟨m1, m2, f2, s2, t2, st2, m3, m4, by rw [List.getElem?_cons_succ]; exact m5⟩

theorem foldl_min_le (n : Nat) (l : List Nat) :
    l.foldl min n ≤ n ∧ (∀ x ∈ l, l.foldl min n ≤ x) ∧ (l.foldl min n = n ∨ l.foldl min n ∈ l) := by
  induction l generalizing n with
  | nil => simp
  | cons a l ih =>
    obtain ⟨h1, h2, h3⟩ := ih (min n a)
    simp only [List.foldl_cons]
    refine ⟨by omega, ?_, ?_⟩
    · intro x hx
      rcases List.mem_cons.mp hx with rfl | hx
      · omega
      · exact h2 x hx
    · rcases h3 with h3 | h3
      · rcases Nat.le_total n a with h | h
        · left; rw [h3]; omega
        · right; rw [h3]; simp; left; omega
      · right; simp [h3]

end Verif
