import Verif.AnalyzerFiles
import Verif.Spec.VodContent
import Verif.Lemmas.Config
import Verif.Lemmas.Ini
/- The analyser's reading of the manifest and of the directory. -/
namespace Verif
open Spec

theorem takeWhile_rev_append {p : Char → Bool} {a b : Text} {c : Char} (hb : ∀ x ∈ b, p x = true) (hc : p c = false) :
    ((a ++ c :: b).reverse.takeWhile p).reverse = b := by
  rw [List.reverse_append, List.reverse_cons, List.append_assoc, List.singleton_append,
    List.takeWhile_append_of_pos (by intro x hx; exact hb x (List.mem_reverse.mp hx))]
  rw [List.takeWhile_cons, if_neg (by simp [hc])]
  simp

theorem split_last {c : Char} {t : Text} (h : c ∈ t) : ∃ a b, t = a ++ c :: b ∧ c ∉ b := by
  induction t with
  | nil => cases h
  | cons x xs ih =>
    by_cases hx : c ∈ xs
    · obtain ⟨a, b, e, hb⟩ := ih hx
      exact ⟨x :: a, b, by rw [e]; rfl, hb⟩
    · rcases List.mem_cons.mp h with rfl | h
      · exact ⟨[], xs, rfl, hx⟩
      · exact absurd h hx

theorem isNamed_iff {n : Text} (h1 : '{' ∉ n) (h2 : '}' ∉ n) (x : Xml) :
    isNamed n x = true ↔ localTag x.tag = n := by
  unfold isNamed
  simp only [Bool.or_eq_true, decide_eq_true_eq, Bool.and_eq_true, beq_iff_eq]
  generalize x.tag = t
  unfold localTag
  split
  · rename_i r
    have hne : ¬ ('{' :: r = n) := by
      rintro rfl
      exact h1 List.mem_cons_self
    simp only [hne, false_or, List.head?_cons, true_and]
    by_cases hm : '}' ∈ '{' :: r
    · rw [if_pos hm]
      obtain ⟨a, b, e, hb⟩ := split_last hm
      rw [e, takeWhile_rev_append (by
        intro y hy
        simp only [ne_eq, decide_not, Bool.not_eq_true', decide_eq_false_iff_not]
        rintro rfl
        exact hb hy) (by simp)]
      rw [List.isSuffixOf_iff_suffix]
      constructor
      · rintro ⟨z, hz⟩
        have e1 : ((z ++ '}' :: n).reverse.takeWhile (· ≠ '}')).reverse = n := takeWhile_rev_append (by
          intro y hy
          simp only [ne_eq, decide_not, Bool.not_eq_true', decide_eq_false_iff_not]
          rintro rfl
          exact h2 hy) (by simp)
        have e2 : ((a ++ '}' :: b).reverse.takeWhile (· ≠ '}')).reverse = b := takeWhile_rev_append (by
          intro y hy
          simp only [ne_eq, decide_not, Bool.not_eq_true', decide_eq_false_iff_not]
          rintro rfl
          exact hb hy) (by simp)
        rw [← hz, e1] at e2
        exact e2.symm
      · rintro rfl
        exact ⟨a, rfl⟩
    · rw [if_neg hm]
      simp only [hne, iff_false]
      rw [List.isSuffixOf_iff_suffix]
      intro hs
      exact hm (hs.subset List.mem_cons_self)
  · rename_i hne
    constructor
    · rintro (h | ⟨h, -⟩)
      · exact h
      · cases t with
        | nil => cases h
        | cons y ys =>
          simp only [List.head?_cons, Option.some.injEq] at h
          subst h
          exact absurd rfl (hne ys)
    · exact fun h => Or.inl h

theorem mapM_ok {α β : Type} {f : α → Py β} {l : List α} {r : List β} (h : l.mapM f = .ok r) :
    List.Forall₂ (fun a b => f a = .ok b) l r := by
  induction l generalizing r with
  | nil =>
    rw [List.mapM_nil] at h
    cases h
    exact List.Forall₂.nil
  | cons a l ih =>
    rw [List.mapM_cons] at h
    simp only [Py.bind_ok, Py.pure_ok] at h
    obtain ⟨b, hb, bs, hbs, rfl⟩ := h
    exact List.Forall₂.cons hb (ih hbs)

/-- The segments that the analyser reads are files with consecutive numbers. -/
theorem readSegments_ok {fs : Files} {path : Text} {dd : Option Nat} :
    ∀ {fuel nr : Nat} {l : List AnaSeg}, readSegments fs path dd fuel nr = .ok l →
      ∀ i z, l[i]? = some z → ∃ p data, formatNr path (nr + i) = .ok p ∧ fs.file p = some data ∧
        readSegment dd data = .ok z := by
  intro fuel
  induction fuel with
  | zero =>
    intro nr l h i z hz
    unfold readSegments at h
    cases hf : formatNr path nr with
    | error e => rw [hf] at h; cases h
    | ok p =>
      rw [hf] at h
      dsimp only at h
      cases hp : fs.file p with
      | none => rw [hp] at h; cases h; cases hz
      | some data => rw [hp] at h; cases h
  | succ fuel ih =>
    intro nr l h i z hz
    unfold readSegments at h
    cases hf : formatNr path nr with
    | error e => rw [hf] at h; cases h
    | ok p =>
      rw [hf] at h
      dsimp only at h
      cases hp : fs.file p with
      | none => rw [hp] at h; cases h; cases hz
      | some data =>
        rw [hp] at h
        dsimp only at h
        cases hs : readSegment dd data with
        | error e => rw [hs] at h; cases h
        | ok s =>
          rw [hs] at h
          dsimp only at h
          cases hr : readSegments fs path dd fuel (nr + 1) with
          | error e => rw [hr] at h; cases h
          | ok l' =>
            rw [hr] at h
            cases h
            cases i with
            | zero =>
              simp only [List.getElem?_cons_zero, Option.some.injEq] at hz
              subst hz
              exact ⟨p, data, hf, hp, hs⟩
            | succ i =>
              simp only [List.getElem?_cons_succ] at hz
              obtain ⟨p', data', a, b, c⟩ := ih hr i z hz
              exact ⟨p', data', by rw [show nr + (i + 1) = nr + 1 + i by omega]; exact a, b, c⟩

/-- A representation that the analyser accepts. -/
theorem seeRep_ok {fs : Files} {s : AsNode} {rep : NodeAttrs} {q : RepSeen} (h : seeRep fs s rep = .ok q) :
    ∃ ip init info path fuel, rep.need "id".toList = .ok q.id ∧ s.initPath rep = .ok ip ∧ fs.file ip = some init ∧
      initInfo init = .ok info ∧ s.mediaPath rep = .ok path ∧ 0 ≤ info.timescale ∧ q.timescale = info.timescale.toNat ∧
      readSegments fs path info.defDur fuel q.first = .ok q.segs := by
  unfold seeRep at h
  simp only [Py.bind_ok] at h
  obtain ⟨id, h1, ip, h2, init, h3, info, h4, t, h5, path, h6, range, h7, segs, h8, h9⟩ := h
  split at h9
  · cases h9
  · rename_i hn
    cases h9
    refine ⟨ip, init, info, path, _, h1, h2, ?_, h4, h6, by omega, rfl, h8⟩
    unfold Files.read at h3
    cases hf : fs.file ip with
    | none => rw [hf] at h3; cases h3
    | some b => rw [hf] at h3; cases h3; rfl

/-- An adaptation set that the analyser accepts. -/
theorem seeSet_ok {fs : Files} {s : AsNode} {x : SetSeen} (h : seeSet fs s = .ok x) :
    ∃ r rs, s.attribs.look "contentType".toList = some (some x.kind) ∧
      List.Forall₂ (fun a b => seeRep fs s a = .ok b) s.reps (r :: rs) ∧ (∀ q ∈ r :: rs, q.timescale = x.set.timescale) ∧
      x.set.reps = (r :: rs).map (fun q => (q.first, q.segs)) ∧ x.ids = (r :: rs).map (·.id) ∧
      s.duration = .ok x.set.segDur ∧ s.startNumber = .ok x.set.startNumber := by
  unfold seeSet at h
  simp only [Py.bind_ok] at h
  obtain ⟨kind, h1, reps, h2, h3⟩ := h
  have hk : s.attribs.look "contentType".toList = some (some kind) := by
    split at h1
    · rename_i t ht
      cases h1
      exact ht
    · cases h1
  cases reps with
  | nil => cases h3
  | cons r rs =>
    dsimp only at h3
    split at h3
    · rename_i hall
      simp only [Py.bind_ok, Py.pure_ok] at h3
      obtain ⟨d, h4, n, h5, rfl⟩ := h3
      refine ⟨r, rs, hk, mapM_ok h2, ?_, rfl, rfl, h4, h5⟩
      intro q hq
      rcases List.mem_cons.mp hq with rfl | hq
      · rfl
      · simpa using List.all_eq_true.mp hall q hq
    · cases h3

theorem seeMedia_ok {fs : Files} {sets : List AsNode} {l : List SetSeen} (h : seeMedia fs sets = .ok l) :
    List.Forall₂ (fun a b => seeSet fs a = .ok b) sets l ∧ (l.map (·.kind)).Nodup := by
  unfold seeMedia at h
  simp only [Py.bind_ok] at h
  obtain ⟨l', h1, h2⟩ := h
  split at h2
  · rename_i hn
    cases h2
    exact ⟨mapM_ok h1, hn⟩
  · cases h2

theorem analyzeContent_ok {base : Text} {fs : Files} {mpd : Xml} {out : AnaOutput}
    (h : analyzeContent base fs mpd = .ok out) :
    ∃ sets l r, parseVodMpd mpd = .ok sets ∧ List.Forall₂ (fun a b => seeSet fs a = .ok b) sets l ∧
      (l.map (·.kind)).Nodup ∧ analyze (l.map (·.set)) = .ok r ∧ writeConfig (describe base l r) = .ok out.config ∧
      out.tables = (l.zip r.files).map fun x => (datName base x.1.kind, x.2.1) := by
  unfold analyzeContent at h
  simp only [Py.bind_ok, Py.pure_ok] at h
  obtain ⟨sets, h1, l, h2, r, h3, text, h4, rfl⟩ := h
  obtain ⟨h5, h6⟩ := seeMedia_ok h2
  exact ⟨sets, l, r, h1, h5, h6, h3, h4, rfl⟩

/-- The names of the elements. -/
theorem names_ok : ∀ n ∈ ["Period".toList, "AdaptationSet".toList, "Representation".toList, "SegmentTemplate".toList],
    '{' ∉ n ∧ '}' ∉ n := by decide +kernel

theorem isNamed_of {n : Text} (h : n ∈ ["Period".toList, "AdaptationSet".toList, "Representation".toList,
    "SegmentTemplate".toList]) (x : Xml) : isNamed n x = decide (localTag x.tag = n) := by
  rw [Bool.eq_iff_iff, isNamed_iff (names_ok n h).1 (names_ok n h).2, decide_eq_true_eq]

theorem parseVodMpd_ok {mpd : Xml} {sets : List AsNode} (h : parseVodMpd mpd = .ok sets) :
    sets = (adaptationSets mpd).map parseAs := by
  have e : ((mpd.kids.filter fun p => localTag p.tag = "Period".toList).flatMap fun p =>
      p.kids.filter fun a => localTag a.tag = "AdaptationSet".toList) = adaptationSets mpd := by
    unfold adaptationSets
    have e1 : (fun p : Xml => decide (localTag p.tag = "Period".toList)) = isNamed "Period".toList := by
      funext p; rw [isNamed_of (by decide +kernel)]
    have e2 : (fun p : Xml => decide (localTag p.tag = "AdaptationSet".toList)) = isNamed "AdaptationSet".toList := by
      funext p; rw [isNamed_of (by decide +kernel)]
    rw [e1, e2]
  unfold parseVodMpd at h
  split at h
  · cases h
  · rw [e] at h
    dsimp only at h
    split at h
    · cases h; rfl
    · split at h
      · cases h
      · cases h; rfl

/-- What the analyser takes from a node: the value of the node, else what was there. -/
theorem look_add {node : Xml} {k : Text} : ∀ {ks : List Text} {a : NodeAttrs}, ks.Nodup →
    (NodeAttrs.add node ks a).look k = (if k ∈ ks then
      (match node.get k with
        | some v => some (some v)
        | none => some ((a.look k).getD none))
      else a.look k) := by
  have hcons : ∀ (a : NodeAttrs) (k' : Text) (v : Option Text), NodeAttrs.look ((k', v) :: a) k =
      if k' = k then some v else a.look k := by
    intro a k' v
    unfold NodeAttrs.look
    rw [List.find?_cons]
    by_cases h : k' = k
    · simp [h]
    · simp [h]
  intro ks
  induction ks with
  | nil => intro a _; simp [NodeAttrs.add]
  | cons k' ks ih =>
    intro a hnd0
    obtain ⟨hk, hnd⟩ := List.nodup_cons.mp hnd0
    clear hnd0
    unfold NodeAttrs.add
    by_cases he : k = k'
    · subst he
      rw [if_pos List.mem_cons_self]
      cases hg : node.get k with
      | some v =>
        dsimp only
        rw [ih hnd, if_neg hk, hcons, if_pos rfl]
      | none =>
        dsimp only
        cases hl : NodeAttrs.look a k with
        | some v =>
          dsimp only
          rw [ih hnd, if_neg hk, hl]
          rfl
        | none =>
          dsimp only
          rw [ih hnd, if_neg hk, hcons, if_pos rfl]
          rfl
    · have hne : ¬ k' = k := fun h => he h.symm
      have hm : (k ∈ k' :: ks) = (k ∈ ks) := by simp [he]
      simp only [hm]
      cases hg : node.get k' with
      | some v =>
        dsimp only
        rw [ih hnd, hcons, if_neg hne]
      | none =>
        dsimp only
        cases hl : NodeAttrs.look a k' with
        | some v =>
          dsimp only
          rw [ih hnd]
        | none =>
          dsimp only
          rw [ih hnd, hcons, if_neg hne]

theorem tmplKeys_nodup : ["initialization".toList, "startNumber".toList, "media".toList,
        "duration".toList, "timescale".toList].Nodup := by decide +kernel

theorem asKids_look {k m : Text} (hk : k ∈ ["initialization".toList, "startNumber".toList, "media".toList,
        "duration".toList, "timescale".toList]) : ∀ {xs : List Xml} {s : AsNode},
    (∀ t ∈ xs, isNamed "SegmentTemplate".toList t = true → t.get k = some m) →
    (s.attribs.look k = none ∨ s.attribs.look k = some (some m)) →
    ((asKids xs s).attribs.look k = none ∨ (asKids xs s).attribs.look k = some (some m)) := by
  intro xs
  induction xs with
  | nil => intro s _ h; exact h
  | cons x xs ih =>
    intro s ht h
    unfold asKids
    have ht' : ∀ t ∈ xs, isNamed "SegmentTemplate".toList t = true → t.get k = some m :=
      fun t hm => ht t (List.mem_cons_of_mem _ hm)
    split
    · rename_i hx
      refine ih ht' ?_
      have := ht x List.mem_cons_self ((isNamed_of (by decide +kernel) x).trans (decide_eq_true hx))
      dsimp only
      rw [look_add tmplKeys_nodup, if_pos hk, this]
      exact Or.inr rfl
    · split
      · exact ih ht' h
      · exact ih ht' h

theorem asKids_reps : ∀ {xs : List Xml} {s : AsNode},
    (asKids xs s).reps = s.reps ++ (xs.filter (isNamed "Representation".toList)).map
      fun x => NodeAttrs.add x ["id".toList, "bandwidth".toList] [] := by
  intro xs
  induction xs with
  | nil => intro s; simp [asKids]
  | cons x xs ih =>
    intro s
    unfold asKids
    have hn : isNamed "Representation".toList x = decide (localTag x.tag = "Representation".toList) :=
      isNamed_of (by decide +kernel) x
    split
    · rename_i hx
      have : ¬ localTag x.tag = "Representation".toList := by rw [hx]; decide +kernel
      rw [ih, List.filter_cons_of_neg (by rw [hn, decide_eq_false this]; exact Bool.false_ne_true)]
    · split
      · rename_i hx
        rw [ih, List.filter_cons_of_pos (hn.trans (decide_eq_true hx))]
        dsimp only
        rw [List.map_cons, List.append_assoc]
        rfl
      · rename_i hx
        rw [ih, List.filter_cons_of_neg (by rw [hn, decide_eq_false hx]; exact Bool.false_ne_true)]

theorem parseAs_reps (a : Xml) : (parseAs a).reps = (representations a).map
    fun x => NodeAttrs.add x ["id".toList, "bandwidth".toList] [] := by
  unfold parseAs
  rw [asKids_reps]
  rfl

theorem parseAs_look {a : Xml} {k m : Text} (hk : k ∈ ["initialization".toList, "startNumber".toList, "media".toList,
        "duration".toList, "timescale".toList]) (hk' : k ∉ ["contentType".toList, "mimeType".toList])
    (h : ∀ t ∈ a.kids, isNamed "SegmentTemplate".toList t = true → t.get k = some m) {n : Text}
    (hm : (parseAs a).attribs.need k = .ok n) : n = m := by
  have h0 : (NodeAttrs.add a ["contentType".toList, "mimeType".toList] []).look k = none := by
    rw [look_add (by decide +kernel), if_neg hk']
    rfl
  have := asKids_look (s := ⟨NodeAttrs.add a ["contentType".toList, "mimeType".toList] [], []⟩) hk h (Or.inl h0)
  unfold NodeAttrs.need at hm
  rcases this with h | h
  · rw [show (parseAs a).attribs.look k = none from h] at hm; cases hm
  · rw [show (parseAs a).attribs.look k = some (some _) from h] at hm; cases hm; rfl

theorem parseAs_media {a : Xml} (h : NumberTemplate a) {m : Text}
    (hm : (parseAs a).attribs.need "media".toList = .ok m) : m = "$RepresentationID$/$Number$.m4s".toList :=
  parseAs_look (by decide +kernel) (by decide +kernel) h hm

theorem parseAs_init {a : Xml} {f : Text} (h : InitTemplate a f) {m : Text}
    (hm : (parseAs a).attribs.need "initialization".toList = .ok m) : m = "$RepresentationID$/".toList ++ f :=
  parseAs_look (by decide +kernel) (by decide +kernel) h hm

theorem repNode_id {x : Xml} {id : Text}
    (h : (NodeAttrs.add x ["id".toList, "bandwidth".toList] []).need "id".toList = .ok id) :
    x.get "id".toList = some id := by
  unfold NodeAttrs.need at h
  rw [look_add (by decide +kernel), if_pos (by decide +kernel)] at h
  cases hg : x.get "id".toList with
  | none => rw [hg] at h; cases h
  | some v => rw [hg] at h; cases h; rfl

end Verif
