import Verif.Lemmas.UrlManifest
import Verif.Spec.Client
import Verif.Spec.Links
import Verif.Lemmas.Links
import Verif.Props.Wsgi
import Verif.Props.Xlink
import Verif.Props.TimelineLoss
/- Replies of the server, and where requests lead. -/
namespace Verif
open Spec

theorem pyTrunc_bounds {t : Rat} (h : 0 ≤ t) : (pyTrunc t : Rat) ≤ t ∧ t < (pyTrunc t : Rat) + 1 := by
  unfold pyTrunc
  rw [if_pos h]
  have := Rat.lt_floor_add_one t
  push_cast at this
  exact ⟨Rat.floor_le t, this⟩

theorem answer_data (agent : Text) (nf : Bytes) {r : Request} (hr : r.range = none) {b : Bytes} (hb : b ≠ []) :
    Delivers (answer agent nf r (.data b)) (mimeType r.ext) b := by
  refine ⟨(startReply agent [] 200 b.length (some [("Content-Type".toList, mimeType r.ext)])).1, ?_, ?_, ?_, ?_⟩
  · unfold answer
    simp only [if_neg hb, hr]
  · rfl
  · unfold startReply
    dsimp only
    rw [replyHeaders_content agent _ (by omega)]
    rfl
  · unfold startReply
    dsimp only
    rw [replyHeaders_content agent _ (by omega)]
    rfl

theorem answer_refused (agent : Text) (nf : Bytes) (r : Request) (m : Bytes) :
    Refuses (answer agent nf r (.refused m)) ∧ Refuses (answer agent nf r (.raised m)) :=
  ⟨⟨_, _, rfl, rfl⟩, ⟨_, _, rfl, rfl⟩⟩

/-- A success with a whole body to a request without a range comes from data. -/
theorem answer_success {agent : Text} {nf : Bytes} {r : Request} (hr : r.range = none) {p : Provided} {rep : Reply}
    {b : Bytes} (h : answer agent nf r p = .ok (rep, .whole b)) (hs : rep.status = 200) : p = .data b := by
  cases p with
  | raised m =>
    unfold answer at h
    cases h
    cases hs
  | refused m =>
    unfold answer at h
    cases h
    cases hs
  | chunked x y z =>
    unfold answer at h
    simp only [Except.ok.injEq, Prod.mk.injEq, reduceCtorEq, and_false] at h
  | data d =>
    unfold answer at h
    simp only [hr] at h
    split at h
    · cases h; cases hs
    · simp only [Except.ok.injEq, Prod.mk.injEq, Body.whole.injEq] at h
      rw [h.2]

theorem serve_pass {u : Setup} {s : Site} {sid : Text} {dflt : Headers} {r : Request} {t : Rat}
    (h : gate u.maxLen r t = .pass) :
    (serve u s sid dflt r t).1 = answer u.agent u.notFound r (provide s r t) := by
  unfold serve application
  rw [h]

/-- A success comes from data that the content side made. -/
theorem serve_success {u : Setup} {s : Site} {sid : Text} {dflt : Headers} {r : Request} {t : Rat} (hr : r.range = none)
    {rep : Reply} {b : Bytes} (h : (serve u s sid dflt r t).1 = .ok (rep, .whole b)) (hs : rep.status = 200) :
    gate u.maxLen r t = .pass ∧ provide s r t = .data b := by
  cases hg : gate u.maxLen r t with
  | pass =>
    rw [serve_pass hg] at h
    exact ⟨rfl, answer_success hr h hs⟩
  | redirect => unfold serve application at h; rw [hg] at h; cases h; cases hs
  | noStart => unfold serve application at h; rw [hg] at h; cases h; cases hs
  | expired => unfold serve application at h; rw [hg] at h; cases h; cases hs
  | future => unfold serve application at h; rw [hg] at h; cases h; cases hs

theorem origin_split {r : Request} (h : '/' ∉ r.host) (rest : Text) :
    ∃ x, splitChar '/' ((if r.https then "https://".toList else "http://".toList) ++ r.host ++ '/' :: rest) =
      [x, [], r.host] ++ splitChar '/' rest := by
  rw [splitChar_append]
  have hh : splitChar '/' r.host = [r.host] := splitChar_noSep (fun x hx e => h (by rw [← e]; exact hx))
  have key : ∀ x : Text, '/' ∉ x → splitChar '/' (x ++ '/' :: ('/' :: r.host)) = [x, [], r.host] := by
    intro x hx
    rw [splitChar_append, splitChar_noSep (fun y hy e => hx (by rw [← e]; exact hy))]
    have := splitChar_append '/' [] r.host
    rw [List.nil_append] at this
    rw [this, hh]
    rfl
  cases r.https with
  | true =>
    refine ⟨"https:".toList, ?_⟩
    have := key "https:".toList (by decide)
    rw [if_pos rfl]
    rw [show "https://".toList ++ r.host = "https:".toList ++ '/' :: '/' :: r.host from rfl, this]
  | false =>
    refine ⟨"http:".toList, ?_⟩
    have := key "http:".toList (by decide)
    rw [if_neg (by decide)]
    rw [show "http://".toList ++ r.host = "http:".toList ++ '/' :: '/' :: r.host from rfl, this]

/-- The place of a service: the origin of a request and the first part of its path. -/
def servicePlace (r : Request) (first : Text) : Text := r.origin ++ '/' :: first

theorem origin_eq (r : Request) (rest : Text) : r.origin ++ '/' :: rest =
    (if r.https then "https://".toList else "http://".toList) ++ r.host ++ '/' :: rest := by
  unfold Request.origin
  cases r.https <;> rfl

/-- A request of a URL that leads to parts of a service gets there. -/
theorem asks_parts {r0 r : Request} {first u : Text} {l : List Text} (h0 : '/' ∉ r0.host) (hf : '/' ∉ first)
    (h : LeadsTo (servicePlace r0 first) u l) (ha : Asks r u) : r.parts = [] :: first :: l := by
  obtain ⟨h1, -, path, rfl, hp⟩ := ha
  unfold LeadsTo servicePlace at h
  obtain ⟨x, hx⟩ := origin_split h1 path
  obtain ⟨y, hy⟩ := origin_split h0 first
  have hfs : splitChar '/' first = [first] := splitChar_noSep (fun z hz e => hf (by rw [← e]; exact hz))
  rw [hx, origin_eq, hy, hfs] at h
  simp only [List.cons_append, List.nil_append, List.cons.injEq] at h
  rw [hp, h.2.2.2]

theorem asks_slash {r : Request} {u : Text} (ha : Asks r u) : ∀ p ∈ r.parts, '/' ∉ p := by
  obtain ⟨-, -, path, -, hp⟩ := ha
  obtain ⟨q, qs, e, h1, h2, -⟩ := splitChar_text path
  rw [hp, e]
  intro p hm
  simp only [List.mem_cons] at hm
  rcases hm with rfl | rfl | hm
  · simp
  · exact h1
  · exact h2 p hm

end Verif
