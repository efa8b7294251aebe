import Verif.Wsgi
import Verif.Spec.ByteRange
import Verif.Spec.Url
import Verif.Props.UpDown
import Verif.Props.UrlOrder
import Verif.Lemmas.Bytes
/-
C18, C20, C21, C45, C46: the WSGI application.
-/
namespace Verif
open Spec

/-! ### Byte ranges -/

/-- The text of a range specification. -/
def rangeText : ByteRange → Text
  | .fromTo a b => natText a ++ '-' :: natText b
  | .from a => natText a ++ ['-']
  | .suffix k => '-' :: natText k

/-- A range header `unit=range`. -/
def rangeLine (unit : Text) (r : ByteRange) : Text := unit ++ '=' :: rangeText r

theorem natText_no {n : Nat} {x : Char} (h : ∀ d, d < 10 → digitChar d ≠ x) : ∀ y ∈ natText n, y ≠ x := by
  intro y hy
  obtain ⟨d, hd, rfl⟩ := natText_digits n y hy
  exact h d hd

theorem rangeText_no {x : Char} (h : ∀ d, d < 10 → digitChar d ≠ x) (hx : '-' ≠ x) (r : ByteRange) :
    ∀ y ∈ rangeText r, y ≠ x := by
  have hn := fun n => natText_no (n := n) h
  intro y hy
  cases r <;> simp only [rangeText, List.mem_append, List.mem_cons] at hy
  · rcases hy with hy | rfl | hy
    · exact hn _ y hy
    · exact hx
    · exact hn _ y hy
  · rcases hy with hy | rfl | hy
    · exact hn _ y hy
    · exact hx
    · simp at hy
  · rcases hy with rfl | hy
    · exact hx
    · exact hn _ y hy

theorem pySlice_nat (data : List α) (a b : Nat) : pySlice data (a : Int) (b : Int) = slice data a b := by
  unfold pySlice
  simp [Int.not_ofNat_neg]

/-- The range parser of the code on well-formed single ranges. -/
theorem handleByteRange_eq (payload : Bytes) {unit : Text} (hu : ∀ y ∈ unit, y ≠ '=') (r : ByteRange)
    (hs : ∀ k, r = .suffix k → k ≤ payload.length) :
    handleByteRange payload (rangeLine unit r) = .ok (match r.resolve payload.length with
      | some (a, b) => (slice payload a (b + 1), .range a b payload.length)
      | none => (payload, .bad)) := by
  have h1 : splitChar '=' (rangeLine unit r) = [unit, rangeText r] := by
    unfold rangeLine
    rw [splitChar_sep hu, splitChar_noSep (rangeText_no (by decide) (by decide) r)]
  have h2 : splitChar ',' (rangeText r) = [rangeText r] :=
    splitChar_noSep (rangeText_no (by decide) (by decide) r)
  have hd : ∀ n, ∀ y ∈ natText n, y ≠ '-' := fun n => natText_no (by decide)
  unfold handleByteRange
  simp only [h1, List.getLastD_cons, List.getLastD_nil, h2]
  cases r with
  | fromTo a b =>
    have h3 : splitChar '-' (rangeText (.fromTo a b)) = [natText a, natText b] := by
      simp only [rangeText]
      rw [splitChar_sep (hd a), splitChar_noSep (hd b)]
    simp only [h3, natText_ne_nil, false_and, if_false, pyInt_natText, ne_eq, not_false_eq_true,
      if_true, bind, Except.bind, pure, Except.pure, ByteRange.resolve]
    by_cases hab : a ≤ b ∧ a < payload.length
    · rw [if_pos hab, if_neg (by omega)]
      have e : min (b : Int) ((payload.length : Int) - 1) = ((min b (payload.length - 1) : Nat) : Int) := by omega
      rw [e]
      have e2 : ((min b (payload.length - 1) : Nat) : Int) + 1 = ((min b (payload.length - 1) + 1 : Nat) : Int) := by omega
      rw [e2, pySlice_nat]
    · rw [if_neg hab, if_pos (by omega)]
  | «from» a =>
    have h3 : splitChar '-' (rangeText (.from a)) = [natText a, []] := by
      simp only [rangeText]
      rw [splitChar_sep (hd a)]; rfl
    simp only [h3, natText_ne_nil, false_and, if_false, pyInt_natText, ne_eq, not_true_eq_false,
      bind, Except.bind, pure, Except.pure, ByteRange.resolve]
    by_cases hab : a < payload.length
    · rw [if_pos hab, if_neg (by omega)]
      have e : ((payload.length : Int) - 1) = ((payload.length - 1 : Nat) : Int) := by omega
      rw [e]
      have e2 : ((payload.length - 1 : Nat) : Int) + 1 = ((payload.length - 1 + 1 : Nat) : Int) := by omega
      rw [e2, pySlice_nat]
    · rw [if_neg hab, if_pos (by omega)]
  | suffix k =>
    have hk := hs k rfl
    have h3 : splitChar '-' (rangeText (.suffix k)) = [[], natText k] := by
      simp only [rangeText]
      have := splitChar_sep (c := '-') (a := []) (b := natText k) (by simp)
      rw [List.nil_append] at this
      rw [this, splitChar_noSep (hd k)]
    simp only [h3, natText_ne_nil, and_false, if_false, if_true, pyInt_natText,
      bind, Except.bind, pure, Except.pure, ByteRange.resolve]
    by_cases hab : 0 < k ∧ 0 < payload.length
    · rw [if_pos hab, if_neg (by omega)]
      have e : ((payload.length : Int) - 1) = ((payload.length - 1 : Nat) : Int) := by omega
      have e' : ((payload.length : Int) - k) = ((payload.length - min k payload.length : Nat) : Int) := by omega
      rw [e, e']
      have e2 : ((payload.length - 1 : Nat) : Int) + 1 = ((payload.length - 1 + 1 : Nat) : Int) := by omega
      rw [e2, pySlice_nat]
    · rw [if_neg hab, if_pos (by omega)]

/-- A resolved range lies inside the payload. -/
theorem resolve_bounds {n : Nat} {r : ByteRange} {a b : Nat} (h : r.resolve n = some (a, b)) :
    a ≤ b ∧ b < n := by
  cases r <;> simp only [ByteRange.resolve] at h <;> split at h <;>
    simp only [Option.some.injEq, Prod.mk.injEq, reduceCtorEq] at h <;> omega

/-! ### Headers of replies -/

theorem replyHeaders_content (agent ct : Text) {n : Int} (h : 0 ≤ n) :
    replyHeaders agent [("Content-Type".toList, ct)] n =
      ("Content-Type".toList, ct) :: (defaultHeaders agent ++ [("Content-Length".toList, intText n)]) := by
  unfold replyHeaders
  simp only [if_pos h]
  rfl

theorem replyHeaders_range (agent ct cr : Text) {n : Int} (h : 0 ≤ n) :
    replyHeaders agent (setHeader [("Content-Type".toList, ct)] "Content-Range".toList cr) n =
      ("Content-Type".toList, ct) :: ("Content-Range".toList, cr) ::
        (defaultHeaders agent ++ [("Content-Length".toList, intText n)]) := by
  unfold replyHeaders
  simp only [if_pos h]
  rfl

theorem replyHeaders_stream (agent ct : Text) :
    replyHeaders agent [("Content-Type".toList, ct)] (-1) =
      ("Content-Type".toList, ct) :: defaultHeaders agent := rfl

/-- What a client sees of a reply: status, type, length and range. -/
structure Seen where
  status : Nat
  ctype : Option Text
  length : Option Text
  range : Option Text
  deriving DecidableEq, Repr

def Reply.seen (r : Reply) : Seen :=
  { status := r.status, ctype := getHeader r.headers "Content-Type".toList,
    length := getHeader r.headers "Content-Length".toList,
    range := getHeader r.headers "Content-Range".toList }

theorem seen_content (agent ct : Text) (d : Headers) (code n : Nat) :
    ((startReply agent d code n (some [("Content-Type".toList, ct)])).1).seen =
      { status := code, ctype := some ct, length := some (natText n), range := none } := by
  unfold startReply
  simp only [Reply.seen, replyHeaders_content agent ct (Int.natCast_nonneg n)]
  have : intText (n : Int) = natText n := by simp [intText, Int.not_ofNat_neg]
  rw [this]
  rfl

theorem seen_range (agent ct cr : Text) (d : Headers) (code n : Nat) :
    ((startReply agent d code n (some (setHeader [("Content-Type".toList, ct)] "Content-Range".toList cr))).1).seen =
      { status := code, ctype := some ct, length := some (natText n), range := some cr } := by
  unfold startReply
  simp only [Reply.seen, replyHeaders_range agent ct cr (Int.natCast_nonneg n)]
  have : intText (n : Int) = natText n := by simp [intText, Int.not_ofNat_neg]
  rw [this]
  rfl

/-- **C20.** A single well-formed range on non-empty data: if the range can be satisfied, the
body is exactly the denoted slice, the status 206, and the range and length headers describe
it; otherwise the whole payload is sent with status 200 and no range header.
Missing: suffix ranges longer than the payload (`C20_suffix_violation`) and lists of ranges
(`C20_multi_violation`). -/
theorem C20_range_partial (agent : Text) (nf : Bytes) (req : Request) {unit : Text} {r : ByteRange}
    (hu : ∀ y ∈ unit, y ≠ '=') (hr : req.range = some (rangeLine unit r)) {b : Bytes} (hb : b ≠ [])
    (hs : ∀ k, r = .suffix k → k ≤ b.length) :
    ∃ rep body, answer agent nf req (.data b) = .ok (rep, .whole body) ∧
      (∀ x y, r.resolve b.length = some (x, y) →
        body.length = y - x + 1 ∧ (∀ i, i ≤ y - x → body[i]? = b[x + i]?) ∧
        rep.seen = { status := 206, ctype := some (mimeType req.ext), length := some (natText body.length),
                     range := some ("bytes ".toList ++ natText x ++ '-' :: natText y ++ '/' :: natText b.length) }) ∧
      (r.resolve b.length = none → body = b ∧
        rep.seen = { status := 200, ctype := some (mimeType req.ext), length := some (natText b.length),
                     range := none }) := by
  have hne : rangeLine unit r ≠ [] := by simp [rangeLine]
  unfold answer
  simp only [hb, hr, hne, if_false, handleByteRange_eq b hu r hs, bind, Except.bind]
  cases hres : r.resolve b.length with
  | none =>
    refine ⟨_, _, rfl, by simp, fun _ => ⟨rfl, ?_⟩⟩
    exact seen_content agent _ [] 200 b.length
  | some p =>
    obtain ⟨x, y⟩ := p
    obtain ⟨h1, h2⟩ := resolve_bounds hres
    have hl : (slice b x (y + 1)).length = y - x + 1 := by rw [slice_length]; omega
    refine ⟨_, _, rfl, ?_, by simp⟩
    intro x' y' hxy
    simp only [Option.some.injEq, Prod.mk.injEq] at hxy
    obtain ⟨rfl, rfl⟩ := hxy
    refine ⟨hl, ?_, ?_⟩
    · intro i hi
      unfold slice
      rw [List.getElem?_take, if_pos (by omega), List.getElem?_drop]
    · have ht : ((RangeOut.range (x : Int) (y : Int) (b.length : Int)).text.getD "None".toList) =
          "bytes ".toList ++ natText x ++ '-' :: natText y ++ '/' :: natText b.length := by
        have e : ∀ n : Nat, intText (n : Int) = natText n := by
          intro n; simp [intText, Int.not_ofNat_neg]
        simp only [RangeOut.text, Option.getD_some, e]
      rw [ht]
      exact seen_range agent _ _ [] 206 _

example : ByteRange.resolve 10 (.fromTo 3 20) = some (3, 9) ∧ ByteRange.resolve 10 (.suffix 4) = some (6, 9) ∧
    ByteRange.resolve 10 (.from 10) = none ∧
    handleByteRange [0, 1, 2, 3, 4, 5, 6, 7, 8, 9] "bytes=3-20".toList = .ok ([3, 4, 5, 6, 7, 8, 9], .range 3 9 10) := by
  decide +kernel

/-- **C20 (violation).** A suffix longer than the payload denotes the whole payload; the code
sends the last two of ten bytes and an invalid header. -/
theorem C20_suffix_violation :
    ByteRange.resolve 10 (.suffix 12) = some (0, 9) ∧
    (handleByteRange [0, 1, 2, 3, 4, 5, 6, 7, 8, 9] (rangeLine "bytes".toList (.suffix 12))).toOption.map
      (fun p => (p.1, p.2.text)) = some ([8, 9], some "bytes -2-9/10".toList) := by
  decide +kernel

/-- **C20 (violation).** A list of ranges is answered with the whole payload, but as status 206
with a meaningless range header. -/
theorem C20_multi_violation :
    ((answer [] [] { host := [], parts := ["1.m4s".toList], range := some "bytes=0-1,4-5".toList }
        (.data [0, 1, 2, 3, 4, 5])).toOption.map (fun p => (p.1.seen.status, p.1.seen.range, p.2)))
      = some (206, some "None".toList, .whole [0, 1, 2, 3, 4, 5]) := by
  decide +kernel

/-! ### C21 -/

/-- **C21 (errors).** Whatever error the content side produces, and whatever the range header,
there is a reply: 404, plain text, right length, no range, non-empty body. -/
theorem C21_errors (agent : Text) {nf : Bytes} (hnf : nf ≠ []) (r : Request) (p : Provided)
    (hp : (∃ m, p = .raised m) ∨ (∃ m, p = .refused m) ∨ p = .data []) :
    ∃ rep body, answer agent nf r p = .ok (rep, .whole body) ∧ body ≠ [] ∧
      rep.seen = { status := 404, ctype := some "text/plain".toList, length := some (natText body.length),
                   range := none } := by
  have key : ∀ m : Bytes, ∃ rep body,
      (Except.ok (((startReply agent [] 404 (errorPayload nf m).length
        (some [("Content-Type".toList, "text/plain".toList)])).1), Body.whole (errorPayload nf m)) : Py (Reply × Body))
        = .ok (rep, .whole body) ∧ body ≠ [] ∧
      rep.seen = { status := 404, ctype := some "text/plain".toList, length := some (natText body.length),
                   range := none } := by
    intro m
    refine ⟨_, _, rfl, ?_, seen_content _ _ _ _ _⟩
    unfold errorPayload
    split <;> assumption
  rcases hp with ⟨m, rfl⟩ | ⟨m, rfl⟩ | rfl
  · exact key m
  · exact key m
  · exact key []

/-- **C21 (types).** Manifests, segments and initialisation segments are sent with their media
types, at once, in ranges or in chunks.
Missing: types for the other things that can be requested (`C21_type_violation`). -/
theorem C21_types_partial (agent : Text) (nf : Bytes) (r : Request) (p : Provided) (rep : Reply) (body : Body)
    {type : Text} (ht : MediaTypeOf r.ext type) (h : answer agent nf r p = .ok (rep, body))
    (hs : rep.status ≠ 404) : getHeader rep.headers "Content-Type".toList = some type := by
  have hm : mimeType r.ext = type := by
    unfold MediaTypeOf at ht
    simp only [List.mem_cons, Prod.mk.injEq, List.not_mem_nil, or_false] at ht
    rcases ht with ⟨h1, h2⟩ | ⟨h1, h2⟩ | ⟨h1, h2⟩ <;> rw [h1, h2] <;> decide +kernel
  have hc : ∀ (code : Nat) (n : Int), getHeader (startReply agent [] code n
      (some [("Content-Type".toList, mimeType r.ext)])).1.headers "Content-Type".toList = some type := by
    intro code n
    rw [hm]
    unfold startReply replyHeaders
    simp only
    split <;> rfl
  have hc2 : ∀ (code : Nat) (n : Int) (x : Text), getHeader (startReply agent [] code n
      (some (setHeader [("Content-Type".toList, mimeType r.ext)] "Content-Range".toList x))).1.headers
        "Content-Type".toList = some type := by
    intro code n x
    rw [hm]
    unfold startReply replyHeaders
    simp only
    split <;> rfl
  unfold answer at h
  simp only at h
  have hfail : ∀ m : Bytes, (Except.ok (((startReply agent [] 404 (errorPayload nf m).length
        (some [("Content-Type".toList, "text/plain".toList)])).1), Body.whole (errorPayload nf m)) : Py (Reply × Body))
        = .ok (rep, body) → False := by
    intro m hm
    simp only [Except.ok.injEq, Prod.mk.injEq] at hm
    apply hs
    rw [← hm.1]
    rfl
  split at h
  · exact absurd h (fun h => hfail _ h)
  · exact absurd h (fun h => hfail _ h)
  · simp only [Except.ok.injEq, Prod.mk.injEq] at h
    rw [← h.1]
    exact hc _ _
  · split at h
    · exact absurd h (fun h => hfail _ h)
    · split at h
      · simp only [Except.ok.injEq, Prod.mk.injEq] at h
        rw [← h.1]
        exact hc _ _
      · split at h
        · simp only [Except.ok.injEq, Prod.mk.injEq] at h
          rw [← h.1]
          exact hc _ _
        · simp only [bind, Except.bind] at h
          split at h
          · cases h
          · split at h
            · simp only [Except.ok.injEq, Prod.mk.injEq] at h
              rw [← h.1]
              exact hc _ _
            · simp only [Except.ok.injEq, Prod.mk.injEq] at h
              rw [← h.1]
              exact hc2 _ _ _

example : MediaTypeOf ({ host := [], parts := ["x".toList, "a.mpd".toList] } : Request).ext
    "application/dash+xml".toList ∧
    ((answer [] [] { host := [], parts := ["x".toList, "a.mpd".toList] } (.data [60])).toOption.map
      (fun p => p.1.status)) = some 200 := by
  unfold MediaTypeOf
  decide +kernel

/-- **C21 (violation).** Thumbnails are sent as plain text. -/
theorem C21_type_violation (agent : Text) (nf : Bytes) (r : Request) (hr : r.range = none)
    (hx : r.ext = ".jpg".toList) {b : Bytes} (hb : b ≠ []) :
    ∃ rep, answer agent nf r (.data b) = .ok (rep, .whole b) ∧ rep.status = 200 ∧
      getHeader rep.headers "Content-Type".toList = some "text/plain".toList := by
  have hm : mimeType r.ext = "text/plain".toList := by rw [hx]; decide +kernel
  unfold answer
  simp only [hb, if_false, hr]
  refine ⟨_, rfl, rfl, ?_⟩
  rw [hm]
  unfold startReply replyHeaders
  simp only
  split <;> rfl

/-- **C21 (success).** Data or a chunked segment is answered with status 200, or 206 if a range
was given, with the type of the extension; the length header is that of the body, and absent
for a chunked reply, which is always 200.  The only way not to reply is a range header that
the range parser rejects.
Missing: a reply for malformed range headers (`C21_malformed_range_violation`). -/
theorem C21_success_partial (agent : Text) (nf : Bytes) (r : Request) :
    (∀ b, b ≠ [] →
      (∃ rep body, answer agent nf r (.data b) = .ok (rep, .whole body) ∧
        (rep.seen.status = 200 ∧ rep.seen.range = none ∧ body = b ∨
         rep.seen.status = 206 ∧ rep.seen.range.isSome ∧ r.range.isSome) ∧
        rep.seen.ctype = some (mimeType r.ext) ∧ rep.seen.length = some (natText body.length)) ∨
      (∃ line e, r.range = some line ∧ handleByteRange b line = .error e)) ∧
    (∀ s d cs, ∃ rep, answer agent nf r (.chunked s d cs) = .ok (rep, .chunks s d cs) ∧
      rep.seen = { status := 200, ctype := some (mimeType r.ext), length := none, range := none }) := by
  constructor
  · intro b hb
    unfold answer
    simp only [hb, if_false]
    cases hr : r.range with
    | none =>
      left
      refine ⟨_, _, rfl, Or.inl ?_, ?_⟩
      · rw [seen_content]; exact ⟨rfl, rfl, rfl⟩
      · rw [seen_content]; exact ⟨rfl, rfl⟩
    | some line =>
      simp only
      by_cases hl : line = []
      · rw [if_pos hl]
        left
        refine ⟨_, _, rfl, Or.inl ?_, ?_⟩
        · rw [seen_content]; exact ⟨rfl, rfl, rfl⟩
        · rw [seen_content]; exact ⟨rfl, rfl⟩
      · rw [if_neg hl]
        cases hh : handleByteRange b line with
        | error e => right; exact ⟨line, e, rfl, hh⟩
        | ok o =>
          left
          obtain ⟨out, ro⟩ := o
          simp only [bind, Except.bind]
          have hbad : ro = .bad → out = b := by
            rintro rfl
            unfold handleByteRange at hh
            simp only at hh
            split at hh
            · split at hh
              · split at hh
                · simp at hh; exact hh.symm
                · obtain ⟨⟨x, y⟩, -, hh⟩ := Py.bind_ok.mp hh
                  simp only at hh
                  split at hh
                  · simp at hh; exact hh.symm
                  · simp at hh
              · simp at hh
            · simp at hh
          cases ro with
          | bad =>
            refine ⟨_, _, rfl, Or.inl ?_, ?_⟩
            · rw [seen_content]; exact ⟨rfl, rfl, hbad rfl⟩
            · rw [seen_content]; exact ⟨rfl, rfl⟩
          | multi =>
            refine ⟨_, _, rfl, Or.inr ?_, ?_⟩
            · rw [seen_range]; exact ⟨rfl, rfl, rfl⟩
            · rw [seen_range]; exact ⟨rfl, rfl⟩
          | range x y n =>
            refine ⟨_, _, rfl, Or.inr ?_, ?_⟩
            · rw [seen_range]; exact ⟨rfl, rfl, rfl⟩
            · rw [seen_range]; exact ⟨rfl, rfl⟩
  · intro s d cs
    refine ⟨_, rfl, ?_⟩
    rfl

example : (answer "x".toList [1] { host := [], parts := [[], "a".toList, "1.m4s".toList] } (.data [7, 8])).toOption.map
    (fun p => (p.1.seen.status, p.1.seen.ctype, p.2)) =
      some (200, some "video/iso.segment".toList, .whole [7, 8]) := by decide +kernel

/-- **C21 (violation).** A malformed range header on a good request raises outside the error
handling of the application: no reply is started. -/
theorem C21_malformed_range_violation :
    answer [] [1] { host := [], parts := ["1.m4s".toList], range := some "bytes=5".toList } (.data [0, 1]) =
      .error .valueError ∧
    answer [] [1] { host := [], parts := ["1.m4s".toList], range := some "bytes=a-b".toList } (.data [0, 1]) =
      .error .valueError := by
  decide +kernel

/-! ### C46 -/

/-- The states of the shared default dictionary. -/
def DfltState (agent : Text) (d : Headers) : Prop := d = [] ∨ ∃ n : Nat, d = replyHeaders agent [] n

theorem replyHeaders_nil (agent : Text) {n : Int} (h : 0 ≤ n) :
    replyHeaders agent [] n = defaultHeaders agent ++
      [("Content-Length".toList, intText n), ("Content-Type".toList, "text/plain".toList)] := by
  unfold replyHeaders
  simp only [if_pos h]
  rfl

theorem replyHeaders_again (agent x : Text) {n : Int} (h : 0 ≤ n) :
    replyHeaders agent (defaultHeaders agent ++
      [("Content-Length".toList, x), ("Content-Type".toList, "text/plain".toList)]) n =
    defaultHeaders agent ++
      [("Content-Length".toList, intText n), ("Content-Type".toList, "text/plain".toList)] := by
  unfold replyHeaders
  simp only [if_pos h]
  rfl

theorem replyHeaders_dflt (agent : Text) {d : Headers} (h : DfltState agent d) (n : Nat) :
    replyHeaders agent d n = replyHeaders agent [] n := by
  have hn : (0 : Int) ≤ n := Int.natCast_nonneg n
  rcases h with rfl | ⟨m, rfl⟩
  · rfl
  · have hm : (0 : Int) ≤ m := Int.natCast_nonneg m
    rw [replyHeaders_nil agent hm, replyHeaders_again agent _ hn, replyHeaders_nil agent hn]

/-- One request of a history: the request, the clock, the session id drawn, the content side. -/
structure Event where
  req : Request
  now : Rat
  sid : Text
  provide : Request → Rat → Provided

/-- The replies of a process to a history of requests, with the shared dictionary as state. -/
def runHistory (agent : Text) (nf : Bytes) (gb : GateBodies) (maxLen : Int) :
    Headers → List Event → List (Py (Reply × Body))
  | _, [] => []
  | d, e :: es =>
    let x := application agent nf gb maxLen e.sid e.provide d e.req e.now
    x.1 :: runHistory agent nf gb maxLen x.2 es

/-- **C46.** In every history each reply is the one a fresh process would give. -/
theorem C46_no_leak (agent : Text) (nf : Bytes) (gb : GateBodies) (maxLen : Int) (es : List Event) :
    runHistory agent nf gb maxLen [] es =
      es.map (fun e => (application agent nf gb maxLen e.sid e.provide [] e.req e.now).1) := by
  have key : ∀ (es : List Event) (d : Headers), DfltState agent d →
      runHistory agent nf gb maxLen d es =
        es.map (fun e => (application agent nf gb maxLen e.sid e.provide [] e.req e.now).1) := by
    intro es
    induction es with
    | nil => intro d _; rfl
    | cons e es ih =>
      intro d hd
      have hstep : (application agent nf gb maxLen e.sid e.provide d e.req e.now).1 =
          (application agent nf gb maxLen e.sid e.provide [] e.req e.now).1 ∧
          DfltState agent (application agent nf gb maxLen e.sid e.provide d e.req e.now).2 := by
        unfold application
        cases gate maxLen e.req e.now with
        | redirect => exact ⟨rfl, hd⟩
        | pass => exact ⟨rfl, hd⟩
        | noStart =>
          simp only [startReply, replyHeaders_dflt agent hd]
          exact ⟨trivial, Or.inr ⟨_, rfl⟩⟩
        | expired =>
          simp only [startReply, replyHeaders_dflt agent hd]
          exact ⟨trivial, Or.inr ⟨_, rfl⟩⟩
        | future =>
          simp only [startReply, replyHeaders_dflt agent hd]
          exact ⟨trivial, Or.inr ⟨_, rfl⟩⟩
      simp only [runHistory, List.map_cons]
      rw [hstep.1, ih _ hstep.2]
  exact key es [] (Or.inl rfl)

/-- A history in which the shared dictionary is really used and changed (two gate errors with
different lengths). -/
example : let gb : GateBodies := ⟨[1], [1, 2], [1, 2, 3]⟩
    let e1 : Event := ⟨{ host := [], parts := ["1.m4s".toList] }, 100, [], fun _ _ => .data [1]⟩
    let e2 : Event := ⟨{ host := [], parts := ["sts_10".toList, "1.m4s".toList] }, 100, [], fun _ _ => .data [1]⟩
    (runHistory [] [1] gb 50 [] [e1, e2]).map (fun r => r.toOption.map (fun p => (p.1.seen.status, p.1.seen.length)))
      = [some (404, some "1".toList), some (410, some "2".toList)] := by
  decide +kernel

/-- `start_reply` itself does leak: called without headers and without length after a call with
a length, it announces the old length.  (The application never does that.) -/
example : let d := (startReply [] [] 404 7 none).2
    (startReply [] d 404 (-1) none).1.seen.length = some "7".toList ∧
    (startReply [] [] 404 (-1) none).1.seen.length = none := by
  decide +kernel

/-! ### C45 -/

/-- **C45 (decision).** What a service with session limit does with a request. -/
theorem C45_gate (agent : Text) (nf : Bytes) (gb : GateBodies) (maxLen : Int) (sid : Text)
    (provide : Request → Rat → Provided) (r : Request) (now : Rat) :
    let rep := (application agent nf gb maxLen sid provide [] r now).1.toOption.map (fun p => p.1.seen.status)
    let loc := (application agent nf gb maxLen sid provide [] r now).1.toOption.bind
      (fun p => getHeader p.1.headers "Location".toList)
    (maxLen = 0 → (application agent nf gb maxLen sid provide [] r now).1 = answer agent nf r (provide r now)) ∧
    (maxLen ≠ 0 → stsTime r.parts = none → r.ext = ".mpd".toList →
      rep = some 302 ∧ loc = some (redirectUrl r now sid)) ∧
    (maxLen ≠ 0 → stsTime r.parts = none → r.ext ≠ ".mpd".toList → rep = some 404) ∧
    (maxLen ≠ 0 → ∀ t, stsTime r.parts = some t →
      (now > t + maxLen → rep = some 410) ∧
      (now ≤ t + maxLen → now + 5 < t → rep = some 404) ∧
      (now ≤ t + maxLen → t ≤ now + 5 →
        (application agent nf gb maxLen sid provide [] r now).1 = answer agent nf r (provide r now))) := by
  intro rep loc
  refine ⟨?_, ?_, ?_, ?_⟩
  · intro h
    simp only [application, gate, if_pos h]
  · intro h ht hx
    have : gate maxLen r now = .redirect := by simp only [gate, if_neg h, ht, if_pos hx]
    simp only [rep, loc, application, this]
    exact ⟨rfl, rfl⟩
  · intro h ht hx
    have : gate maxLen r now = .noStart := by simp only [gate, if_neg h, ht, if_neg hx]
    simp only [rep, application, this]
    rfl
  · intro h t ht
    refine ⟨?_, ?_, ?_⟩
    · intro h1
      have : gate maxLen r now = .expired := by simp only [gate, if_neg h, ht, if_pos h1]
      simp only [rep, application, this]
      rfl
    · intro h1 h2
      have : gate maxLen r now = .future := by
        simp only [gate, if_neg h, ht, if_neg (not_lt.mpr h1)]
        rw [if_pos (by exact h2)]
      simp only [rep, application, this]
      rfl
    · intro h1 h2
      have : gate maxLen r now = .pass := by
        simp only [gate, if_neg h, ht, if_neg (not_lt.mpr h1)]
        rw [if_neg (by exact not_lt.mpr h2)]
      simp only [application, this]

theorem stsTime_foldl (parts : List Text) : ∀ acc : Option Int,
    parts.foldl stsStep acc = (stsTime parts).or acc := by
  have hstep : ∀ acc p, stsStep acc p = (stsStep none p).or acc := by
    intro acc p
    unfold stsStep
    split
    · split <;> rfl
    · rfl
  induction parts with
  | nil => intro acc; rfl
  | cons p ps ih =>
    intro acc
    unfold stsTime
    simp only [List.foldl_cons]
    rw [ih, ih (stsStep none p), hstep acc p]
    cases stsTime ps <;> rfl

theorem stsTime_append (a b : List Text) : stsTime (a ++ b) = (stsTime b).or (stsTime a) := by
  rw [← stsTime_foldl]
  unfold stsTime
  rw [List.foldl_append]

/-- **C45 (redirection).** The URL a manifest request is redirected to carries the current time
as session start and the drawn session id as additional options; following the redirection is
admitted from then on until the session length has passed, and no longer. -/
theorem C45_redirect {maxLen : Int} (hm : maxLen ≠ 0) {r : Request} {now : Rat} (h0 : 0 ≤ now)
    (hg : gate maxLen r now = .redirect) (sid : Text) {now' : Rat} (hn : now ≤ now') :
    let r' := { r with parts := redirectParts r.parts now sid }
    stsTime r'.parts = some now.floor ∧
    (gate maxLen r' now' = .pass ↔ now' ≤ now.floor + maxLen) ∧
    (now.floor + maxLen < now' → gate maxLen r' now' = .expired) := by
  intro r'
  have hst : stsTime r.parts = none := by
    unfold gate at hg
    rw [if_neg hm] at hg
    split at hg
    · assumption
    · split at hg
      · simp at hg
      · split at hg <;> simp at hg
  have h1 : stsTime r'.parts = some now.floor := by
    have e : r.parts = r.parts.take 2 ++ r.parts.drop 2 := (List.take_append_drop 2 r.parts).symm
    rw [e, stsTime_append, Option.or_eq_none_iff] at hst
    have hsid : stsTime ["sid_".toList ++ sid] = none := rfl
    have hsts : stsTime ["sts_".toList ++ intText (pyTrunc now)] = some (pyTrunc now) := by
      have hp : "sts_".toList.isPrefixOf ("sts_".toList ++ intText (pyTrunc now)) = true := by
        simp
      have hdrop : ("sts_".toList ++ intText (pyTrunc now)).drop 4 = intText (pyTrunc now) := rfl
      unfold stsTime stsStep
      simp only [List.foldl_cons, List.foldl_nil]
      rw [if_pos hp, hdrop, pyInt_intText]
    simp only [r', redirectParts]
    rw [stsTime_append, stsTime_append, stsTime_append, hst.1, hst.2, hsid, hsts]
    simp [pyTrunc, h0]
  have h2 : (now.floor : Rat) ≤ now' + 5 := by
    have := Rat.floor_le (a := now)
    linarith
  refine ⟨h1, ?_, ?_⟩
  · unfold gate
    rw [if_neg hm, h1]
    simp only
    by_cases hx : now' > now.floor + maxLen
    · rw [if_pos hx]; simp; linarith
    · rw [if_neg hx, if_neg (not_lt.mpr h2)]
      simp; linarith
  · intro hx
    unfold gate
    rw [if_neg hm, h1]
    simp only
    rw [if_pos hx]

theorem splitChar_joinParts {c : Char} (hc : c = '/') : ∀ {l : List Text}, l ≠ [] →
    (∀ p ∈ l, ∀ x ∈ p, x ≠ c) → splitChar c (joinParts l) = l := by
  subst hc
  intro l
  induction l with
  | nil => intro h; exact absurd rfl h
  | cons p ps ih =>
    intro _ h
    cases ps with
    | nil => exact splitChar_noSep (h p (by simp))
    | cons q qs =>
      rw [joinParts, splitChar_sep (h p (by simp)), ih (by simp) (fun r hr => h r (by simp [hr]))]
      simp

theorem joinParts_noQuery : ∀ {l : List Text}, (∀ p ∈ l, ∀ x ∈ p, x ≠ '?') → ∀ x ∈ joinParts l, x ≠ '?' := by
  intro l
  induction l with
  | nil => intro _ x hx; simp [joinParts] at hx
  | cons p ps ih =>
    intro h x hx
    cases ps with
    | nil => exact h p (by simp) x hx
    | cons q qs =>
      rw [joinParts, List.mem_append, List.mem_cons] at hx
      swap
      · simp
      rcases hx with hx | rfl | hx
      · exact h p (by simp) x hx
      · decide
      · exact ih (fun r hr => h r (by simp [hr])) x hx

theorem readUrl_made (https : Bool) {host : Text} {ps : List Text} {q : Text} (hps : ps ≠ [])
    (hh : ∀ x ∈ host, x ≠ '/' ∧ x ≠ '?') (hp : ∀ p ∈ ps, ∀ x ∈ p, x ≠ '/' ∧ x ≠ '?') :
    readUrl ((if https then "https://".toList else "http://".toList) ++ host ++
      joinParts ([] :: ps) ++ (if q = [] then [] else '?' :: q)) =
      some { host := host, parts := [] :: ps, query := q, https := https } := by
  have hj : host ++ joinParts ([] :: ps) = joinParts (host :: ps) := by
    cases ps with
    | nil => exact absurd rfl hps
    | cons a t => rfl
  have hno : ∀ x ∈ joinParts (host :: ps), x ≠ '?' := by
    apply joinParts_noQuery
    intro p h
    rcases List.mem_cons.1 h with rfl | h
    · exact fun x hx => (hh x hx).2
    · exact fun x hx => (hp p h x hx).2
  have hsp : splitChar '/' (joinParts (host :: ps)) = host :: ps := by
    apply splitChar_joinParts rfl (by simp)
    intro p h
    rcases List.mem_cons.1 h with rfl | h
    · exact fun x hx => (hh x hx).1
    · exact fun x hx => (hp p h x hx).1
  have htake : ∀ r : Text, (joinParts (host :: ps) ++ (if q = [] then [] else '?' :: q)).takeWhile
      (fun c => c ≠ '?') = joinParts (host :: ps) := by
    intro _
    rw [List.takeWhile_append_of_pos (by simpa using hno)]
    split <;> simp
  have hdrop : ((joinParts (host :: ps) ++ (if q = [] then [] else '?' :: q)).dropWhile
      (fun c => c ≠ '?')).drop 1 = q := by
    rw [List.dropWhile_append_of_pos (by simpa using hno)]
    split
    · rename_i h; simp [h]
    · simp
  simp only [List.append_assoc]
  rw [← List.append_assoc host, hj]
  cases https with
  | true =>
    rw [if_pos rfl]
    unfold readUrl
    simp only
    rw [if_pos (by simp), show ("https://".toList ++
      (joinParts (host :: ps) ++ (if q = [] then [] else '?' :: q))).drop 8 =
      joinParts (host :: ps) ++ (if q = [] then [] else '?' :: q) from rfl, htake [], hdrop, hsp]
  | false =>
    rw [if_neg (by simp)]
    unfold readUrl
    simp only
    rw [if_neg, if_pos (by simp), show ("http://".toList ++
      (joinParts (host :: ps) ++ (if q = [] then [] else '?' :: q))).drop 7 =
      joinParts (host :: ps) ++ (if q = [] then [] else '?' :: q) from rfl, htake [], hdrop, hsp]
    rw [show "https://".toList.isPrefixOf ("http://".toList ++
      (joinParts (host :: ps) ++ (if q = [] then [] else '?' :: q))) = false from rfl]
    simp

/-- **C45 (location).** What a client requests when it follows the redirection: same scheme, host
and query, and the path with the session start and the session id inserted after its first part. -/
theorem C45_location (agent : Text) (nf : Bytes) (gb : GateBodies) {maxLen : Int} {sid : Text}
    (provide : Request → Rat → Provided) {r : Request} {now : Rat} {prefx : Text} {rest : List Text}
    (hg : gate maxLen r now = .redirect) (h0 : 0 ≤ now) (hp : r.parts = [] :: prefx :: rest)
    (hh : ∀ x ∈ r.host, x ≠ '/' ∧ x ≠ '?') (hs : ∀ x ∈ sid, x ≠ '/' ∧ x ≠ '?')
    (hr : ∀ p ∈ prefx :: rest, ∀ x ∈ p, x ≠ '/' ∧ x ≠ '?') :
    ((application agent nf gb maxLen sid provide [] r now).1.toOption.bind
      (fun p => getHeader p.1.headers "Location".toList)).bind readUrl =
    some { host := r.host, query := r.query, https := r.https,
           parts := [] :: prefx :: ("sts_".toList ++ natText now.floor.toNat) :: ("sid_".toList ++ sid) :: rest } := by
  have hloc : (application agent nf gb maxLen sid provide [] r now).1.toOption.bind
      (fun p => getHeader p.1.headers "Location".toList) = some (redirectUrl r now sid) := by
    unfold application
    simp only [hg]
    rfl
  have hfl : 0 ≤ now.floor := Rat.le_floor_iff.2 (by simpa using h0)
  have hnow : intText (pyTrunc now) = natText now.floor.toNat := by
    rw [show pyTrunc now = now.floor by simp [pyTrunc, h0]]
    unfold intText
    rw [if_neg (by omega)]
    congr 1
    omega
  have hparts : redirectParts r.parts now sid = [] ::
      (prefx :: ("sts_".toList ++ natText now.floor.toNat) :: ("sid_".toList ++ sid) :: rest) := by
    rw [hp]
    unfold redirectParts
    rw [hnow]
    rfl
  rw [hloc, Option.bind_some]
  unfold redirectUrl
  rw [hparts]
  apply readUrl_made _ (by simp) hh
  intro p hpm
  simp only [List.mem_cons] at hpm
  rcases hpm with rfl | rfl | rfl | hpm
  · exact hr p (by simp)
  · intro x hx
    rcases List.mem_append.1 hx with h1 | h1
    · clear hx; revert x; decide
    · obtain ⟨d, hd, rfl⟩ := natText_digits _ x h1
      clear hx h1
      revert hd d
      decide
  · intro x hx
    rcases List.mem_append.1 hx with h1 | h1
    · clear hx; revert x; decide
    · exact hs x h1
  · exact hr p (by simp [hpm])

example : let r : Request := { host := "h".toList, parts := [[], "livesim".toList, "x".toList, "a.mpd".toList],
                               query := "a=b".toList, https := true }
    gate 60 r (2001/2) = .redirect ∧ ∀ p ∈ r.parts, ∀ x ∈ p, x ≠ '/' ∧ x ≠ '?' := by
  decide +kernel

/-- **C45 (same content).** The two session options do not change the service a URL describes. -/
theorem C45_same_content (pf : Text → Option Rat) (vodOf : Text → Py VodCfg) (parts : List Text)
    (t sid : Text) (now : Int) :
    processUrl pf vodOf (("sts_".toList ++ t) :: ("sid_".toList ++ sid) :: parts) now =
      processUrl pf vodOf parts now := by
  have h1 : splitFirst ("sts_".toList ++ t) = ("sts".toList, some t) := rfl
  have h2 : splitFirst ("sid_".toList ++ sid) = ("sid".toList, some sid) := rfl
  have k1 : optKey "sts".toList = some .sts := by decide +kernel
  have k2 : optKey "sid".toList = some .sid := by decide +kernel
  unfold processUrl
  simp only [parseOpts, h1, h2, k1, k2, applyOpt, bind, Except.bind]

example : let r : Request := { host := "h".toList, parts := [[], "livesim".toList, "x".toList, "a.mpd".toList] }
    gate 60 r (2001/2) = .redirect ∧
    redirectUrl r (2001/2) "00ff".toList = "http://h/livesim/sts_1000/sid_00ff/x/a.mpd".toList := by
  decide +kernel

/-! ### C18 -/

/-- **C18.** The delivery loop with any clock and any sleep overshoot: the chunks leave complete
and in order at non-decreasing times, chunk `i` not before `segStart + i*dur - margin`; a chunk
that is available when the clock is read leaves at once, and with exact sleeps the others leave
at their availability time. -/
theorem C18_schedule (segStart dur margin : Rat) : ∀ (cs : List Bytes) (es : List Step) (i0 : Nat) (t : Rat),
    cs.length ≤ es.length → (∀ e ∈ es, 0 ≤ e.idle ∧ 0 ≤ e.over) →
    let ds := deliver segStart dur margin i0 t cs es
    ds.map (·.chunk) = cs ∧
    (∀ d ∈ ds, t ≤ d.read ∧ d.read ≤ d.sent) ∧
    ds.Pairwise (fun a b => a.sent ≤ b.read) ∧
    (∀ k d, ds[k]? = some d →
      segStart + ((i0 + k : Nat) : Rat) * dur - margin ≤ d.sent ∧
      (segStart + ((i0 + k : Nat) : Rat) * dur - margin ≤ d.read → d.sent = d.read) ∧
      (∀ e, es[k]? = some e → e.over = 0 →
        d.sent = max d.read (segStart + ((i0 + k : Nat) : Rat) * dur - margin))) := by
  intro cs
  induction cs with
  | nil => intro es i0 t _ _; simp [deliver]
  | cons c cs ih =>
    intro es i0 t hl he
    cases es with
    | nil => simp at hl
    | cons e es =>
      obtain ⟨hi, ho⟩ := he e (by simp)
      simp only [deliver]
      generalize ht' : (if segStart + (i0 : Rat) * dur - margin - (t + e.idle) > 0 then
        t + e.idle + (segStart + (i0 : Rat) * dur - margin - (t + e.idle)) + e.over else t + e.idle) = t'
      have hle : t + e.idle ≤ t' := by
        rw [← ht']; split
        · linarith
        · exact le_refl _
      obtain ⟨h1, h2, h3, h4⟩ := ih es (i0 + 1) t' (by simpa using hl) (fun x hx => he x (by simp [hx]))
      refine ⟨by simp only [List.map_cons, h1], ?_, ?_, ?_⟩
      · intro d hd
        rcases List.mem_cons.mp hd with rfl | hd
        · exact ⟨by simp only; linarith, hle⟩
        · have := h2 d hd
          exact ⟨by linarith [this.1], this.2⟩
      · rw [List.pairwise_cons]
        exact ⟨fun d hd => (h2 d hd).1, h3⟩
      · intro k d hk
        cases k with
        | zero =>
          simp only [List.getElem?_cons_zero, Option.some.injEq] at hk
          subst hk
          simp only [Nat.add_zero, List.getElem?_cons_zero, Option.some.injEq]
          rw [← ht']
          refine ⟨?_, ?_, ?_⟩
          · split <;> linarith
          · intro hx; rw [if_neg (by linarith)]
          · rintro e' rfl h0
            split
            · rw [max_eq_right (by linarith)]; linarith
            · rw [max_eq_left (by linarith)]
        | succ k =>
          simp only [List.getElem?_cons_succ] at hk ⊢
          have := h4 k d hk
          have e1 : i0 + 1 + k = i0 + (k + 1) := by omega
          rw [e1] at this
          exact this

/-- **C18 (chunker).** The same for the delivery loop of the chunker, which reads the clock less
often: started with a clock value that is not in the future. -/
theorem C18_production (segStart dur : Rat) : ∀ (cs : List Bytes) (es : List Step) (i0 : Nat) (t seen : Rat),
    seen ≤ t → cs.length ≤ es.length → (∀ e ∈ es, 0 ≤ e.idle ∧ 0 ≤ e.over) →
    let ds := produce segStart dur i0 t seen cs es
    ds.map (·.chunk) = cs ∧
    (∀ d ∈ ds, t ≤ d.read ∧ d.read ≤ d.sent) ∧
    ds.Pairwise (fun a b => a.sent ≤ b.read) ∧
    (∀ k d, ds[k]? = some d →
      segStart + ((i0 + k : Nat) : Rat) * dur ≤ d.sent ∧
      (segStart + ((i0 + k : Nat) : Rat) * dur ≤ d.read → d.sent = d.read)) := by
  intro cs
  induction cs with
  | nil => intro es i0 t seen _ _ _; simp [produce]
  | cons c cs ih =>
    intro es i0 t seen hseen hl he
    cases es with
    | nil => simp at hl
    | cons e es =>
      obtain ⟨hi, ho⟩ := he e (by simp)
      simp only [produce]
      split
      · rename_i hav
        generalize ht' : (if segStart + (i0 : Rat) * dur - (t + e.idle) > 0 then
          t + e.idle + (segStart + (i0 : Rat) * dur - (t + e.idle)) + e.over else t + e.idle) = t'
        have hle : t + e.idle ≤ t' := by
          rw [← ht']; split
          · linarith
          · exact le_refl _
        obtain ⟨h1, h2, h3, h4⟩ := ih es (i0 + 1) t' (t + e.idle) hle (by simpa using hl)
          (fun x hx => he x (by simp [hx]))
        refine ⟨by simp only [List.map_cons, h1], ?_, ?_, ?_⟩
        · intro d hd
          rcases List.mem_cons.mp hd with rfl | hd
          · exact ⟨by simp only; linarith, hle⟩
          · have := h2 d hd
            exact ⟨by linarith [this.1], this.2⟩
        · rw [List.pairwise_cons]
          exact ⟨fun d hd => (h2 d hd).1, h3⟩
        · intro k d hk
          cases k with
          | zero =>
            simp only [List.getElem?_cons_zero, Option.some.injEq] at hk
            subst hk
            simp only [Nat.add_zero]
            rw [← ht']
            refine ⟨?_, ?_⟩
            · split <;> linarith
            · intro hx; rw [if_neg (by linarith)]
          | succ k =>
            simp only [List.getElem?_cons_succ] at hk
            have := h4 k d hk
            have e1 : i0 + 1 + k = i0 + (k + 1) := by omega
            rw [e1] at this
            exact this
      · rename_i hav
        obtain ⟨h1, h2, h3, h4⟩ := ih es (i0 + 1) (t + e.idle) seen (by linarith) (by simpa using hl)
          (fun x hx => he x (by simp [hx]))
        refine ⟨by simp only [List.map_cons, h1], ?_, ?_, ?_⟩
        · intro d hd
          rcases List.mem_cons.mp hd with rfl | hd
          · exact ⟨by simp only; linarith, le_refl _⟩
          · have := h2 d hd
            exact ⟨by linarith [this.1], this.2⟩
        · rw [List.pairwise_cons]
          exact ⟨fun d hd => (h2 d hd).1, h3⟩
        · intro k d hk
          cases k with
          | zero =>
            simp only [List.getElem?_cons_zero, Option.some.injEq] at hk
            subst hk
            simp only [Nat.add_zero]
            exact ⟨by linarith, fun _ => trivial⟩
          | succ k =>
            simp only [List.getElem?_cons_succ] at hk
            have := h4 k d hk
            have e1 : i0 + 1 + k = i0 + (k + 1) := by omega
            rw [e1] at this
            exact this

/-- Four half-second chunks of a segment that starts at 100, requested at 100.6. -/
example : (deliver 100 (1/2) (1/10) 1 (1006/10) [[1], [2], [3], [4]]
      [⟨0, 0⟩, ⟨0, 1/100⟩, ⟨0, 0⟩, ⟨0, 0⟩]).map (·.sent) = [1006/10, 10091/100, 1014/10, 1019/10] := by
  decide +kernel

/-- **C18 (segment start).** The time the application uses as start of a served segment is the
instant it starts on the wall clock, if the media timeline starts at the epoch: availability
start 0 without time offset, or time offset 0.
Missing: other services (`C18_start_violation`). -/
theorem C18_segment_start_partial (pf : Text → Option Rat) {c : Cfg} (h : WellFormed c)
    (hz : (c.timeoffset = none ∧ c.ast = 0) ∨ c.timeoffset = some 0) {n : Int} {now : Rat} {v : Served}
    (hv : getMedia pf (c.forNr n) now = .ok (.media v)) :
    (v.segTime : Rat) = (serviceOf c).startOf n := by
  have hv' := served_eq h hv
  have : v.segTime = mediaTime c n := by rw [hv']
  rw [this]
  simp only [Spec.Service.startOf, serviceOf, mediaTime]
  rcases hz with ⟨h1, h2⟩ | h1
  · rw [h1, h2]; push_cast; ring
  · rw [h1]; push_cast; ring

/-- **C18 (violation).** A service that starts at second 1000: for segment 10, which starts on
the wall clock at 1010, the application takes second 10 as its start, so all its chunks leave at
once although they should be paced from 1010 on. -/
theorem C18_start_violation :
    let c := { exampleCfg with ato := 2, chunkDur := some (1/2) }
    (serviceOf c).startOf 10 = 1010 ∧
    (getMedia (fun _ => none) (c.forNr 10) 1010).toOption.map (fun
      | .media v => (deliver v.segTime (1/2) (1/10) 1 1010 [[1], [2], [3], [4]]
          [⟨0, 0⟩, ⟨0, 0⟩, ⟨0, 0⟩, ⟨0, 0⟩]).map (·.sent)
      | _ => []) = some [1010, 1010, 1010, 1010] := by
  decide +kernel

end Verif
