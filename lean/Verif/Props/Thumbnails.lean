import Verif.Props.Server
/-
C91: thumbnails go with the media segments.
-/
namespace Verif
open Spec

theorem thumb_splitext (n : Int) : splitext (intText n ++ ".jpg".toList) = (intText n, ".jpg".toList) := by
  have : (".jpg".toList : Text) = '.' :: "jpg".toList := rfl
  rw [this]
  exact splitext_dot (by decide) (intText_has_digit n)

/-- The configuration of a request for the picture `<n>.jpg`. -/
def Cfg.forThumb (c : Cfg) (n : Int) : Cfg :=
  { c with filename := intText n ++ ".jpg".toList, ext := ".jpg".toList }

/-- A request for `<n>.jpg` asks for picture number `n`. -/
theorem requestedNr_forThumb (pf : Text → Option Rat) (c : Cfg) (n : Int) :
    (c.forThumb n).requestedNr pf = .ok n := by
  unfold Cfg.requestedNr Cfg.forThumb
  simp only [thumb_splitext]
  obtain ⟨ch, cs, h, hne⟩ := intText_head n
  have hp := pyInt_intText n
  rw [h] at hp ⊢
  simp [hne, hp]

/-- dash_proxy.py 141-155: the checks that come first for every request. -/
def entrance (c : Cfg) (now : Rat) (next : Py MediaOut) : Py MediaOut :=
  if now < gateTime c then .ok .beforeFirstAst
  else if (c.aet.any (fun a => decide ((pyTrunc now : Rat) > a + 60))) then .ok .afterAet
  else next

theorem getMedia_entrance (pf : Text → Option Rat) {c : Cfg} (h : c.multiUrl.length ≠ 1) (n : Int) (now : Rat) :
    getMedia pf (c.forNr n) now = entrance c now (processMediaNr c now n) := by
  have hx : (c.forNr n).ext = ".m4s".toList := rfl
  have hm : (c.forNr n).multiUrl = c.multiUrl := rfl
  have hp : processMedia pf (c.forNr n) now = processMediaNr c now n := by
    unfold processMedia
    rw [requestedNr_forNr]
    rfl
  unfold getMedia
  rw [if_neg (fun hc => hc.1 rfl)]
  dsimp only
  rw [if_pos hx, hm, lossAction_plain h]
  simp only [bind, Except.bind]
  rw [hp]
  rfl

theorem getMedia_thumb (pf : Text → Option Rat) (c : Cfg) (n : Int) (now : Rat) :
    getMedia pf (c.forThumb n) now = entrance c now (processThumbNr c now n) := by
  have hx : ¬(c.forThumb n).ext = ".m4s".toList := by
    show ¬(".jpg".toList = ".m4s".toList)
    decide
  have hp : processThumb pf (c.forThumb n) now = processThumbNr c now n := by
    unfold processThumb
    rw [requestedNr_forThumb]
    rfl
  unfold getMedia
  rw [if_neg (fun hc => hc.2 rfl)]
  dsimp only
  rw [if_neg hx, hp]
  rfl

theorem windowCheck_refuses {c : Cfg} {now : Rat} {a : Int} {stop : Option Int} {o : MediaOut}
    (h : windowCheck c now a stop = .ok (some o)) : o = .tooEarly ∨ o = .tooLate := by
  unfold windowCheck at h
  split at h
  · cases h
  · split at h
    · cases h; exact Or.inl rfl
    · split at h
      · cases h
      · split at h
        · cases h; exact Or.inr rfl
        · cases h

/-- What the picture request gives, next to what the media request gives. -/
theorem thumb_media (pf : Text → Option Rat) {c : Cfg} (h : WellFormed c) (hto : c.timeoffset = none)
    (hstop : c.stopTime = none) (n : Int) (now : Rat) :
    (∀ w, getMedia pf (c.forNr n) now = .ok (.media w) → getMedia pf (c.forThumb n) now = .ok (.thumb w.vodNr)) ∧
    ((¬∃ w, getMedia pf (c.forNr n) now = .ok (.media w)) →
      ∀ k, getMedia pf (c.forThumb n) now ≠ .ok (.thumb k)) := by
  rw [getMedia_entrance pf h.urls, getMedia_thumb]
  unfold entrance
  by_cases h1 : now < gateTime c
  · rw [if_pos h1, if_pos h1]
    exact ⟨fun w hw => by (cases hw), fun _ k hk => by (cases hk)⟩
  rw [if_neg h1, if_neg h1]
  generalize c.aet.any (fun a => decide ((pyTrunc now : Rat) > a + 60)) = e
  cases e with
  | true => exact ⟨fun w hw => by (cases hw), fun _ k hk => by (cases hk)⟩
  | false =>
    simp only [Bool.false_eq_true, if_false]
    have hf : (if c.startNr = -1 then 1 else c.startNr) = firstNumber c := by
      unfold firstNumber
      rw [hto]
    have hp : c.adjustedPto 0 1 = 0 := by
      rw [adjustedPto_eq, hto]
    unfold processMediaNr processThumbNr
    simp only [segStartNr_eq h.segDur, bind, Except.bind, Cfg.stopNumber, hstop, hp, hf]
    by_cases h2 : n < firstNumber c
    · rw [if_pos h2, if_pos h2]
      exact ⟨fun w hw => by (cases hw), fun _ k hk => by (cases hk)⟩
    rw [if_neg h2, if_neg h2]
    simp only [stopTruthy, Bool.false_eq_true, false_and, if_false]
    cases hb : beyondLastNr c.lastNrs n with
    | some l => exact ⟨fun w hw => by (cases hw), fun _ k hk => by (cases hk)⟩
    | none =>
      dsimp only
      have e1 : (n - firstNumber c) * c.segDur + 0 + c.segDur - 0 + c.ast =
          (n - firstNumber c) * c.segDur + c.ast + c.segDur := by omega
      have e2 : (n - firstNumber c) * c.segDur + c.ast - c.ast = (n - firstNumber c) * c.segDur + 0 := by omega
      rw [e1, e2, loopPos_eq h.segDur h.vodNr]
      cases hwc : windowCheck c now ((n - firstNumber c) * c.segDur + c.ast + c.segDur) none with
      | error x => exact ⟨fun w hw => by (cases hw), fun _ k hk => by (cases hk)⟩
      | ok o =>
        cases o with
        | some x =>
          dsimp only
          refine ⟨fun w hw => ?_, fun _ k hk => by (cases hk)⟩
          rcases windowCheck_refuses hwc with rfl | rfl <;> cases hw
        | none =>
          dsimp only
          refine ⟨fun w hw => ?_, fun hno => absurd ⟨_, rfl⟩ hno⟩
          cases hw
          rfl

/-- A request for the picture with the number `n` in the directory `dir` of the content `name`, with the options `opts`. -/
structure AsksPicture (r : Request) (first : Text) (opts : List Text) (name dir : Text) (n : Int) : Prop where
  whole : r.range = none
  parts : r.parts = [] :: first :: (opts ++ [name, dir, intText n ++ ".jpg".toList])

/-- Content with a picture for every segment in the directory `dir`, which its configuration lists. -/
structure HasPictures (s : Site) (name dir : Text) (v : VodCfg) (pic : Int → Bytes) : Prop where
  content : partSlot name = none
  config : s.vodOf name = .ok v
  single : splitDivider dir = [dir]
  nonempty : dir ≠ []
  listed : ∃ rp, v.repInfo dir = .ok rp
  stored : ∀ k, v.firstSeg ≤ k → k < v.firstSeg + v.nrSegs →
    (s.files name).file (dir ++ '/' :: intText k ++ ".jpg".toList) = some (pic k) ∧ pic k ≠ []

/-- **C91.** The pictures go with the media: in a service that does not stop, that has no time offset and no loss pattern, a
picture is given exactly when the media segment with the same number is, and it is the picture that is stored for the
segment that is played then; otherwise the answer is 404.
`c` is what the options mean at that time, `c'` what they mean for the media request.
Missing: services with a stop time, a time offset or a loss pattern (`C91_stop_violation`, `C91_offset_violation`,
`C91_loss_violation`); the type of the reply is not the one of a picture (`C21_type_violation`). -/
theorem C91_together_partial {u : Setup} {s : Site} {first : Text} {opts : List Text} {name dir file : Text} {v : VodCfg}
    {pic : Int → Bytes} (hP : HasPictures s name dir v pic) (ho : ∀ p ∈ opts, (partSlot p).isSome) {now : Rat} {c : Cfg}
    (hu : processUrl s.pf s.vodOf (opts ++ [name, file]) (pyTrunc now) = .ok c)
    (h : WellFormed c) (hto : c.timeoffset = none) (hstop : c.stopTime = none)
    {r : Request} {n : Int} (hr : AsksPicture r first opts name dir n) (hgate : gate u.maxLen r now = .pass)
    (sid : Text) (dflt : Headers) {video : Text} {c' : Cfg}
    (hv : processUrl s.pf s.vodOf (opts ++ [name, video, intText n ++ ".m4s".toList]) (pyTrunc now) = .ok c') :
    (∀ w, getMedia s.pf c' now = .ok (.media w) →
      Delivers (serve u s sid dflt r now).1 "text/plain".toList (pic w.vodNr)) ∧
    ((¬∃ w, getMedia s.pf c' now = .ok (.media w)) → Refuses (serve u s sid dflt r now).1) := by
  obtain ⟨rp, hrp⟩ := hP.listed
  have hreps : (splitDivider dir).mapM v.repInfo = .ok [rp] := by
    rw [hP.single]
    simp [hrp, pure, Except.pure, bind, Except.bind]
  have ht := processUrl_more (more := [file]) ho hP.content hu hP.config [] dir (intText n ++ ".jpg".toList) hreps
  obtain ⟨v', reps, hv', hvr, -⟩ := processUrl_files ho hP.content hv
  rw [hP.config] at hv'
  cases hv'
  have hm := processUrl_more (more := [file]) ho hP.content hu hP.config [] video (intText n ++ ".m4s".toList) hvr
  rw [List.nil_append] at ht hm
  rw [hv] at hm
  obtain ⟨v', hv', f1, -, -, f2, f3, f4⟩ := processUrl_manifest ho hP.content hu
  rw [hP.config] at hv'
  cases hv'
  rw [thumb_splitext] at ht
  rw [intText_splitext] at hm
  dsimp only at ht hm
  injection hm with hm
  set d := withFile (joinSlash [dir]) (intText n ++ ".jpg".toList) ".jpg".toList [rp] c with hd
  have ht : processUrl s.pf s.vodOf (opts ++ [name, dir, intText n ++ ".jpg".toList]) (pyTrunc now) = .ok d := ht
  have g1 : ∀ w, getMedia s.pf c' now = .ok (.media w) ↔ getMedia s.pf (c.forNr n) now = .ok (.media w) := by
    intro w
    have hw' : WellFormed (withFile (joinSlash ([] ++ [video])) [] [] reps c) := ⟨h.1, h.2, h.3, h.4, h.5⟩
    have e1 : c' = (withFile (joinSlash ([] ++ [video])) [] [] reps c).forNr n := hm
    rw [e1, getMedia_entrance _ hw'.urls, getMedia_entrance _ h.urls]
    exact Iff.rfl
  have g2 : getMedia s.pf d now = getMedia s.pf (c.forThumb n) now := by
    have e1 : d = (withFile dir [] [] [rp] c).forThumb n := rfl
    rw [e1, getMedia_thumb, getMedia_thumb]
    rfl
  have hext : r.ext = ".jpg".toList := by
    unfold Request.ext
    rw [hr.parts, show ([] :: first :: (opts ++ [name, dir, intText n ++ ".jpg".toList]) : List Text) =
      ([] :: first :: (opts ++ [name, dir])) ++ [intText n ++ ".jpg".toList] by simp, List.getLastD_concat, thumb_splitext]
  have hprov : provide s r now = provideThumb s r d now := by
    unfold provide
    rw [hr.parts]
    simp only [List.drop_succ_cons, List.drop_zero]
    rw [ht]
    dsimp only
    have d2 : d.ext = ".jpg".toList := rfl
    rw [if_neg (by rw [d2]; decide +kernel), if_neg (by rw [d2]; decide +kernel), if_neg (by rw [d2]; decide +kernel), if_pos d2]
  obtain ⟨k1, k2⟩ := thumb_media s.pf h hto hstop n now
  rw [serve_pass hgate, hprov]
  constructor
  · intro w hw
    have hw := (g1 w).mp hw
    have hvod : v.firstSeg ≤ w.vodNr ∧ w.vodNr < v.firstSeg + v.nrSegs := by
      obtain ⟨a1, a2, -⟩ := getMedia_range hw
      rw [← f2, ← f3]
      exact ⟨a1, a2⟩
    obtain ⟨hs1, hs2⟩ := hP.stored _ hvod.1 hvod.2
    have hp : provideThumb s r d now = .data (pic w.vodNr) := by
      unfold provideThumb
      rw [g2, k1 w hw]
      dsimp only
      have e1 : d.contentName = name := f1
      have e2 : segmentFile d.relPath w.vodNr d.ext = dir ++ '/' :: intText w.vodNr ++ ".jpg".toList := by
        show segmentFile dir w.vodNr ".jpg".toList = _
        unfold segmentFile
        rw [if_neg hP.nonempty]
        simp
      unfold Files.read
      rw [e1, e2, hs1]
    rw [hp]
    have := answer_data u.agent u.notFound hr.whole (b := pic w.vodNr) hs2
    rw [hext] at this
    exact this
  · intro hno
    have hno : ¬∃ w, getMedia s.pf (c.forNr n) now = .ok (.media w) := fun ⟨w, hw⟩ => hno ⟨w, (g1 w).mpr hw⟩
    have := k2 hno
    unfold provideThumb
    rw [g2]
    cases hg : getMedia s.pf (c.forThumb n) now with
    | error e => exact (answer_refused _ _ _ _).2
    | ok o =>
      cases o with
      | thumb k => exact absurd hg (this k)
      | _ => exact (answer_refused _ _ _ _).1

/-- **C91, times.** A plain service without a time offset: picture `n` is given from the moment on when the media of its
time are complete (less the announced offset) until the buffer has left them, and it is the one that is stored for the
segment at the same place in the content; outside that time the answer is 404. -/
theorem C91_window_partial {u : Setup} {s : Site} {first : Text} {opts : List Text} {name dir file : Text} {v : VodCfg}
    {pic : Int → Bytes} (hP : HasPictures s name dir v pic) (ho : ∀ p ∈ opts, (partSlot p).isSome) {now : Rat} {c : Cfg}
    (hu : processUrl s.pf s.vodOf (opts ++ [name, file]) (pyTrunc now) = .ok c)
    (h : Plain c) (hto : c.timeoffset = none)
    {r : Request} {n : Int} (hr : AsksPicture r first opts name dir n) (hgate : gate u.maxLen r now = .pass)
    (sid : Text) (dflt : Headers) :
    ((serviceOf c).Available n now →
      Delivers (serve u s sid dflt r now).1 "text/plain".toList (pic (v.firstSeg + (n - (serviceOf c).first) % v.nrSegs))) ∧
    (¬(serviceOf c).Available n now → Refuses (serve u s sid dflt r now).1) := by
  obtain ⟨rp, hrp⟩ := hP.listed
  have hreps : (splitDivider dir).mapM v.repInfo = .ok [rp] := by
    rw [hP.single]
    simp [hrp, pure, Except.pure, bind, Except.bind]
  have hm := processUrl_more (more := [file]) ho hP.content hu hP.config [] dir (intText n ++ ".m4s".toList) hreps
  rw [List.nil_append, intText_splitext] at hm
  have hwf : WellFormed c := ⟨h.segDur, h.vodNr, h.urls, h.tsbd, fun hc => by rw [h.stop] at hc; cases hc⟩
  obtain ⟨k1, k2⟩ := C91_together_partial hP ho hu hwf hto h.stop hr hgate sid dflt hm
  have e1 : getMedia s.pf (withFile (joinSlash ([] ++ [dir])) (intText n ++ ".m4s".toList) ".m4s".toList [rp] c) now =
      getMedia s.pf (c.forNr n) now := by
    have : withFile (joinSlash ([] ++ [dir])) (intText n ++ ".m4s".toList) ".m4s".toList [rp] c =
      (withFile dir [] [] [rp] c).forNr n := rfl
    rw [this, getMedia_entrance _ h.urls, getMedia_entrance (c := withFile dir [] [] [rp] c) _ h.urls]
    rfl
  have hiff := isServed_plain s.pf h n now
  obtain ⟨v', hv', f1, -, -, f2, f3, f4⟩ := processUrl_manifest ho hP.content hu
  rw [hP.config] at hv'
  cases hv'
  constructor
  · intro ha
    obtain ⟨w, hw⟩ := hiff.mpr ha
    have := k1 w (by rw [← hw]; exact e1)
    have hk : w.vodNr = v.firstSeg + (n - (serviceOf c).first) % v.nrSegs := by
      rw [served_eq hwf hw, ← f2, ← f3]
      show mediaTime c n / c.segDur % c.vodNr + c.vodFirst = c.vodFirst + (n - firstNumber c) % c.vodNr
      unfold mediaTime
      rw [hto]
      dsimp only
      rw [Int.add_zero, Int.mul_ediv_cancel _ (by have := h.segDur; omega), Int.add_comm]
    rw [hk] at this
    exact this
  · intro ha
    refine k2 ?_
    rintro ⟨w, hw⟩
    exact ha (hiff.mp ⟨w, by rw [← hw]; exact e1.symm⟩)

/-- Content of three segments of 2 s with three pictures; the directory of the pictures is listed by hand
(`C76_image_violation`). -/
def pictureVod : VodCfg :=
  { firstSeg := 1, nrSegs := 3, segDurS := 2, defaultTsbd := 300
    media := [("video".toList, 90000, ["V1".toList]), ("image".toList, 1, ["thumbs".toList])] }

def picture (k : Int) : Bytes := [255, 216, if k = 1 then 1 else if k = 2 then 2 else 3]

def pictureSite : Site := { tinySite with
  vodOf := fun name => if name = "pics".toList then .ok pictureVod else .error .osError
  files := fun _ => { file := fun p => if p = "thumbs/1.jpg".toList then some (picture 1)
      else if p = "thumbs/2.jpg".toList then some (picture 2) else if p = "thumbs/3.jpg".toList then some (picture 3) else none
                      list := fun _ => none } }

theorem picture_site : HasPictures pictureSite "pics".toList "thumbs".toList pictureVod picture where
  content := by decide +kernel
  config := by decide +kernel
  single := by decide +kernel
  nonempty := by decide
  listed := ⟨{ id := "thumbs".toList, contentType := "image".toList, timescale := 1 }, by decide +kernel⟩
  stored := by
    intro k h1 h2
    have h1 : (1 : Int) ≤ k := h1
    have h2 : k < (1 : Int) + 3 := h2
    have : k = 1 ∨ k = 2 ∨ k = 3 := by omega
    rcases this with rfl | rfl | rfl <;> exact ⟨by decide +kernel, by decide⟩

def pictureCfg : Cfg :=
  (processUrl examplePf pictureSite.vodOf ["tsbd_40".toList, "pics".toList, "Manifest.mpd".toList] 100).toOption.getD {}

/-- `pictureSite` meets the hypotheses: picture 47 shows the third of the three segments. -/
example : Delivers (serve tinySetup pictureSite [] [] (tinyGet ["livesim", "tsbd_40", "pics", "thumbs", "47.jpg"]) 100).1
    "text/plain".toList (picture 3) := by
  have hu : processUrl pictureSite.pf pictureSite.vodOf (["tsbd_40".toList] ++ ["pics".toList, "Manifest.mpd".toList])
      (pyTrunc 100) = .ok pictureCfg := by decide +kernel
  have hp : Plain pictureCfg := ⟨by decide +kernel, by decide +kernel, by decide +kernel, by decide +kernel,
    by decide +kernel, by decide +kernel, by decide +kernel, by decide +kernel⟩
  have := (C91_window_partial (u := tinySetup) (first := "livesim".toList) picture_site
    (opts := ["tsbd_40".toList]) (by decide +kernel) hu hp (by decide +kernel)
    (r := tinyGet ["livesim", "tsbd_40", "pics", "thumbs", "47.jpg"]) (n := 47) ⟨rfl, by decide +kernel⟩ (by decide +kernel)
    [] []).1 ⟨by decide +kernel, by decide +kernel, by decide +kernel⟩
  have e : pictureVod.firstSeg + (47 - (serviceOf pictureCfg).first) % pictureVod.nrSegs = 3 := by decide +kernel
  rw [e] at this
  exact this

/-- Picture 50 is not there yet, picture 10 no longer. -/
example : (got pictureSite (tinyGet ["livesim", "tsbd_40", "pics", "thumbs", "50.jpg"]) 100).map (·.1) = some 404 ∧
    (got pictureSite (tinyGet ["livesim", "tsbd_40", "pics", "thumbs", "10.jpg"]) 100).map (·.1) = some 404 := by
  decide +kernel

/-- Which segment a request is decided to be answered with: of the media, or a picture. -/
def answeredWith (parts : List String) (now : Rat) : Option (Option Int) :=
  match processUrl examplePf pictureSite.vodOf (parts.map String.toList) (pyTrunc now) with
  | .error _ => none
  | .ok c => match getMedia examplePf c now with
    | .ok (.media w) => some (some w.vodNr)
    | .ok (.thumb k) => some (some k)
    | _ => some none

/-- **C91 fails** for a service that stops: the media segments from the stop on are refused, and pictures are given for them;
the media segments of the whole session stay available after the stop, and their pictures do not. -/
theorem C91_stop_violation :
    answeredWith ["start_10", "stop_20", "pics", "V1", "6.m4s"] 30 = some none ∧
    answeredWith ["start_10", "stop_20", "pics", "thumbs", "6.jpg"] 30 = some (some 1) ∧
    answeredWith ["tsbd_10", "start_10", "stop_40", "pics", "V1", "1.m4s"] 50 = some (some 2) ∧
    answeredWith ["tsbd_10", "start_10", "stop_40", "pics", "thumbs", "1.jpg"] 50 = some none := by
  decide +kernel

/-- **C91 fails** for a service with a time offset: the numbers of its media segments are moved, the ones of the pictures are
not.  Segment 14 is there at 121 s, its picture comes 10 s later. -/
theorem C91_offset_violation :
    answeredWith ["start_100", "timeoffset_90", "pics", "V1", "14.m4s"] 121 = some (some 3) ∧
    answeredWith ["start_100", "timeoffset_90", "pics", "thumbs", "14.jpg"] 121 = some none ∧
    answeredWith ["start_100", "timeoffset_90", "pics", "thumbs", "14.jpg"] 131 = some (some 3) := by
  decide +kernel

/-- **C91 fails** for a service with a loss pattern: while the server is down for the media it gives out pictures. -/
theorem C91_loss_violation :
    answeredWith ["baseurl_u10_d20", "pics", "V1", "55.m4s"] 115 = some none ∧
    answeredWith ["baseurl_u10_d20", "pics", "thumbs", "55.jpg"] 115 = some (some 2) := by
  decide +kernel

end Verif
