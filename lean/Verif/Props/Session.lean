import Verif.SessionId
import Verif.Spec.Hex
import Verif.Props.Server
import Verif.Props.Wsgi
/-
C93: sessions with a limited length, followed over HTTP.
-/
namespace Verif
open Spec

theorem hexValue_digit : ∀ d < 16, hexValue (hexDigit d) = some d := by decide +kernel

/-- **C93, session ids.** The session id of a drawn number has eight hexadecimal digits and is read as this number. -/
theorem C93_id {n : Nat} (h : n < 2 ^ 32) : (sessionId n).length = 8 ∧ readHex (sessionId n) = some n := by
  refine ⟨by simp [sessionId], ?_⟩
  have hv : ∀ k, hexValue (hexDigit (k % 16)) = some (k % 16) := fun k => hexValue_digit _ (Nat.mod_lt _ (by decide))
  have e : sessionId n = [hexDigit (n / 16 ^ 7 % 16), hexDigit (n / 16 ^ 6 % 16), hexDigit (n / 16 ^ 5 % 16),
    hexDigit (n / 16 ^ 4 % 16), hexDigit (n / 16 ^ 3 % 16), hexDigit (n / 16 ^ 2 % 16), hexDigit (n / 16 ^ 1 % 16),
    hexDigit (n / 16 ^ 0 % 16)] := rfl
  rw [e, readHex]
  simp only [List.foldl_cons, List.foldl_nil, hv, Option.bind_eq_bind, Option.bind_some, Option.pure_def]
  congr 1
  omega

/-- **C93, session ids.** Two sessions with different numbers have different ids. -/
theorem C93_id_injective {n m : Nat} (hn : n < 2 ^ 32) (hm : m < 2 ^ 32) (h : sessionId n = sessionId m) : n = m := by
  have h1 := (C93_id hn).2
  rw [h, (C93_id hm).2] at h1
  exact (Option.some.inj h1).symm

example : sessionId 3735928559 = "deadbeef".toList ∧ sessionId 255 = "000000ff".toList := by decide +kernel

theorem joinParts_eq : ∀ l : List Text, joinParts l = joinSlash l
  | [] => rfl
  | [_] => rfl
  | p :: q :: l => by rw [joinParts, joinSlash, joinParts_eq (q :: l)] <;> simp

/-- What the gate does with a request that carries the start `t` of its session. -/
theorem gate_started {maxLen t : Int} (hm : 0 < maxLen) {r : Request} (hs : stsTime r.parts = some t) {now : Rat}
    (hn : (t : Rat) ≤ now) :
    (now ≤ t + maxLen → gate maxLen r now = .pass) ∧ (t + maxLen < now → gate maxLen r now = .expired) := by
  unfold gate
  rw [if_neg (by omega), hs]
  dsimp only
  constructor
  · intro h
    rw [if_neg (not_lt.mpr h), if_neg (by rw [gt_iff_lt, not_lt]; linarith)]
  · intro h
    rw [if_pos h]

/-- The reply says that the session is over. -/
def Ended (x : Py (Reply × Body)) : Prop := ∃ rep b, x = .ok (rep, .whole b) ∧ rep.status = 410

/-- **C93.** A server that limits sessions to `maxLen` seconds: a client that asks at `t` for a manifest, with any options, is
sent to a URL with the start of its session and its session id.  If it follows, it asks for the same file of the same service
(the options mean the same), and whatever it asks for by the BaseURL of the manifest that it gets there belongs to
the session too: it is let through until `maxLen` seconds after the second `t`, and answered with 410 after
that.  So what C80 and C92 say about requests that are let through holds for all requests of the client until the end
of the session, without a further redirection.
Missing: requests with a query (C45); files and directories named like a session start (`C93_name_violation`);
services with Location or several BaseURLs. -/
theorem C93_session_partial {u : Setup} {s : Site} (hm : 0 < u.maxLen) (nr : Nat)
    {r : Request} {url : Text} (ha : Asks r url) (hq : r.query = []) {first : Text} {opts : List Text} {name file : Text}
    (hp : r.parts = [] :: first :: (opts ++ [name, file])) (ho : ∀ p ∈ opts, (partSlot p).isSome) (hn : partSlot name = none)
    (hext : (splitext file).2 = ".mpd".toList) (hst : stsTime r.parts = none) {t : Rat} (h0 : 0 ≤ t) (dflt : Headers) :
    ∃ rep loc, (serve u s (sessionId nr) dflt r t).1 = .ok (rep, .whole []) ∧ rep.status = 302 ∧
      getHeader rep.headers "Location".toList = some loc ∧
      ∀ r1, Asks r1 loc → ∃ opts1, r1.parts = [] :: first :: (opts1 ++ [name, file]) ∧ (∀ p ∈ opts1, (partSlot p).isSome) ∧
        (∀ l now, processUrl s.pf s.vodOf (opts1 ++ l) now = processUrl s.pf s.vodOf (opts ++ l) now) ∧
        (∀ now, t ≤ now → (now ≤ t.floor + u.maxLen → gate u.maxLen r1 now = .pass) ∧
          (t.floor + u.maxLen < now → ∀ sid dflt, Ended (serve u s sid dflt r1 now).1)) ∧
        ∀ (t0 : Rat) (c : Cfg) (text : Bytes), Opened u s first opts1 name file r1 t0 c text →
        ∀ vod, s.manifest name file = .ok vod → ∀ (infos rest : List Xml) (base : Option Xml) (period : Xml),
          VodShape vod.kids infos base period rest → (∀ x ∈ rest, x.tag ≠ "BaseURL".toList) →
          c.xlink ≤ 0 → c.insertAd ≤ 0 → c.multiUrl = [] → c.addLocation = false → 0 ≤ c.segDur → (∀ t ∈ c.tsbd, 0 ≤ t) →
          ∃ out b, ReadsAs c vod r1 text out ∧ named "BaseURL" out = [b] ∧
            ∀ l : List Text, l ≠ [] → (∀ p ∈ l, '/' ∉ p) → stsTime l = none →
            ∀ r2, Asks r2 (b.text ++ joinSlash l) → r2.parts = [] :: first :: (opts1 ++ name :: l) ∧
              ∀ now, t ≤ now → (now ≤ t.floor + u.maxLen → gate u.maxLen r2 now = .pass) ∧
                (t.floor + u.maxLen < now → ∀ sid dflt, Ended (serve u s sid dflt r2 now).1) := by
  have hfl : (t.floor : Rat) ≤ t := Rat.floor_le t
  have htr : pyTrunc t = t.floor := by simp [pyTrunc, h0]
  have hrext : r.ext = ".mpd".toList := by
    unfold Request.ext
    rw [hp, show ([] :: first :: (opts ++ [name, file]) : List Text) = ([] :: first :: (opts ++ [name])) ++ [file] by simp,
      List.getLastD_concat, hext]
  have hg : gate u.maxLen r t = .redirect := by
    unfold gate
    rw [if_neg (by omega), hst]
    dsimp only
    rw [if_pos hrext]
  have hsl := asks_slash ha
  rw [hp] at hsl
  generalize hsts : "sts_".toList ++ intText (pyTrunc t) = sts
  generalize hsid : "sid_".toList ++ sessionId nr = sid
  have n1 : '/' ∉ sts := by
    rw [← hsts]
    intro hc
    rcases List.mem_append.1 hc with hc | hc
    · exact absurd hc (by decide)
    · unfold intText at hc
      split at hc
      · rcases List.mem_cons.1 hc with hc | hc
        · exact absurd hc (by decide)
        · exact natText_slash _ hc
      · exact natText_slash _ hc
  have n2 : '/' ∉ sid := by
    rw [← hsid]
    intro hc
    rcases List.mem_append.1 hc with hc | hc
    · exact absurd hc (by decide)
    · obtain ⟨i, -, hi⟩ := List.mem_map.1 hc
      have : ∀ d < 16, hexDigit d ≠ '/' := by decide +kernel
      exact this _ (Nat.mod_lt _ (by decide)) hi
  have n3 : stsTime [sts] = some t.floor := by
    rw [← hsts, ← htr]
    have hp : "sts_".toList.isPrefixOf ("sts_".toList ++ intText (pyTrunc t)) = true := by simp
    have hdrop : ("sts_".toList ++ intText (pyTrunc t)).drop 4 = intText (pyTrunc t) := rfl
    unfold stsTime stsStep
    simp only [List.foldl_cons, List.foldl_nil]
    rw [if_pos hp, hdrop, pyInt_intText]
  have n4 : stsTime [sid] = none := by rw [← hsid]; rfl
  have n5 : (partSlot sts).isSome := by rw [← hsts]; rfl
  have n6 : (partSlot sid).isSome := by rw [← hsid]; rfl
  have n7 : ∀ l now, processUrl s.pf s.vodOf (sts :: sid :: l) now = processUrl s.pf s.vodOf l now := by
    intro l now
    rw [← hsts, ← hsid]
    exact C45_same_content _ _ _ _ _ _
  -- the start of the session in the parts of a URL
  have started : ∀ l, stsTime ([] :: first :: (opts ++ [name])) = none → stsTime l = none →
      stsTime ([] :: first :: (sts :: sid :: opts ++ name :: l)) = some t.floor := by
    intro l h1 h2
    have e1 : ([] :: first :: (opts ++ [name]) : List Text) = [[], first] ++ (opts ++ [name]) := rfl
    rw [e1, stsTime_append, Option.or_eq_none_iff] at h1
    have e2 : ([] :: first :: (sts :: sid :: opts ++ name :: l) : List Text) =
        [[], first] ++ ([sts] ++ ([sid] ++ ((opts ++ [name]) ++ l))) := by simp
    rw [e2, stsTime_append, stsTime_append, stsTime_append, stsTime_append, h2, h1.1, n4, n3, h1.2]
    rfl
  have hst1 : stsTime ([] :: first :: (opts ++ [name])) = none ∧ stsTime [file] = none := by
    rw [hp, show ([] :: first :: (opts ++ [name, file]) : List Text) = ([] :: first :: (opts ++ [name])) ++ [file] by simp,
      stsTime_append, Option.or_eq_none_iff] at hst
    exact ⟨hst.2, hst.1⟩
  have gates : ∀ l, stsTime l = none → ∀ r2 : Request, r2.parts = [] :: first :: (sts :: sid :: opts ++ name :: l) →
      ∀ now, t ≤ now → (now ≤ t.floor + u.maxLen → gate u.maxLen r2 now = .pass) ∧
        (t.floor + u.maxLen < now → ∀ sid dflt, Ended (serve u s sid dflt r2 now).1) := by
    intro l hl r2 hr2 now hnow
    obtain ⟨g1, g2⟩ := gate_started hm (r := r2) (by rw [hr2]; exact started l hst1.1 hl) (le_trans hfl hnow)
    refine ⟨g1, fun h sid dflt => ?_⟩
    unfold Ended serve application
    rw [g2 h]
    exact ⟨_, _, rfl, rfl⟩
  refine ⟨_, redirectUrl r t (sessionId nr), by unfold serve application; rw [hg], rfl, rfl, ?_⟩
  intro r1 ha1
  have hlead : LeadsTo (servicePlace r first) (redirectUrl r t (sessionId nr)) (sts :: sid :: opts ++ [name, file]) := by
    have e : redirectUrl r t (sessionId nr) = servicePlace r first ++ '/' :: joinSlash (sts :: sid :: opts ++ [name, file]) := by
      unfold redirectUrl redirectParts servicePlace
      rw [hp, hq, if_pos rfl, hsts, hsid, joinParts_eq]
      have : (List.take 2 ([] :: first :: (opts ++ [name, file])) ++ [sts] ++ [sid] ++
          List.drop 2 ([] :: first :: (opts ++ [name, file])) : List Text) =
          [] :: first :: (sts :: sid :: opts ++ [name, file]) := by simp
      rw [this]
      have e2 : ∀ (a : Text) (b : List Text), b ≠ [] → joinSlash (a :: b) = a ++ '/' :: joinSlash b := by
        intro a b hb
        cases b with
        | nil => exact absurd rfl hb
        | cons _ _ => rfl
      rw [e2 _ _ (by simp), e2 _ _ (by simp)]
      have e3 := origin_eq r (first ++ '/' :: joinSlash (sts :: sid :: opts ++ [name, file]))
      rw [List.append_nil]
      show _ ++ ([] ++ '/' :: (first ++ '/' :: joinSlash (sts :: sid :: opts ++ [name, file]))) = _
      rw [List.nil_append, ← e3]
      simp
    unfold LeadsTo
    rw [e, splitChar_join _ (by simp)]
    intro p hpm
    simp only [List.cons_append, List.mem_cons, List.mem_append, List.not_mem_nil, or_false] at hpm hsl
    rcases hpm with rfl | rfl | hpm
    · exact n1
    · exact n2
    · exact hsl p (Or.inr (Or.inr hpm))
  have hparts := asks_parts ha.1 (hsl first (by simp)) hlead ha1
  refine ⟨sts :: sid :: opts, hparts, ?_, fun l now => n7 _ now, gates [file] hst1.2 r1 hparts, ?_⟩
  · intro p hpm
    simp only [List.mem_cons] at hpm
    rcases hpm with rfl | rfl | hpm
    · exact n5
    · exact n6
    · exact ho p hpm
  intro t0 c text hO vod hman infos rest base period hs hrb hx had hmu hl hd hb
  obtain ⟨e, out, hgen, -, e1, e2, e3, -, -, hreads⟩ := hO.made hman hx had hmu
  obtain ⟨s1, s2, s3⟩ := hO.slash
  obtain ⟨b, hb1, hb2⟩ := base_text hs hrb hd hb e1 e2 e3 hl hmu hgen
  refine ⟨out, b, hreads, hb1, ?_⟩
  intro l hl0 hls hlt r2 ha2
  have hlead2 : LeadsTo (servicePlace r1 first) (b.text ++ joinSlash l) (sts :: sid :: opts ++ name :: l) := by
    rw [hb2]
    exact leadsTo_path hl0 s3 hls
  have hparts2 := asks_parts s1 s2 hlead2 ha2
  exact ⟨hparts2, gates l hlt r2 hparts2⟩

/-! ### Cases -/

/-- A server that limits sessions to ten minutes. -/
def limited : Setup := { tinySetup with maxLen := 600 }

/-- Status and Location of a reply. -/
def sentTo (u : Setup) (s : Site) (nr : Nat) (path : List String) (now : Rat) : Option (Nat × Option Text) :=
  match (serve u s (sessionId nr) [] (tinyGet path) now).1 with
  | .ok (rep, _) => some (rep.status, getHeader rep.headers "Location".toList)
  | .error _ => none

/-- A client asks for a manifest at 100.5 s and is sent to its session.  Manifest and segments of the session are there until
700 s, and no longer. -/
example : sentTo limited tinySite 3735928559 ["livesim", "tsbd_40", "tiny", "Manifest.mpd"] (201 / 2) =
      some (302, some "http://h/livesim/sts_100/sid_deadbeef/tsbd_40/tiny/Manifest.mpd".toList) ∧
    sentTo limited tinySite 1 ["livesim", "sts_100", "sid_deadbeef", "tsbd_40", "tiny", "Manifest.mpd"] 101 = some (200, none) ∧
    sentTo limited tinySite 1 ["livesim", "sts_100", "sid_deadbeef", "tsbd_40", "tiny", "V1", "347.m4s"] 700 = some (200, none) ∧
    sentTo limited tinySite 1 ["livesim", "sts_100", "sid_deadbeef", "tsbd_40", "tiny", "V1", "347.m4s"] (1401 / 2) =
      some (410, none) := by
  decide +kernel

def sessionOpts : List Text := ["sts_100".toList, "sid_deadbeef".toList, "tsbd_40".toList]

def sessionManifest : Request := tinyGet ["livesim", "sts_100", "sid_deadbeef", "tsbd_40", "tiny", "Manifest.mpd"]

/-- The hypotheses of `C93_session_partial` hold for this client. -/
example : (∃ url, Asks tinyManifest url) ∧ tinyManifest.query = [] ∧
    tinyManifest.parts = [] :: "livesim".toList :: (["tsbd_40".toList] ++ ["tiny".toList, "Manifest.mpd".toList]) ∧
    (∀ p ∈ ["tsbd_40".toList], (partSlot p).isSome) ∧ partSlot "tiny".toList = none ∧ stsTime tinyManifest.parts = none ∧
    (∃ text, Opened limited tinySite "livesim".toList sessionOpts "tiny".toList "Manifest.mpd".toList sessionManifest 101 tinyCfg
      text) ∧ stsTime ["V1".toList, "347.m4s".toList] = none := by
  refine ⟨⟨"http://h/livesim/tsbd_40/tiny/Manifest.mpd".toList, by decide +kernel, rfl,
    "livesim/tsbd_40/tiny/Manifest.mpd".toList, by decide +kernel, by decide +kernel⟩, rfl, rfl, by decide +kernel,
    by decide +kernel, by decide +kernel, ?_, by decide +kernel⟩
  have h : (match (serve limited tinySite [] [] sessionManifest 101).1 with
      | .ok (rep, .whole _) => some rep.status
      | _ => none) = some 200 := by decide +kernel
  split at h
  · rename_i rep b hs
    refine ⟨b, ⟨"http://h/livesim/sts_100/sid_deadbeef/tsbd_40/tiny/Manifest.mpd".toList, by decide +kernel, rfl,
      "livesim/sts_100/sid_deadbeef/tsbd_40/tiny/Manifest.mpd".toList, by decide +kernel, by decide +kernel⟩, rfl,
      by decide +kernel, by decide +kernel, by decide +kernel, by decide +kernel, [], [], rep, hs, Option.some.inj h⟩
  · cases h

/-- Content with a representation that is named like a session start. -/
def stsFiles : Files := filesOf [tinyDir "sts_1" m4s 3]

def stsContent : Xml := tinyMpd [tinySet "video" "$RepresentationID$/$Number$.m4s" fromOne ["sts_1"]]

def stsSite : Site := { tinySite with
  files := fun _ => stsFiles
  vodOf := vodAfter "tiny".toList stsFiles stsContent
  manifest := fun _ f => if f = "Manifest.mpd".toList then .ok stsContent else .error .osError }

/-- **C93 fails for directories that are named like a session start.** The server looks for the start of the session in all
parts of the URL and takes the last one.  In a session that started at 1000 s the manifest of content with a representation
`sts_1` is served, but all its segments are answered with 410 (without a limit they are sent). -/
theorem C93_name_violation :
    Analysed "tiny".toList stsFiles stsContent stsSite.vodOf "tiny".toList ∧
    sentTo limited stsSite 1 ["livesim", "sts_1000", "sid_00000001", "tsbd_40", "tiny", "Manifest.mpd"] 1001 = some (200, none) ∧
    sentTo limited stsSite 1 ["livesim", "sts_1000", "sid_00000001", "tsbd_40", "tiny", "sts_1", "497.m4s"] 1001 =
      some (410, none) ∧
    sentTo tinySetup stsSite 1 ["livesim", "tsbd_40", "tiny", "sts_1", "497.m4s"] 1001 = some (200, none) := by
  refine ⟨analysed_after (by decide +kernel) (by decide +kernel) (by decide +kernel), ?_, ?_, ?_⟩ <;> decide +kernel

end Verif
