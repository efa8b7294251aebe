import Verif.Props.Xlink
import Verif.Props.MpdTimeline
import Verif.Props.UpDown
/-
C72: the manifest of a service whose segments get lost.
-/
namespace Verif
open Spec

/-- Specification: `up` is the last second before the down time that lasts until `now`. -/
def specUpBefore (a b : Nat) (up now : Int) : Prop :=
  up < now ∧ ¬specDown true a b (up % 60) ∧ ∀ s, up < s → s ≤ now → specDown true a b (s % 60)

theorem specUpBefore_unique {a b : Nat} {u v now : Int} (hu : specUpBefore a b u now) (hv : specUpBefore a b v now) :
    u = v := by
  rcases Int.lt_trichotomy u v with h | h | h
  · exact absurd (hu.2.2 v h (by have := hv.1; omega)) hv.2.1
  · exact h
  · exact absurd (hv.2.2 u h (by have := hu.1; omega)) hu.2.1

theorem lossLoop_down {d T now m : Int} : ∀ (fuel : Nat) (i : Int) (act : TimelineLoss),
    (∃ j, i ≤ j ∧ j < i + fuel ∧ j * T + d < m ∧ m ≤ (j + 1) * T) →
    ∃ j, j * T + d < m ∧ m ≤ (j + 1) * T ∧ lossLoop d T now m fuel i act = .last (now - m + (j * T + d))
  | 0, i, act, h => by obtain ⟨j, h1, h2, _⟩ := h; omega
  | fuel + 1, i, act, h => by
    rw [lossLoop]
    by_cases hi : i * T + d < m ∧ m ≤ (i + 1) * T
    · rw [if_pos hi]
      exact ⟨i, hi.1, hi.2, rfl⟩
    · rw [if_neg hi]
      obtain ⟨j, h1, h2, h3⟩ := h
      have : j ≠ i := by rintro rfl; exact hi h3
      exact lossLoop_down fuel (i + 1) _ ⟨j, by omega, by omega, h3⟩

open Classical in
theorem lossLoop_up {d T now m : Int} : ∀ (fuel : Nat) (i : Int) (act : TimelineLoss),
    (¬∃ j, i ≤ j ∧ j < i + fuel ∧ j * T + d < m ∧ m ≤ (j + 1) * T) →
    lossLoop d T now m fuel i act =
      (if ∃ j, i ≤ j ∧ j < i + fuel ∧ m = j * T + d then .announce else act)
  | 0, i, act, h => by
    rw [lossLoop, if_neg]
    rintro ⟨j, h1, h2, _⟩; omega
  | fuel + 1, i, act, h => by
    have hi : ¬(i * T + d < m ∧ m ≤ (i + 1) * T) := fun hi => h ⟨i, by omega, by omega, hi⟩
    rw [lossLoop, if_neg hi, lossLoop_up fuel (i + 1) _ (fun ⟨j, h1, h2, h3⟩ => h ⟨j, by omega, by omega, h3⟩)]
    by_cases h1 : ∃ j, i + 1 ≤ j ∧ j < i + 1 + fuel ∧ m = j * T + d
    · rw [if_pos h1, if_pos]
      obtain ⟨j, g1, g2, g3⟩ := h1
      exact ⟨j, by omega, by omega, g3⟩
    · rw [if_neg h1]
      by_cases h2 : m = i * T + d
      · rw [if_pos h2, if_pos ⟨i, by omega, by omega, h2⟩]
      · rw [if_neg h2, if_neg]
        rintro ⟨j, g1, g2, g3⟩
        have : j ≠ i := by rintro rfl; exact h2 g3
        exact h1 ⟨j, by omega, by omega, g3⟩

theorem timelineLoss_pattern {c : Cfg} {a b : Nat} {more : List Text} (hab : 0 < a + b) (hl : c.segtimelineloss = true)
    (hm : c.multiUrl = patternText true a b :: more) (now : Int) :
    timelineLoss c now = .ok (lossLoop a (a + b) now (now % 60) ((60 : Rat) / ((a : Int) + b : Int)).ceil.toNat 0 .plain) := by
  have hf : Int.fmod now 60 = now % 60 := Int.fmod_eq_emod_of_nonneg _ (by decide)
  unfold timelineLoss
  rw [hm, hl]
  simp only [parseUpDown_pattern, bind, Except.bind, if_true, pure, Except.pure]
  rw [if_neg (by omega), if_pos (by decide), hf]

/-- In the down time the manifest is the one of the last second before it. -/
theorem timelineLoss_down {c : Cfg} {a b : Nat} {more : List Text} (ha : 0 < a) (hl : c.segtimelineloss = true)
    (hm : c.multiUrl = patternText true a b :: more) {now : Int} (hd : specDown true a b (now % 60)) :
    ∃ up, specUpBefore a b up now ∧ timelineLoss c now = .ok (.last up) := by
  have hT : (0 : Int) < (a : Int) + b := by omega
  have hm0 : 0 ≤ now % 60 := Int.emod_nonneg _ (by decide)
  have hm1 : now % 60 < 60 := Int.emod_lt_of_pos _ (by decide)
  rw [timelineLoss_pattern (by omega) hl hm]
  have hex := (exists_cycle (d := a) hT (by omega) hm1).mpr (by simpa [specDown] using hd)
  obtain ⟨j, h1, h2, h3⟩ := lossLoop_down (now := now) _ 0 .plain hex
  have e := Int.emod_add_mul_ediv (now % 60 - 1) ((a : Int) + b)
  have e1 := Int.emod_nonneg (now % 60 - 1) (by omega : (a : Int) + b ≠ 0)
  have ej : (j + 1) * ((a : Int) + b) = j * (a + b) + (a + b) := by ring
  have hj0 : 0 ≤ j := by
    by_contra hneg
    have : (j + 1) * ((a : Int) + b) ≤ 0 := mul_nonpos_of_nonpos_of_nonneg (by omega) (by omega)
    have := hd.1
    omega
  have hjt : 0 ≤ j * ((a : Int) + b) := mul_nonneg hj0 hT.le
  refine ⟨now - now % 60 + (j * (a + b) + a), ⟨by omega, ?_, ?_⟩, by rw [h3]⟩
  · have hup : (now - now % 60 + (j * (a + b) + a)) % 60 = j * (a + b) + a := by omega
    rw [hup]
    rintro ⟨g1, g2⟩
    rw [if_pos rfl] at g2
    have : (j * ((a : Int) + b) + a - 1) % (a + b) = a - 1 := by
      rw [show j * ((a : Int) + b) + a - 1 = (a - 1) + (a + b) * j by ring, Int.add_mul_emod_self_left]
      exact Int.emod_eq_of_lt (by omega) (by omega)
    omega
  · intro s hs1 hs2
    have hs : s % 60 = now % 60 - (now - s) := by omega
    rw [hs]
    refine ⟨by omega, ?_⟩
    rw [if_pos rfl]
    have : (now % 60 - (now - s) - 1) % ((a : Int) + b) = now % 60 - (now - s) - 1 - j * (a + b) := by
      have e3 : now % 60 - (now - s) - 1 = (now % 60 - (now - s) - 1 - j * (a + b)) + ((a : Int) + b) * j := by ring
      have e4 : (now % 60 - (now - s) - 1 - j * ((a : Int) + b)) % (a + b) = now % 60 - (now - s) - 1 - j * (a + b) :=
        Int.emod_eq_of_lt (by omega) (by omega)
      rw [← e4]
      conv_lhs => rw [e3]
      rw [Int.add_mul_emod_self_left]
    omega

theorem timelineLoss_up {c : Cfg} {a b : Nat} {more : List Text} (ha : 0 < a + b) (hl : c.segtimelineloss = true)
    (hm : c.multiUrl = patternText true a b :: more) {now : Int} (hd : ¬specDown true a b (now % 60)) :
    (specLastUp a b (now % 60) → timelineLoss c now = .ok .announce) ∧
      (¬specLastUp a b (now % 60) → timelineLoss c now = .ok .plain) := by
  have hT : (0 : Int) < (a : Int) + b := by omega
  have hm1 : now % 60 < 60 := Int.emod_lt_of_pos _ (by decide)
  rw [timelineLoss_pattern ha hl hm, lossLoop_up]
  · constructor
    · intro h
      rw [if_pos ((exists_last hT (by omega) hm1).mpr h)]
    · intro h
      rw [if_neg (fun hx => h ((exists_last hT (by omega) hm1).mp hx))]
  · intro hx
    exact hd (by simpa [specDown] using (exists_cycle (d := a) hT (by omega) hm1).mp hx)

theorem checkXlink_none {c : Cfg} (hx : c.xlink ≤ 0) (had : c.insertAd ≤ 0) : checkXlink c = .ok () := by
  unfold checkXlink
  dsimp only
  rw [if_neg (by omega), if_neg (by omega), if_neg (by omega)]

theorem getMpdText_plain {c : Cfg} {e : MpdEnv} {now : Int} {files : Text → Py Xml} {vod : Xml}
    (hext : c.ext = ".mpd".toList) (hv : files c.filename = .ok vod) (hx : c.xlink ≤ 0) (had : c.insertAd ≤ 0) :
    getMpdText c e now files = lossText c e now vod := by
  have hne : ¬c.ext = ".period".toList := by rw [hext]; decide +kernel
  unfold getMpdText manifestName
  rw [if_neg hne, if_pos hext, checkXlink_none hx had]
  simp only [bind, Except.bind]
  rw [hv]
  simp only
  cases lossText c e now vod with
  | error x => rfl
  | ok t =>
    simp only
    rw [if_neg (by omega)]
    rfl

/-- **C72.** A service with timelines, whose segments get lost by a pattern that begins with an up time (`baseurl_uA_dB` with
`segtimelineloss`): in the down time the reply to the request for the manifest is exactly the manifest of the last second
before the down time, so that no new segment is announced. -/
theorem C72_down {c : Cfg} {e : MpdEnv} {now : Int} {files : Text → Py Xml} {vod : Xml} {t : Text}
    (hext : c.ext = ".mpd".toList) (hv : files c.filename = .ok vod) (hx : c.xlink ≤ 0) (had : c.insertAd ≤ 0)
    {a b : Nat} {more : List Text} (ha : 0 < a) (hl : c.segtimelineloss = true)
    (hm : c.multiUrl = patternText true a b :: more) (ht : generateText c e now vod = .ok t)
    (hd : specDown true a b (now % 60)) :
    ∃ up, specUpBefore a b up now ∧ getMpdText c e now files = generateText c e up vod := by
  obtain ⟨up, h1, h2⟩ := timelineLoss_down ha hl hm hd
  refine ⟨up, h1, ?_⟩
  rw [getMpdText_plain hext hv hx had]
  unfold lossText
  rw [ht, h2]
  rfl

/-- **C72.** During one down time the manifest does not change. -/
theorem C72_frozen {c : Cfg} {e : MpdEnv} {now now' : Int} {files : Text → Py Xml} {vod : Xml} {t t' : Text}
    (hext : c.ext = ".mpd".toList) (hv : files c.filename = .ok vod) (hx : c.xlink ≤ 0) (had : c.insertAd ≤ 0)
    {a b : Nat} {more : List Text} (ha : 0 < a) (hl : c.segtimelineloss = true)
    (hm : c.multiUrl = patternText true a b :: more) (ht : generateText c e now vod = .ok t)
    (ht' : generateText c e now' vod = .ok t') (hle : now ≤ now')
    (hd : ∀ s, now ≤ s → s ≤ now' → specDown true a b (s % 60)) :
    getMpdText c e now files = getMpdText c e now' files := by
  obtain ⟨u, h1, h2⟩ := C72_down hext hv hx had ha hl hm ht (hd now (by omega) hle)
  obtain ⟨u', h1', h2'⟩ := C72_down hext hv hx had ha hl hm ht' (hd now' hle (by omega))
  have : specUpBefore a b u now' := by
    refine ⟨by have := h1.1; omega, h1.2.1, fun s g1 g2 => ?_⟩
    by_cases hs : s ≤ now
    · exact h1.2.2 s g1 hs
    · exact hd s (by omega) g2
  rw [h2, h2', specUpBefore_unique this h1']

/-- **C72.** In the up time the reply is the manifest of the time of the request; in the last second of the up time the
coming message is announced in it. -/
theorem C72_up {c : Cfg} {e : MpdEnv} {now : Int} {files : Text → Py Xml} {vod : Xml} {t : Text}
    (hext : c.ext = ".mpd".toList) (hv : files c.filename = .ok vod) (hx : c.xlink ≤ 0) (had : c.insertAd ≤ 0)
    {a b : Nat} {more : List Text} (ha : 0 < a + b) (hl : c.segtimelineloss = true)
    (hm : c.multiUrl = patternText true a b :: more) (ht : generateText c e now vod = .ok t)
    (hd : ¬specDown true a b (now % 60)) :
    (¬specLastUp a b (now % 60) → getMpdText c e now files = .ok t) ∧
      (specLastUp a b (now % 60) → getMpdText c e now files = generateText { c with emsgLastSeg := true } e now vod) := by
  obtain ⟨h1, h2⟩ := timelineLoss_up ha hl hm hd
  rw [getMpdText_plain hext hv hx had]
  unfold lossText
  rw [ht]
  constructor
  · intro h
    rw [h2 h]; rfl
  · intro h
    rw [h1 h]; rfl

/-- **C72.** Without `segtimelineloss` the reply is the manifest of the time of the request. -/
theorem C72_plain {c : Cfg} {e : MpdEnv} {now : Int} {files : Text → Py Xml} {vod : Xml}
    (hext : c.ext = ".mpd".toList) (hv : files c.filename = .ok vod) (hx : c.xlink ≤ 0) (had : c.insertAd ≤ 0)
    (hl : c.segtimelineloss = false) : getMpdText c e now files = generateText c e now vod := by
  rw [getMpdText_plain hext hv hx had]
  unfold lossText timelineLoss
  rw [hl]
  cases generateText c e now vod with
  | error x => rfl
  | ok t => cases c.multiUrl <;> rfl

/-- The options of the examples: twenty seconds up, thirty down. -/
def lossParts : List String := ["segtimelineloss_1", "baseurl_u20_d30", "testpic", "Manifest.mpd"]

/-- C72: a service to which the theorems apply.  At 1000000 (the second 40 of its minute) it is down. -/
example : ∃ c x t, processUrl (fun _ => none) vod6 (lossParts.map String.toList) 1000000 = .ok c ∧
    generateXml c { sampleEnv with parts := lossParts.map String.toList, pos := 2 } 1000000
      (sampleVod [samplePeriod]) = .ok x ∧
    generateText c { sampleEnv with parts := lossParts.map String.toList, pos := 2 } 1000000
      (sampleVod [samplePeriod]) = .ok t ∧
    c.ext = ".mpd".toList ∧ c.filename = "Manifest.mpd".toList ∧ c.xlink ≤ 0 ∧ c.insertAd ≤ 0 ∧
    c.segtimelineloss = true ∧ c.multiUrl = [patternText true 20 30] := by
  obtain ⟨c, x, t, h1, h2, h3, h⟩ := linkCase_ok (parts := lossParts) (pos := 2) (now := 1000000)
    (P := fun c _ _ => decide (c.ext = ".mpd".toList ∧ c.filename = "Manifest.mpd".toList ∧ c.xlink ≤ 0 ∧ c.insertAd ≤ 0 ∧
    c.segtimelineloss = true ∧ c.multiUrl = [patternText true 20 30]))
    (by decide +kernel)
  exact ⟨c, x, t, h1, h2, h3, of_decide_eq_true h⟩

/-- C72: the seconds 1 to 20 of the minute are up and the seconds 21 to 50 are down; the last up second before 1000000 is 999980. -/
example : specDown true 20 30 (1000000 % 60) ∧ specUpBefore 20 30 999980 1000000 ∧ ¬specDown true 20 30 (999980 % 60) ∧
    specLastUp 20 30 (999980 % 60) ∧ ¬specDown true 20 30 (999979 % 60) ∧ ¬specLastUp 20 30 (999979 % 60) := by
  refine ⟨by unfold specDown; decide, ⟨by decide, by unfold specDown; decide, fun s h1 h2 => ?_⟩, by unfold specDown; decide,
    by unfold specLastUp; decide, by unfold specDown; decide, by unfold specLastUp; decide⟩
  refine ⟨by omega, ?_⟩
  rw [if_pos rfl]
  omega

/-- The reply for a URL of the test content, with timelines of 6 s segments. -/
def lossReply (parts : List String) (pos : Nat) (now : Int) : Py Text :=
  match processUrl (fun _ => none) vod6 (parts.map String.toList) now with
  | .error e => .error e
  | .ok c => getMpdText c { sampleEnv with
      parts := parts.map String.toList
      pos := pos
      video := some testTable
      audio := some testTable } now (oneFile (sampleVod [samplePeriod]))

/-- C72: the manifest of a working service is another one ten seconds later; that of the service with losses is frozen. -/
example :
    lossReply ["segtimeline_1", "tsbd_60", "testpic", "Manifest.mpd"] 2 999990 ≠
      lossReply ["segtimeline_1", "tsbd_60", "testpic", "Manifest.mpd"] 2 1000000 ∧
    lossReply ("segtimeline_1" :: lossParts) 3 999990 = lossReply ("segtimeline_1" :: lossParts) 3 1000000 ∧
    (lossReply ("segtimeline_1" :: lossParts) 3 1000000).toBool = true := by
  decide +kernel

end Verif
