import Verif.Props.StartStop
import Verif.Props.Modulo
/-
C55: publish time.
-/
namespace Verif

theorem updatePublishTime_grid {c c' : Cfg} {now : Int} {m : Rat} (ha : c.ast ≠ 0) (hm : c.mup = some m) (h0 : 0 < m)
    (h : c.updatePublishTime now = .ok c') :
    c'.publishTime = (((now : Rat) / m).floor : Rat) * m := by
  unfold Cfg.updatePublishTime at h
  rw [if_pos ha, hm] at h
  simp only at h
  rw [if_neg (ne_of_gt h0)] at h
  simp only [Except.ok.injEq] at h
  rw [← h]

/-- **C55 (configuration).** For every URL whose service does not start at the epoch, the publish
time computed at `now` is the last multiple of the update period at or before `now`. -/
theorem C55_grid {pf : Text → Option Rat} {vodOf : Text → Py VodCfg} {parts : List Text} {now : Int} {c : Cfg}
    (h : processUrl pf vodOf parts now = .ok c) (ha : c.ast ≠ 0) {m : Rat} (hm : c.mup = some m) (h0 : 0 < m) :
    (∃ k : Int, c.publishTime = k * m) ∧ c.publishTime ≤ now ∧ now < c.publishTime + m := by
  unfold processUrl at h
  obtain ⟨⟨st, rest⟩, _, h⟩ := Py.bind_ok.mp h
  obtain ⟨c1, c2, c3, c4, c5, c6, h1, h2, h3, h4, h5, h6, h7⟩ := finishUrl_steps.mp h
  obtain ⟨b, o, e7, ho⟩ := finalStep_eq st c6
  obtain ⟨p, e6⟩ := updatePublishTime_ok h6
  have hc : c = finalStep st c6 := h7
  have a5 : c5.ast = c.ast := by rw [hc, e7, e6]
  have m5 : c5.mup = c.mup := by rw [hc, e7, e6]
  have hp : c.publishTime = c6.publishTime := by rw [hc, e7]
  have hg := updatePublishTime_grid (by rw [a5]; exact ha) (by rw [m5]; exact hm) h0 h6
  rw [hp, hg]
  have f1 := Rat.floor_le ((now : Rat) / m)
  have f2 := Rat.lt_floor_add_one ((now : Rat) / m)
  rw [le_div_iff₀ h0] at f1
  have f2' : (now : Rat) < ((((now : Rat) / m).floor : Rat) + 1) * m := by
    rw [div_lt_iff₀ h0] at f2
    push_cast at f2
    exact f2
  refine ⟨⟨_, rfl⟩, f1, by linarith⟩

/-- **C55 (configuration).** It does not decrease from one request to a later one with the same update
period, and does not change within an update interval. -/
theorem C55_monotone {pf : Text → Option Rat} {vodOf : Text → Py VodCfg} {parts : List Text} {now now' : Int}
    {c c' : Cfg} (h : processUrl pf vodOf parts now = .ok c) (h' : processUrl pf vodOf parts now' = .ok c')
    (ha : c.ast ≠ 0) (ha' : c'.ast ≠ 0) {m : Rat} (hm : c.mup = some m) (hm' : c'.mup = some m) (h0 : 0 < m)
    (hn : now ≤ now') :
    c.publishTime ≤ c'.publishTime ∧ ((now' : Rat) < c.publishTime + m → c'.publishTime = c.publishTime) := by
  obtain ⟨⟨k, hk⟩, g2, g3⟩ := C55_grid h ha hm h0
  obtain ⟨⟨k', hk'⟩, g2', g3'⟩ := C55_grid h' ha' hm' h0
  have hnq : (now : Rat) ≤ now' := by exact_mod_cast hn
  have key : k ≤ k' := by
    have h1 : (k : Rat) * m < ((k' : Rat) + 1) * m := by rw [← hk]; linarith
    have h2 := lt_of_mul_lt_mul_right h1 h0.le
    have h3 : k < k' + 1 := by exact_mod_cast h2
    omega
  refine ⟨?_, fun hlt => ?_⟩
  · rw [hk, hk']
    exact mul_le_mul_of_nonneg_right (by exact_mod_cast key) h0.le
  · have h1 : (k' : Rat) * m < ((k : Rat) + 1) * m := by rw [← hk']; linarith
    have h2 := lt_of_mul_lt_mul_right h1 h0.le
    have h3 : k' < k + 1 := by exact_mod_cast h2
    have : k = k' := by omega
    rw [hk, hk', this]

/-- Manifest of a URL at a time. -/
def manifestAt (pf : Text → Option Rat) (vodOf : Text → Py VodCfg) (parts : List Text) (now : Int) : Py Mpd := do
  let c ← processUrl pf vodOf parts now
  let r ← getMpd c now
  return r.1

/-- **C55 (manifest).** The publish time in the manifest is the time of the request: it is not in the
future, does not decrease, and two manifests of a URL with the same publish time are the same.
Missing: it is not the time of the last change, see the violation. -/
theorem C55_manifest_partial {pf : Text → Option Rat} {vodOf : Text → Py VodCfg} {parts : List Text} {now now' : Int}
    {m m' : Mpd} (h : manifestAt pf vodOf parts now = .ok m) (h' : manifestAt pf vodOf parts now' = .ok m') :
    m.publishTime = now ∧ (now ≤ now' → m.publishTime ≤ m'.publishTime) ∧
      (m.publishTime = m'.publishTime → m = m') := by
  have key : ∀ {n : Int} {x : Mpd}, manifestAt pf vodOf parts n = .ok x → x.publishTime = n := by
    intro n x hx
    unfold manifestAt at hx
    simp only [Py.bind_ok, Py.pure_ok] at hx
    obtain ⟨c, _, r, hr, rfl⟩ := hx
    unfold getMpd at hr
    simp only [Py.bind_ok, Py.pure_ok] at hr
    obtain ⟨_, _, mm, hmm, l, _, rfl⟩ := hr
    unfold generateMpd at hmm
    simp only [Py.bind_ok, Py.pure_ok] at hmm
    obtain ⟨_, _, _, _, _, _, rfl⟩ := hmm
    rfl
  have e := key h
  have e' := key h'
  refine ⟨e, fun hn => by rw [e, e']; exact hn, fun hq => ?_⟩
  rw [e, e'] at hq
  rw [hq, h'] at h
  cases h
  rfl

/-- Options of the witness: start at 1000, update period 60. -/
def publishParts : List Text := ["start_1000".toList, "mup_60".toList, "c".toList, "Manifest.mpd".toList]

/-- **C55 (violation).** In the middle of an update interval the manifest has not changed, and the
configuration says so (publish time 1980 at both instants), but the manifest gets a new publish time. -/
theorem C55_change_violation :
    (processUrl examplePf exampleVod publishParts 2000).toOption.map (fun c => (c.publishTime, c.mup, c.ast)) =
      some (1980, some 60, 1000) ∧
    (processUrl examplePf exampleVod publishParts 2030).toOption.map (fun c => (c.publishTime, c.mup, c.ast)) =
      some (1980, some 60, 1000) ∧
    ∃ m m', manifestAt examplePf exampleVod publishParts 2000 = .ok m ∧
      manifestAt examplePf exampleVod publishParts 2030 = .ok m' ∧ m.publishTime ≠ m'.publishTime ∧
      { m with publishTime := 0 } = { m' with publishTime := 0 } := by
  refine ⟨by decide +kernel, by decide +kernel, ?_⟩
  have h : ∀ x : Py Mpd, x.isOk = true → ∃ m, x = .ok m := by
    intro x hx
    cases x with
    | error e => cases hx
    | ok m => exact ⟨m, rfl⟩
  obtain ⟨m, hm⟩ := h (manifestAt examplePf exampleVod publishParts 2000) (by decide +kernel)
  obtain ⟨m', hm'⟩ := h (manifestAt examplePf exampleVod publishParts 2030) (by decide +kernel)
  refine ⟨m, m', hm, hm', ?_, ?_⟩
  · rw [(C55_manifest_partial hm hm).1, (C55_manifest_partial hm' hm').1]
    decide
  · have hh : (manifestAt examplePf exampleVod publishParts 2000).toOption.map (fun m => { m with publishTime := 0 }) =
        (manifestAt examplePf exampleVod publishParts 2030).toOption.map (fun m => { m with publishTime := 0 }) := by
      decide +kernel
    rw [hm, hm'] at hh
    simpa [Except.toOption] using hh

end Verif
