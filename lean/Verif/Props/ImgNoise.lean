import Verif.Model.ImgNoise
import Mathlib.Tactic

/-!
# C87: weighting of image measurements
-/

namespace Rovio.ImgNoise

/-- Specification: the variance of both components of a measurement with given settings, `counter` cameras away from the feature's own. -/
noncomputable def variance (cfg : Cfg) (counter : ℕ) : ℝ :=
  if cfg.direct then (if counter = 0 then cfg.int else cfg.int * cfg.gain) else cfg.pix

/-- Specification: the covariances of a history, each measurement weighted with the settings last refreshed. -/
noncomputable def expected : Cfg → List Event → List M2
  | _, [] => []
  | _, .refresh cfg :: es => expected cfg es
  | cfg, .measurement k :: es => ⟨variance cfg k, 0, 0, variance cfg k⟩ :: expected cfg es

lemma used_of (s : St) (h : s.R.b = 0 ∧ s.R.c = 0) : used s = ⟨s.R.a, 0, 0, s.R.d⟩ := by
  simp [used, jacNoise, M2.one, M2.mul, h.1, h.2]

/-- Whatever was measured or set before, each image measurement has independent components of the configured variance: that of pixel
errors without the direct method, else that of intensities, times the configured gain if the measurement is made in another camera
than the feature's own. -/
theorem C87_noise (cfg : Cfg) (es : List Event) : run (refresh cfg) es = expected cfg es := by
  have key : ∀ (es : List Event) (cfg : Cfg) (s : St), s.cfg = cfg → (cfg.direct = false → s.R = diag cfg.pix) → run s es = expected cfg es := by
    intro es
    induction es with
    | nil => intro cfg s _ _; rfl
    | cons e es ih =>
      intro cfg s hc hR
      cases e with
      | refresh c =>
        simp only [run, expected]
        refine ih c (refresh c) rfl ?_
        intro h; simp [refresh, h]
      | measurement k =>
        simp only [run, expected]
        have hcfg : (prepare s k).cfg = cfg := by
          unfold prepare; split_ifs <;> exact hc
        rw [ih cfg (prepare s k) hcfg]
        · congr 1
          cases hd : cfg.direct with
          | false =>
            have : prepare s k = s := by unfold prepare; rw [hc, hd]; simp
            rw [this, used_of s (by rw [hR hd]; simp [diag]), hR hd]
            simp [variance, hd, diag]
          | true =>
            have : (prepare s k).R = ⟨variance cfg k, 0, 0, variance cfg k⟩ := by
              unfold prepare; rw [hc, hd]; simp only [if_true]
              by_cases h0 : k = 0 <;> simp [variance, hd, h0, diag]
            rw [used_of _ (by rw [this]; simp), this]
        · intro hd
          have : prepare s k = s := by unfold prepare; rw [hc, hd]; simp
          rw [this]; exact hR hd
  exact key es cfg (refresh cfg) rfl (by intro h; simp [refresh, h])

/-- Finding: with reprojection errors the gain for other cameras has no effect. -/
theorem C87_finding_gain_ignored (cfg : Cfg) (h : cfg.direct = false) (g : ℝ) (ks : List ℕ) :
    run (refresh { cfg with gain := g }) (ks.map .measurement) = run (refresh cfg) (ks.map .measurement) := by
  rw [C87_noise, C87_noise]
  induction ks with
  | nil => rfl
  | cons k ks ih => simp only [List.map_cons, expected, ih]; simp [variance, h]

/-- A history with both kinds of measurement and a change of settings. -/
example : run (refresh ⟨true, 2, 400, 10⟩) [.measurement 0, .measurement 1, .measurement 0, .refresh ⟨false, 2, 400, 10⟩, .measurement 1] =
    [⟨400, 0, 0, 400⟩, ⟨4000, 0, 0, 4000⟩, ⟨400, 0, 0, 400⟩, ⟨2, 0, 0, 2⟩] := by
  rw [C87_noise]
  simp [expected, variance]
  norm_num

end Rovio.ImgNoise
