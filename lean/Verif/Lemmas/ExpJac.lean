import Verif.Lemmas.Kinematics
import Verif.Model.ExpJac

/-!
# `Lmat` is the derivative of the exponential map
-/

namespace Rovio

open Spec

lemma Lmat_mulVec (a δ : V3) : (Lmat a).mulVec δ = δ + ((1 - Real.cos a.norm) / a.norm ^ 2) • a.cross δ +
    ((a.norm - Real.sin a.norm) / a.norm ^ 3) • a.cross (a.cross δ) := by
  unfold Lmat
  simp only [M3.add_mulVec, M3.smul_mulVec, M3.one_mulVec, M3.mul_mulVec, V3.skew_mulVec]

lemma Lmat_zero (δ : V3) : (Lmat 0).mulVec δ = δ := by
  rw [Lmat_mulVec]; ext <;> simp

/-- A product whose second factor vanishes at `t` is differentiable as soon as the first one is continuous. -/
lemma hasDerivAt_mul_of_zero {g h : ℝ → ℝ} {h' t : ℝ} (hg : ContinuousAt g t) (hh : HasDerivAt h h' t) (h0 : h t = 0) :
    HasDerivAt (fun s => g s * h s) (g t * h') t := by
  rw [hasDerivAt_iff_tendsto_slope] at hh ⊢
  have hg' : Filter.Tendsto g (nhdsWithin t {t}ᶜ) (nhds (g t)) := hg.tendsto.mono_left nhdsWithin_le_nhds
  refine (hg'.mul hh).congr fun s => ?_
  simp only [slope_def_field, h0]; ring

/-- The exponential of a curve passing through the origin. -/
lemma hasAngVel_exp_zero {v : ℝ → V3} {δ : V3} {t : ℝ} (hv : HasDerivV3 v δ t) (h0 : v t = 0) :
    HasAngVel (fun s => Quat.exp (v s)) δ t := by
  have hsq := hv.normSq
  rw [h0] at hsq
  have hsq0 : HasDerivAt (fun s => (v s).normSq) 0 t := hsq.congr_deriv (by simp [V3.dot])
  have hn0 : (v t).normSq = 0 := by rw [h0]; simp [V3.normSq]
  have hcont : ContinuousAt (fun s => (v s).norm) t := by
    unfold V3.norm
    exact Real.continuous_sqrt.continuousAt.comp hsq0.continuousAt
  have hcos : HasDerivAt (fun s => Real.cos ((v s).norm / 2)) 0 t := by
    rw [hasDerivAt_iff_isLittleO] at hsq0 ⊢
    refine Asymptotics.IsBigO.trans_isLittleO ?_ hsq0
    refine Asymptotics.IsBigO.of_bound 1 (Filter.Eventually.of_forall fun s => ?_)
    have e1 : (v t).norm = 0 := by rw [h0]; simp [V3.norm, V3.normSq]
    simp only [smul_zero, sub_zero, e1, zero_div, Real.cos_zero, hn0, Real.norm_eq_abs, one_mul]
    have h1 := Real.one_sub_sq_div_two_le_cos (x := (v s).norm / 2)
    have h2 := Real.cos_le_one ((v s).norm / 2)
    have h3 := V3.norm_sq (v s)
    have h4 := V3.normSq_nonneg (v s)
    rw [abs_of_nonneg h4, abs_of_nonpos (by linarith)]
    nlinarith
  have hg : ContinuousAt (fun s => Real.sinc ((v s).norm / 2) / 2) t := by
    have : ContinuousAt (fun s => Real.sinc ((v s).norm / 2)) t :=
      Real.continuous_sinc.continuousAt.comp (hcont.div_const 2)
    exact this.div_const 2
  have hgt : Real.sinc ((v t).norm / 2) / 2 = 1 / 2 := by
    rw [h0]; simp [V3.norm, V3.normSq]
  have hx := hasDerivAt_mul_of_zero hg hv.x (by rw [h0]; rfl)
  have hy := hasDerivAt_mul_of_zero hg hv.y (by rw [h0]; rfl)
  have hz := hasDerivAt_mul_of_zero hg hv.z (by rw [h0]; rfl)
  rw [hgt] at hx hy hz
  refine HasAngVel.ofQ (HasDerivQ.congr_deriv (q' := ⟨0, 1 / 2 * δ.x, 1 / 2 * δ.y, 1 / 2 * δ.z⟩) ⟨hcos, hx, hy, hz⟩ ?_)
  rw [h0, Quat.exp_zero]
  ext <;> simp [Quat.half] <;> ring

/-- The exponential of a curve not passing through the origin. -/
lemma hasAngVel_exp_ne {v : ℝ → V3} {δ : V3} {t : ℝ} (hv : HasDerivV3 v δ t) (h0 : v t ≠ 0) :
    HasAngVel (fun s => Quat.exp (v s)) ((Lmat (v t)).mulVec δ) t := by
  have hn := V3.norm_pos h0
  have hN := hv.norm h0
  have hhalf : HasDerivAt (fun s => (v s).norm / 2) ((v t).dot δ / (v t).norm / 2) t := hN.div_const 2
  have hw := hhalf.cos
  have hs : HasDerivAt (fun s => Real.sin ((v s).norm / 2) / (v s).norm)
      ((Real.cos ((v t).norm / 2) * ((v t).dot δ / (v t).norm / 2) * (v t).norm - Real.sin ((v t).norm / 2) * ((v t).dot δ / (v t).norm))
        / (v t).norm ^ 2) t := hhalf.sin.div hN hn.ne'
  have hev : ∀ᶠ s in nhds t, v s ≠ 0 := by
    have : ∀ᶠ s in nhds t, (v s).norm ≠ 0 := hN.continuousAt.eventually_ne hn.ne'
    exact this.mono fun s h h1 => h (V3.norm_eq_zero.mpr h1)
  have heq : ∀ᶠ s in nhds t, Real.sinc ((v s).norm / 2) / 2 = Real.sin ((v s).norm / 2) / (v s).norm := by
    refine hev.mono fun s h => ?_
    have := V3.norm_pos h
    rw [Real.sinc_of_ne_zero (by positivity)]
    field_simp
  have hx := (hs.mul hv.x).congr_of_eventuallyEq (heq.mono fun s h => show Real.sinc ((v s).norm / 2) / 2 * (v s).x = _ by rw [h]; rfl)
  have hy := (hs.mul hv.y).congr_of_eventuallyEq (heq.mono fun s h => show Real.sinc ((v s).norm / 2) / 2 * (v s).y = _ by rw [h]; rfl)
  have hz := (hs.mul hv.z).congr_of_eventuallyEq (heq.mono fun s h => show Real.sinc ((v s).norm / 2) / 2 * (v s).z = _ by rw [h]; rfl)
  have hexp : Quat.exp (v t) = ⟨Real.cos ((v t).norm / 2), Real.sin ((v t).norm / 2) / (v t).norm * (v t).x,
      Real.sin ((v t).norm / 2) / (v t).norm * (v t).y, Real.sin ((v t).norm / 2) / (v t).norm * (v t).z⟩ := by
    have := heq.self_of_nhds
    ext <;> simp only [Quat.exp, this]
  refine HasAngVel.ofQ (HasDerivQ.congr_deriv (q' := ⟨_, _, _, _⟩) ⟨hw, hx, hy, hz⟩ ?_)
  rw [hexp, Lmat_mulVec]
  have hc : Real.cos (v t).norm = 1 - 2 * Real.sin ((v t).norm / 2) ^ 2 := by
    have := Real.cos_sq_add_sin_sq ((v t).norm / 2)
    have h2 := Real.cos_two_mul ((v t).norm / 2)
    rw [show 2 * ((v t).norm / 2) = (v t).norm by ring] at h2
    linarith
  have hsn : Real.sin (v t).norm = 2 * Real.sin ((v t).norm / 2) * Real.cos ((v t).norm / 2) := by
    rw [← Real.sin_two_mul, show 2 * ((v t).norm / 2) = (v t).norm by ring]
  have h1 := Real.cos_sq_add_sin_sq ((v t).norm / 2)
  have h3 := V3.norm_sq (v t)
  rw [hc, hsn]
  unfold V3.normSq at h3
  generalize Real.sin ((v t).norm / 2) = S at *
  generalize Real.cos ((v t).norm / 2) = C at *
  generalize (v t).norm = θ at *
  generalize v t = a at *
  obtain ⟨ax, ay, az⟩ := a
  obtain ⟨dx, dy, dz⟩ := δ
  have key : ∀ a1 a2 a3 d1 d2 d3 : ℝ, θ ^ 2 = a1 ^ 2 + a2 ^ 2 + a3 ^ 2 →
      (C * ((a1 * d1 + a2 * d2 + a3 * d3) / θ / 2) * θ - S * ((a1 * d1 + a2 * d2 + a3 * d3) / θ)) / θ ^ 2 * a1 + S / θ * d1 =
      1 / 2 * (C * (d1 + (1 - (1 - 2 * S ^ 2)) / θ ^ 2 * (a2 * d3 - a3 * d2) +
          (θ - 2 * S * C) / θ ^ 3 * (a2 * (a1 * d2 - a2 * d1) - a3 * (a3 * d1 - a1 * d3))) +
        S / θ * ((d2 + (1 - (1 - 2 * S ^ 2)) / θ ^ 2 * (a3 * d1 - a1 * d3) +
            (θ - 2 * S * C) / θ ^ 3 * (a3 * (a2 * d3 - a3 * d2) - a1 * (a1 * d2 - a2 * d1))) * a3 -
          (d3 + (1 - (1 - 2 * S ^ 2)) / θ ^ 2 * (a1 * d2 - a2 * d1) +
            (θ - 2 * S * C) / θ ^ 3 * (a1 * (a3 * d1 - a1 * d3) - a2 * (a2 * d3 - a3 * d2))) * a2)) := by
    intro a1 a2 a3 d1 d2 d3 hθ
    have e1 : a2 * (a1 * d2 - a2 * d1) - a3 * (a3 * d1 - a1 * d3) = a1 * (a1 * d1 + a2 * d2 + a3 * d3) - θ ^ 2 * d1 := by rw [hθ]; ring
    have e2 : a3 * (a2 * d3 - a3 * d2) - a1 * (a1 * d2 - a2 * d1) = a2 * (a1 * d1 + a2 * d2 + a3 * d3) - θ ^ 2 * d2 := by rw [hθ]; ring
    have e3 : a1 * (a3 * d1 - a1 * d3) - a2 * (a2 * d3 - a3 * d2) = a3 * (a1 * d1 + a2 * d2 + a3 * d3) - θ ^ 2 * d3 := by rw [hθ]; ring
    have e4 : (a3 * d1 - a1 * d3) * a3 - (a1 * d2 - a2 * d1) * a2 = θ ^ 2 * d1 - a1 * (a1 * d1 + a2 * d2 + a3 * d3) := by rw [hθ]; ring
    rw [e1, e2, e3]
    generalize a1 * d1 + a2 * d2 + a3 * d3 = p at *
    linear_combination (norm := (field_simp; ring)) (-(S / θ * d1 - S * a1 * p / θ ^ 3)) * h1 - (S / θ * (2 * S ^ 2 / θ ^ 2) / 2) * e4
  simp only at h3
  have kx := key ax ay az dx dy dz h3
  have ky := key ay az ax dy dz dx (by linarith)
  have kz := key az ax ay dz dx dy (by linarith)
  ext
  · simp [Quat.half, V3.dot]
    field_simp
    ring
  · simp [Quat.half, V3.dot]
    linear_combination kx
  · simp [Quat.half, V3.dot]
    linear_combination ky
  · simp [Quat.half, V3.dot]
    linear_combination kz

/-- `Lmat` is the derivative of the exponential map along any curve, as an angular velocity. -/
lemma hasAngVel_exp {v : ℝ → V3} {δ : V3} {t : ℝ} (hv : HasDerivV3 v δ t) :
    HasAngVel (fun s => Quat.exp (v s)) ((Lmat (v t)).mulVec δ) t := by
  by_cases h : v t = 0
  · rw [h, Lmat_zero]; exact hasAngVel_exp_zero hv h
  · exact hasAngVel_exp_ne hv h

end Rovio
