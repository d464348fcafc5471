import Verif.Lemmas.MultiCamera
import Verif.Model.Outputs

/-!
# Calculus of curves of attitudes, bearings and states
-/

namespace Rovio

open Spec Distance

namespace Quat

/-- The pure quaternion `ω / 2`. -/
noncomputable def half (ω : V3) : Quat := ⟨0, ω.x / 2, ω.y / 2, ω.z / 2⟩

lemma mul_half {p : Quat} (hu : p.IsUnit) (ν : V3) : p * half ν = half (p.rotate ν) * p := by
  unfold IsUnit normSq at hu
  ext
  · simp only [half, rotate, mul_w]; linear_combination (p.x * ν.x + p.y * ν.y + p.z * ν.z) / 2 * hu
  · simp only [half, rotate, mul_x]; linear_combination -(p.w * ν.x + p.y * ν.z - p.z * ν.y) / 2 * hu
  · simp only [half, rotate, mul_y]; linear_combination -(p.w * ν.y + p.z * ν.x - p.x * ν.z) / 2 * hu
  · simp only [half, rotate, mul_z]; linear_combination -(p.w * ν.z + p.x * ν.y - p.y * ν.x) / 2 * hu

end Quat

namespace HasDerivQ

variable {p q : ℝ → Quat} {p' q' : Quat} {t : ℝ}

lemma congr_deriv {q'' : Quat} (h : HasDerivQ q q' t) (e : q' = q'') : HasDerivQ q q'' t := e ▸ h

lemma mul (hp : HasDerivQ p p' t) (hq : HasDerivQ q q' t) :
    HasDerivQ (fun s => p s * q s) ⟨(p' * q t).w + (p t * q').w, (p' * q t).x + (p t * q').x, (p' * q t).y + (p t * q').y,
      (p' * q t).z + (p t * q').z⟩ t := by
  constructor
  · exact ((((hp.w.mul hq.w).sub (hp.x.mul hq.x)).sub (hp.y.mul hq.y)).sub (hp.z.mul hq.z)).congr_deriv (by simp; ring)
  · exact ((((hp.w.mul hq.x).add (hp.x.mul hq.w)).add (hp.y.mul hq.z)).sub (hp.z.mul hq.y)).congr_deriv (by simp; ring)
  · exact ((((hp.w.mul hq.y).sub (hp.x.mul hq.z)).add (hp.y.mul hq.w)).add (hp.z.mul hq.x)).congr_deriv (by simp; ring)
  · exact ((((hp.w.mul hq.z).add (hp.x.mul hq.y)).sub (hp.y.mul hq.x)).add (hp.z.mul hq.w)).congr_deriv (by simp; ring)

lemma inv (hq : HasDerivQ q q' t) : HasDerivQ (fun s => (q s).inv) q'.inv t :=
  ⟨hq.w, hq.x.neg, hq.y.neg, hq.z.neg⟩

end HasDerivQ

namespace Spec.HasAngVel

variable {p q : ℝ → Quat} {ω ν : V3} {t : ℝ}

lemma toQ (h : HasAngVel q ω t) : HasDerivQ q (Quat.half ω * q t) t := ⟨h.w, h.x, h.y, h.z⟩

lemma ofQ (h : HasDerivQ q (Quat.half ω * q t) t) : HasAngVel q ω t := ⟨h.w, h.x, h.y, h.z⟩

lemma congr_deriv {ω' : V3} (h : HasAngVel q ω t) (e : ω = ω') : HasAngVel q ω' t := e ▸ h

lemma congr {q₁ : ℝ → Quat} (h : HasAngVel q ω t) (e : ∀ s, q₁ s = q s) : HasAngVel q₁ ω t := by
  have : q₁ = q := funext e
  rw [this]; exact h

lemma const (a : Quat) : HasAngVel (fun _ => a) 0 t :=
  ofQ ((HasDerivQ.const a).congr_deriv (by ext <;> simp [Quat.half]))

/-- A rotated curve. -/
lemma rotate {v : ℝ → V3} {v' : V3} (h : HasAngVel q ω t) (hv : HasDerivV3 v v' t) :
    HasDerivV3 (fun s => (q s).rotate (v s)) (ω.cross ((q t).rotate (v t)) + (q t).rotate v') t := by
  refine ((toQ h).rotate hv).congr_deriv ?_
  congr 1
  ext <;> simp [HasDerivQ.rotD, Quat.half, Quat.rotate] <;> ring

/-- A product of attitudes. -/
lemma mul (hp : HasAngVel p ω t) (hq : HasAngVel q ν t) (hu : (p t).IsUnit) :
    HasAngVel (fun s => p s * q s) (ω + (p t).rotate ν) t := by
  refine ofQ (((toQ hp).mul (toQ hq)).congr_deriv ?_)
  have h1 : p t * (Quat.half ν * q t) = Quat.half ((p t).rotate ν) * (p t * q t) := by
    have e : p t * Quat.half ν = Quat.half ((p t).rotate ν) * p t := Quat.mul_half hu ν
    rw [← Quat.mul_assoc', e, Quat.mul_assoc']
  have h2 : Quat.half ω * p t * q t = Quat.half ω * (p t * q t) := Quat.mul_assoc' _ _ _
  rw [h1, h2]
  ext <;> simp [Quat.half] <;> ring

/-- The inverse attitude. -/
lemma inv (hq : HasAngVel q ω t) (hu : (q t).IsUnit) : HasAngVel (fun s => (q s).inv) (-((q t).inv.rotate ω)) t := by
  refine ofQ ((toQ hq).inv.congr_deriv ?_)
  have h := Quat.mul_half hu.inv (-ω)
  rw [Quat.rotate_neg] at h
  rw [← h, Quat.mul_inv_rev]
  congr 1
  ext <;> simp [Quat.half] <;> ring

/-- The left increment along a line. -/
lemma boxPlus (a : Quat) (δ : V3) : HasAngVel (fun s : ℝ => a.boxPlus (s • δ)) δ 0 := by
  refine ofQ (((Quat.hasDeriv_exp_line δ).mul (HasDerivQ.const a)).congr_deriv ?_)
  have e : a.boxPlus ((0:ℝ) • δ) = a := by
    unfold Quat.boxPlus
    rw [show (0:ℝ) • δ = 0 by ext <;> simp, Quat.exp_zero, Quat.one_mul']
  rw [e]
  ext <;> simp [Quat.half]

end Spec.HasAngVel

lemma Quat.boxPlus_zero (a : Quat) (δ : V3) : a.boxPlus ((0:ℝ) • δ) = a := by
  unfold Quat.boxPlus
  rw [show (0:ℝ) • δ = 0 by ext <;> simp, Quat.exp_zero, Quat.one_mul']

lemma Quat.IsUnit.boxPlus {a : Quat} (h : a.IsUnit) (v : V3) : (a.boxPlus v).IsUnit := (Quat.isUnit_exp v).mul h

namespace HasDerivV3

variable {f : ℝ → V3} {f' : V3} {t : ℝ}

/-- Derivative of the normalised vector. -/
lemma normalized (hf : HasDerivV3 f f' t) (h0 : f t ≠ 0) :
    HasDerivV3 (fun s => (f s).normalized) ((1 / (f t).norm) • (f' - (f t).normalized.dot f' • (f t).normalized)) t := by
  have hn := V3.norm_pos h0
  have h1 : HasDerivAt (fun s => 1 / (f s).norm) (-((f t).dot f' / (f t).norm) / (f t).norm ^ 2) t := by
    have := (hf.norm h0).inv hn.ne'
    simp only [one_div]; exact this
  refine (HasDerivV3.smul h1 hf).congr_deriv ?_
  ext <;> simp [V3.normalized, V3.dot] <;> field_simp <;> ring

lemma congr_of_eventuallyEq {f₁ : ℝ → V3} (h : HasDerivV3 f f' t) (e : ∀ᶠ s in nhds t, f₁ s = f s) : HasDerivV3 f₁ f' t :=
  ⟨h.x.congr_of_eventuallyEq (e.mono fun s hs => by simp only [hs]), h.y.congr_of_eventuallyEq (e.mono fun s hs => by simp only [hs]),
   h.z.congr_of_eventuallyEq (e.mono fun s hs => by simp only [hs])⟩

end HasDerivV3

namespace Nor

variable {m : Nor}

lemma perp1_perp1 (h : m.q.IsUnit) : m.perp1.dot m.perp1 = 1 := by
  rw [perp1, Quat.dot_rotate h]; simp [V3.ex, V3.dot]

lemma perp2_perp2 (h : m.q.IsUnit) : m.perp2.dot m.perp2 = 1 := by
  rw [perp2, Quat.dot_rotate h]; simp [V3.ey, V3.dot]

lemma perp1_perp2 (h : m.q.IsUnit) : m.perp1.dot m.perp2 = 0 := by
  rw [perp1, perp2, Quat.dot_rotate h]; simp [V3.ex, V3.ey, V3.dot]

lemma vec_perp1 (h : m.q.IsUnit) : m.vec.dot m.perp1 = 0 := by
  rw [perp1, vec, Quat.dot_rotate h]; simp [V3.ex, V3.ez, V3.dot]

lemma vec_perp2 (h : m.q.IsUnit) : m.vec.dot m.perp2 = 0 := by
  rw [perp2, vec, Quat.dot_rotate h]; simp [V3.ey, V3.ez, V3.dot]

/-- The frame is complete. -/
lemma frame (h : m.q.IsUnit) (v : V3) : v = m.perp1.dot v • m.perp1 + m.perp2.dot v • m.perp2 + m.vec.dot v • m.vec := by
  have e : ∀ w : V3, w = w.x • V3.ex + w.y • V3.ey + w.z • V3.ez := fun w => by ext <;> simp [V3.ex, V3.ey, V3.ez]
  have hv := e (m.q.inv.rotate v)
  have hv2 := congrArg m.q.rotate hv
  rw [Quat.rotate_rotate_inv h, Quat.rotate_add, Quat.rotate_add, Quat.rotate_smul, Quat.rotate_smul, Quat.rotate_smul] at hv2
  have hx : ∀ a : V3, (m.q.rotate a).dot v = a.dot (m.q.inv.rotate v) := fun a => by
    conv_lhs => rw [← Quat.rotate_rotate_inv h v]
    rw [Quat.dot_rotate h]
  rw [perp1, perp2, vec, hx, hx, hx]
  simp only [V3.ex, V3.ey, V3.ez, V3.dot, one_mul, zero_mul, add_zero, zero_add] at hv2 ⊢
  exact hv2

/-- `M Mᵀ` is the projection on the tangent plane. -/
lemma M_Mt (h : m.q.IsUnit) (v : V3) : m.M (m.Mt v) = v - m.vec.dot v • m.vec := by
  have := frame h v
  have hx := congrArg V3.x this
  have hy := congrArg V3.y this
  have hz := congrArg V3.z this
  ext
  · simp [M, Mt, V3.neg_dot] at hx ⊢; linarith
  · simp [M, Mt, V3.neg_dot] at hy ⊢; linarith
  · simp [M, Mt, V3.neg_dot] at hz ⊢; linarith

/-- `Mᵀ M` is the identity. -/
lemma Mt_M (h : m.q.IsUnit) (u : V2) : m.Mt (m.M u) = u := by
  have h1 := perp1_perp1 h
  have h2 := perp2_perp2 h
  have h3 := perp1_perp2 h
  ext
  · simp only [M, Mt, V3.neg_dot, V3.dot_add, V3.dot_smul, V3.dot_neg, V3.dot_comm m.perp2 m.perp1, h2, h3]; ring
  · simp only [M, Mt, V3.neg_dot, V3.dot_add, V3.dot_smul, V3.dot_neg, h1, h3]; ring

lemma vec_M (h : m.q.IsUnit) (u : V2) : m.vec.dot (m.M u) = 0 := by
  simp only [M, V3.dot_add, V3.dot_smul, V3.dot_neg, vec_perp1 h, vec_perp2 h]; ring

end Nor

end Rovio
