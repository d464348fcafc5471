import Verif.Model.Geom
import Mathlib.Tactic.Ring
import Mathlib.Tactic.Linarith
import Mathlib.Tactic.FieldSimp
import Mathlib.Tactic.NormNum
import Mathlib.Tactic.Positivity
import Mathlib.Tactic.LinearCombination

namespace Rovio

/-! ### Quaternion algebra -/

namespace Quat

@[simp] lemma mul_w (p q : Quat) : (p * q).w = p.w * q.w - p.x * q.x - p.y * q.y - p.z * q.z := rfl
@[simp] lemma mul_x (p q : Quat) : (p * q).x = p.w * q.x + p.x * q.w + p.y * q.z - p.z * q.y := rfl
@[simp] lemma mul_y (p q : Quat) : (p * q).y = p.w * q.y - p.x * q.z + p.y * q.w + p.z * q.x := rfl
@[simp] lemma mul_z (p q : Quat) : (p * q).z = p.w * q.z + p.x * q.y - p.y * q.x + p.z * q.w := rfl
@[simp] lemma inv_w (q : Quat) : q.inv.w = q.w := rfl
@[simp] lemma inv_x (q : Quat) : q.inv.x = -q.x := rfl
@[simp] lemma inv_y (q : Quat) : q.inv.y = -q.y := rfl
@[simp] lemma inv_z (q : Quat) : q.inv.z = -q.z := rfl
@[simp] lemma neg_w (q : Quat) : (-q).w = -q.w := rfl
@[simp] lemma neg_x (q : Quat) : (-q).x = -q.x := rfl
@[simp] lemma neg_y (q : Quat) : (-q).y = -q.y := rfl
@[simp] lemma neg_z (q : Quat) : (-q).z = -q.z := rfl
@[simp] lemma one_w : one.w = 1 := rfl
@[simp] lemma one_x : one.x = 0 := rfl
@[simp] lemma one_y : one.y = 0 := rfl
@[simp] lemma one_z : one.z = 0 := rfl

lemma mul_assoc' (p q r : Quat) : p * q * r = p * (q * r) := by
  ext <;> simp <;> ring

@[simp] lemma one_mul' (q : Quat) : one * q = q := by ext <;> simp
@[simp] lemma mul_one' (q : Quat) : q * one = q := by ext <;> simp

@[simp] lemma inv_inv' (q : Quat) : q.inv.inv = q := by ext <;> simp

lemma mul_inv_rev (p q : Quat) : (p * q).inv = q.inv * p.inv := by
  ext <;> simp <;> ring

lemma normSq_mul (p q : Quat) : (p * q).normSq = p.normSq * q.normSq := by
  simp [normSq]; ring

lemma normSq_inv (q : Quat) : q.inv.normSq = q.normSq := by simp [normSq]

lemma IsUnit.mul {p q : Quat} (hp : p.IsUnit) (hq : q.IsUnit) : (p * q).IsUnit := by
  unfold IsUnit at *; rw [normSq_mul, hp, hq, one_mul]

lemma IsUnit.inv {q : Quat} (hq : q.IsUnit) : q.inv.IsUnit := by
  unfold IsUnit at *; rw [normSq_inv, hq]

lemma isUnit_one : one.IsUnit := by simp [IsUnit, normSq]

lemma IsUnit.neg {q : Quat} (hq : q.IsUnit) : (-q).IsUnit := by
  unfold IsUnit normSq at *; simpa using hq

lemma mul_inv_self {q : Quat} (hq : q.IsUnit) : q * q.inv = one := by
  unfold IsUnit normSq at hq
  ext <;> simp
  · linear_combination hq
  all_goals ring

lemma inv_mul_self {q : Quat} (hq : q.IsUnit) : q.inv * q = one := by
  unfold IsUnit normSq at hq
  ext <;> simp
  · linear_combination hq
  all_goals ring

lemma rotate_mul (p q : Quat) (v : V3) : (p * q).rotate v = p.rotate (q.rotate v) := by
  ext <;> simp [rotate] <;> ring

@[simp] lemma rotate_one (v : V3) : one.rotate v = v := by ext <;> simp [rotate]

@[simp] lemma rotate_neg_quat (q : Quat) (v : V3) : (-q).rotate v = q.rotate v := by
  ext <;> simp [rotate]

lemma rotate_add (q : Quat) (u v : V3) : q.rotate (u + v) = q.rotate u + q.rotate v := by
  ext <;> simp [rotate] <;> ring

lemma rotate_sub (q : Quat) (u v : V3) : q.rotate (u - v) = q.rotate u - q.rotate v := by
  ext <;> simp [rotate] <;> ring

lemma rotate_neg (q : Quat) (u : V3) : q.rotate (-u) = -q.rotate u := by
  ext <;> simp [rotate] <;> ring

lemma rotate_smul (q : Quat) (s : ℝ) (u : V3) : q.rotate (s • u) = s • q.rotate u := by
  ext <;> simp [rotate] <;> ring

@[simp] lemma rotate_zero (q : Quat) : q.rotate 0 = 0 := by
  ext <;> simp [rotate]

lemma rotate_inv_rotate {q : Quat} (hq : q.IsUnit) (v : V3) : q.inv.rotate (q.rotate v) = v := by
  rw [← rotate_mul, inv_mul_self hq, rotate_one]

lemma rotate_rotate_inv {q : Quat} (hq : q.IsUnit) (v : V3) : q.rotate (q.inv.rotate v) = v := by
  rw [← rotate_mul, mul_inv_self hq, rotate_one]

lemma dot_rotate' (q : Quat) (u v : V3) :
    (q.rotate u).dot (q.rotate v) = q.normSq ^ 2 * u.dot v := by
  simp [rotate, V3.dot, normSq]; ring

lemma dot_rotate {q : Quat} (hq : q.IsUnit) (u v : V3) :
    (q.rotate u).dot (q.rotate v) = u.dot v := by
  rw [dot_rotate', hq]; ring

lemma normSq_rotate {q : Quat} (hq : q.IsUnit) (v : V3) : (q.rotate v).normSq = v.normSq := by
  have := dot_rotate hq v v
  simp only [V3.dot, V3.normSq] at *
  linarith [this, sq (q.rotate v).x]

lemma norm_rotate {q : Quat} (hq : q.IsUnit) (v : V3) : (q.rotate v).norm = v.norm := by
  simp [V3.norm, normSq_rotate hq]

lemma cross_rotate' (q : Quat) (u v : V3) :
    (q.rotate u).cross (q.rotate v) = q.normSq • q.rotate (u.cross v) := by
  ext <;> simp [rotate, normSq] <;> ring

lemma cross_rotate {q : Quat} (hq : q.IsUnit) (u v : V3) :
    (q.rotate u).cross (q.rotate v) = q.rotate (u.cross v) := by
  rw [cross_rotate', hq]; ext <;> simp

lemma mat_mulVec (q : Quat) (v : V3) : q.mat.mulVec v = q.rotate v := by
  ext <;> simp [mat, M3.mulVec, rotate, V3.dot]

lemma mat_inv (q : Quat) : q.inv.mat = q.mat.tr := by
  simp only [mat, M3.tr, M3.c1, M3.c2, M3.c3, inv]
  ext <;> simp <;> ring

end Quat

/-! ### Vector algebra -/

namespace V3

lemma normSq_eq_dot (v : V3) : v.normSq = v.dot v := by simp [normSq, dot]; ring

lemma normSq_nonneg (v : V3) : 0 ≤ v.normSq := by unfold normSq; positivity

lemma normSq_eq_zero {v : V3} : v.normSq = 0 ↔ v = 0 := by
  constructor
  · intro h
    unfold normSq at h
    have hx : v.x ^ 2 = 0 := by nlinarith [sq_nonneg v.x, sq_nonneg v.y, sq_nonneg v.z]
    have hy : v.y ^ 2 = 0 := by nlinarith [sq_nonneg v.x, sq_nonneg v.y, sq_nonneg v.z]
    have hz : v.z ^ 2 = 0 := by nlinarith [sq_nonneg v.x, sq_nonneg v.y, sq_nonneg v.z]
    ext
    · exact pow_eq_zero_iff (two_ne_zero) |>.mp hx
    · exact pow_eq_zero_iff (two_ne_zero) |>.mp hy
    · exact pow_eq_zero_iff (two_ne_zero) |>.mp hz
  · rintro rfl; simp [normSq]

lemma norm_nonneg (v : V3) : 0 ≤ v.norm := Real.sqrt_nonneg _

lemma norm_sq (v : V3) : v.norm ^ 2 = v.normSq := Real.sq_sqrt (normSq_nonneg v)

lemma norm_eq_zero {v : V3} : v.norm = 0 ↔ v = 0 := by
  rw [norm, Real.sqrt_eq_zero (normSq_nonneg v), normSq_eq_zero]

lemma norm_pos {v : V3} (h : v ≠ 0) : 0 < v.norm :=
  lt_of_le_of_ne (norm_nonneg v) (fun e => h (norm_eq_zero.mp e.symm))

@[simp] lemma norm_zero : (0 : V3).norm = 0 := norm_eq_zero.mpr rfl

lemma normSq_smul (s : ℝ) (v : V3) : (s • v).normSq = s ^ 2 * v.normSq := by
  simp [normSq]; ring

lemma norm_smul (s : ℝ) (v : V3) : (s • v).norm = |s| * v.norm := by
  rw [norm, normSq_smul, Real.sqrt_mul (sq_nonneg s), Real.sqrt_sq_eq_abs, norm]

lemma norm_normalized {v : V3} (h : v ≠ 0) : v.normalized.norm = 1 := by
  have := norm_pos h
  rw [normalized, norm_smul, abs_of_pos (by positivity)]
  field_simp

lemma norm_smul_normalized {v : V3} (h : v ≠ 0) : v.norm • v.normalized = v := by
  have := norm_pos h
  ext <;> simp [normalized] <;> field_simp

lemma ex_norm : ex.norm = 1 := by simp [ex, norm, normSq]
lemma ey_norm : ey.norm = 1 := by simp [ey, norm, normSq]
lemma ez_norm : ez.norm = 1 := by simp [ez, norm, normSq]

lemma skew_mulVec (v u : V3) : (M3.skew v).mulVec u = v.cross u := by
  ext <;> simp [M3.skew, M3.mulVec, dot] <;> ring

lemma dot_comm (u v : V3) : u.dot v = v.dot u := by simp [dot]; ring
lemma dot_add (u v w : V3) : u.dot (v + w) = u.dot v + u.dot w := by simp [dot]; ring
lemma add_dot (u v w : V3) : (u + v).dot w = u.dot w + v.dot w := by simp [dot]; ring
lemma dot_sub (u v w : V3) : u.dot (v - w) = u.dot v - u.dot w := by simp [dot]; ring
lemma sub_dot (u v w : V3) : (u - v).dot w = u.dot w - v.dot w := by simp [dot]; ring
lemma dot_smul (s : ℝ) (u v : V3) : u.dot (s • v) = s * u.dot v := by simp [dot]; ring
lemma smul_dot (s : ℝ) (u v : V3) : (s • u).dot v = s * u.dot v := by simp [dot]; ring
lemma dot_neg (u v : V3) : u.dot (-v) = -u.dot v := by simp [dot]; ring
lemma neg_dot (u v : V3) : (-u).dot v = -u.dot v := by simp [dot]; ring

lemma dot_self_of_norm {v : V3} (h : v.norm = 1) : v.dot v = 1 := by
  rw [← normSq_eq_dot, ← norm_sq, h]; norm_num

end V3

namespace M3
@[simp] lemma add_r1 (a b : M3) : (a + b).r1 = a.r1 + b.r1 := rfl
@[simp] lemma add_r2 (a b : M3) : (a + b).r2 = a.r2 + b.r2 := rfl
@[simp] lemma add_r3 (a b : M3) : (a + b).r3 = a.r3 + b.r3 := rfl
@[simp] lemma sub_r1 (a b : M3) : (a - b).r1 = a.r1 - b.r1 := rfl
@[simp] lemma sub_r2 (a b : M3) : (a - b).r2 = a.r2 - b.r2 := rfl
@[simp] lemma sub_r3 (a b : M3) : (a - b).r3 = a.r3 - b.r3 := rfl
@[simp] lemma neg_r1 (a : M3) : (-a).r1 = -a.r1 := rfl
@[simp] lemma neg_r2 (a : M3) : (-a).r2 = -a.r2 := rfl
@[simp] lemma neg_r3 (a : M3) : (-a).r3 = -a.r3 := rfl
@[simp] lemma smul_r1 (s : ℝ) (a : M3) : (s • a).r1 = s • a.r1 := rfl
@[simp] lemma smul_r2 (s : ℝ) (a : M3) : (s • a).r2 = s • a.r2 := rfl
@[simp] lemma smul_r3 (s : ℝ) (a : M3) : (s • a).r3 = s • a.r3 := rfl

lemma add_mulVec (a b : M3) (v : V3) : (a + b).mulVec v = a.mulVec v + b.mulVec v := by
  ext <;> simp [mulVec, V3.add_dot]
lemma sub_mulVec (a b : M3) (v : V3) : (a - b).mulVec v = a.mulVec v - b.mulVec v := by
  ext <;> simp [mulVec, V3.sub_dot]
lemma neg_mulVec (a : M3) (v : V3) : (-a).mulVec v = -a.mulVec v := by
  ext <;> simp [mulVec, V3.neg_dot]
lemma smul_mulVec (s : ℝ) (a : M3) (v : V3) : (s • a).mulVec v = s • a.mulVec v := by
  ext <;> simp [mulVec, V3.smul_dot]
lemma one_mulVec (v : V3) : one.mulVec v = v := by
  ext <;> simp [mulVec, one, V3.dot]
lemma outer_mulVec (a b v : V3) : (outer a b).mulVec v = b.dot v • a := by
  ext <;> simp [mulVec, outer, V3.dot] <;> ring
lemma mul_mulVec (a b : M3) (v : V3) : (a.mul b).mulVec v = a.mulVec (b.mulVec v) := by
  ext <;> simp [mulVec, mul, V3.dot, c1, c2, c3] <;> ring

/-- Two matrices acting the same on every vector are equal. -/
lemma ext_mulVec {a b : M3} (h : ∀ v, a.mulVec v = b.mulVec v) : a = b := by
  have hx := h V3.ex; have hy := h V3.ey; have hz := h V3.ez
  simp only [mulVec, V3.dot, V3.ex, V3.ey, V3.ez, V3.mk.injEq] at hx hy hz
  ext <;> linarith [hx.1, hx.2.1, hx.2.2, hy.1, hy.2.1, hy.2.2, hz.1, hz.2.1, hz.2.2]

end M3

namespace M2

lemma mulVec_inv_mul (A B : M2) (h : A.det ≠ 0) (v : V2) :
    A.mulVec ((A.inv.mul B).mulVec v) = B.mulVec v := by
  have h' : A.a * A.d - A.b * A.c ≠ 0 := h
  ext
  · simp only [mulVec, mul, inv]
    field_simp
    simp only [det]
    ring
  · simp only [mulVec, mul, inv]
    field_simp
    simp only [det]
    ring

end M2

/-! ### Derivatives of curves -/

/-- Componentwise derivative of a curve of 2-vectors. -/
structure HasDerivV2 (f : ℝ → V2) (f' : V2) (t : ℝ) : Prop where
  x : HasDerivAt (fun s => (f s).x) f'.x t
  y : HasDerivAt (fun s => (f s).y) f'.y t

/-- Componentwise derivative of a curve of 3-vectors. -/
structure HasDerivV3 (f : ℝ → V3) (f' : V3) (t : ℝ) : Prop where
  x : HasDerivAt (fun s => (f s).x) f'.x t
  y : HasDerivAt (fun s => (f s).y) f'.y t
  z : HasDerivAt (fun s => (f s).z) f'.z t

/-- Componentwise derivative of a curve of quaternions. -/
structure HasDerivQ (f : ℝ → Quat) (f' : Quat) (t : ℝ) : Prop where
  w : HasDerivAt (fun s => (f s).w) f'.w t
  x : HasDerivAt (fun s => (f s).x) f'.x t
  y : HasDerivAt (fun s => (f s).y) f'.y t
  z : HasDerivAt (fun s => (f s).z) f'.z t

namespace HasDerivV3

variable {f g : ℝ → V3} {f' g' : V3} {t : ℝ}

lemma const (v : V3) : HasDerivV3 (fun _ => v) 0 t :=
  ⟨hasDerivAt_const _ _, hasDerivAt_const _ _, hasDerivAt_const _ _⟩

lemma congr_deriv {f'' : V3} (h : HasDerivV3 f f' t) (e : f' = f'') : HasDerivV3 f f'' t := e ▸ h

lemma congr {f₁ : ℝ → V3} (h : HasDerivV3 f f' t) (e : ∀ s, f₁ s = f s) : HasDerivV3 f₁ f' t := by
  have : f₁ = f := funext e
  rw [this]; exact h

lemma add (hf : HasDerivV3 f f' t) (hg : HasDerivV3 g g' t) :
    HasDerivV3 (fun s => f s + g s) (f' + g') t :=
  ⟨hf.x.add hg.x, hf.y.add hg.y, hf.z.add hg.z⟩

lemma sub (hf : HasDerivV3 f f' t) (hg : HasDerivV3 g g' t) :
    HasDerivV3 (fun s => f s - g s) (f' - g') t :=
  ⟨hf.x.sub hg.x, hf.y.sub hg.y, hf.z.sub hg.z⟩

lemma neg (hf : HasDerivV3 f f' t) : HasDerivV3 (fun s => -f s) (-f') t :=
  ⟨hf.x.neg, hf.y.neg, hf.z.neg⟩

lemma const_smul (c : ℝ) (hf : HasDerivV3 f f' t) : HasDerivV3 (fun s => c • f s) (c • f') t :=
  ⟨hf.x.const_mul c, hf.y.const_mul c, hf.z.const_mul c⟩

lemma smul {c : ℝ → ℝ} {c' : ℝ} (hc : HasDerivAt c c' t) (hf : HasDerivV3 f f' t) :
    HasDerivV3 (fun s => c s • f s) (c' • f t + c t • f') t :=
  ⟨hc.mul hf.x, hc.mul hf.y, hc.mul hf.z⟩

lemma cross (hf : HasDerivV3 f f' t) (hg : HasDerivV3 g g' t) :
    HasDerivV3 (fun s => (f s).cross (g s)) (f'.cross (g t) + (f t).cross g') t :=
  ⟨((hf.y.mul hg.z).sub (hf.z.mul hg.y)).congr_deriv (by simp; ring),
   ((hf.z.mul hg.x).sub (hf.x.mul hg.z)).congr_deriv (by simp; ring),
   ((hf.x.mul hg.y).sub (hf.y.mul hg.x)).congr_deriv (by simp; ring)⟩

lemma dot (hf : HasDerivV3 f f' t) (hg : HasDerivV3 g g' t) :
    HasDerivAt (fun s => (f s).dot (g s)) (f'.dot (g t) + (f t).dot g') t :=
  (((hf.x.mul hg.x).add (hf.y.mul hg.y)).add (hf.z.mul hg.z)).congr_deriv (by simp [V3.dot]; ring)

lemma rotate_const (q : Quat) (hf : HasDerivV3 f f' t) :
    HasDerivV3 (fun s => q.rotate (f s)) (q.rotate f') t :=
  ⟨((hf.x.const_mul _).add (hf.y.const_mul _)).add (hf.z.const_mul _),
   ((hf.x.const_mul _).add (hf.y.const_mul _)).add (hf.z.const_mul _),
   ((hf.x.const_mul _).add (hf.y.const_mul _)).add (hf.z.const_mul _)⟩

/-- The straight line `v + t δ`. -/
lemma line (v δ : V3) : HasDerivV3 (fun s => v + s • δ) δ t := by
  have h : ∀ a b : ℝ, HasDerivAt (fun s => a + s * b) b t := fun a b =>
    (((hasDerivAt_id' t).mul_const b).const_add a).congr_deriv (by simp)
  exact ⟨h _ _, h _ _, h _ _⟩

lemma normSq (hf : HasDerivV3 f f' t) :
    HasDerivAt (fun s => (f s).normSq) (2 * (f t).dot f') t :=
  (((hf.x.pow 2).add (hf.y.pow 2)).add (hf.z.pow 2)).congr_deriv (by simp [V3.dot]; ring)

lemma norm (hf : HasDerivV3 f f' t) (h0 : f t ≠ 0) :
    HasDerivAt (fun s => (f s).norm) ((f t).dot f' / (f t).norm) t := by
  have hne : (f t).normSq ≠ 0 := fun e => h0 (V3.normSq_eq_zero.mp e)
  refine (hf.normSq.sqrt hne).congr_deriv ?_
  unfold V3.norm
  have : Real.sqrt (f t).normSq ≠ 0 := (V3.norm_pos h0).ne'
  field_simp

end HasDerivV3

namespace HasDerivQ

variable {p q : ℝ → Quat} {p' q' : Quat} {t : ℝ}

lemma const (a : Quat) : HasDerivQ (fun _ => a) ⟨0, 0, 0, 0⟩ t :=
  ⟨hasDerivAt_const _ _, hasDerivAt_const _ _, hasDerivAt_const _ _, hasDerivAt_const _ _⟩

lemma congr {f₁ f : ℝ → Quat} {f' : Quat} (h : HasDerivQ f f' t) (e : ∀ s, f₁ s = f s) :
    HasDerivQ f₁ f' t := by
  have : f₁ = f := funext e
  rw [this]; exact h

/-- Derivative of the action of a curve of quaternions on a curve of vectors (bilinear form). -/
def rotD (q q' : Quat) (v : V3) : V3 :=
  ⟨2 * (q.w * q'.w + q.x * q'.x - q.y * q'.y - q.z * q'.z) * v.x
      + 2 * (q'.x * q.y + q.x * q'.y - q'.w * q.z - q.w * q'.z) * v.y
      + 2 * (q'.x * q.z + q.x * q'.z + q'.w * q.y + q.w * q'.y) * v.z,
   2 * (q'.x * q.y + q.x * q'.y + q'.w * q.z + q.w * q'.z) * v.x
      + 2 * (q.w * q'.w - q.x * q'.x + q.y * q'.y - q.z * q'.z) * v.y
      + 2 * (q'.y * q.z + q.y * q'.z - q'.w * q.x - q.w * q'.x) * v.z,
   2 * (q'.x * q.z + q.x * q'.z - q'.w * q.y - q.w * q'.y) * v.x
      + 2 * (q'.y * q.z + q.y * q'.z + q'.w * q.x + q.w * q'.x) * v.y
      + 2 * (q.w * q'.w - q.x * q'.x - q.y * q'.y + q.z * q'.z) * v.z⟩

lemma rotate {v : ℝ → V3} {v' : V3} (hq : HasDerivQ q q' t) (hv : HasDerivV3 v v' t) :
    HasDerivV3 (fun s => (q s).rotate (v s)) (rotD (q t) q' (v t) + (q t).rotate v') t := by
  constructor
  · refine HasDerivAt.congr_deriv (HasDerivAt.add (HasDerivAt.add
      ((((hq.w.pow 2).add (hq.x.pow 2)).sub (hq.y.pow 2)).sub (hq.z.pow 2) |>.mul hv.x)
      ((((hq.x.mul hq.y).sub (hq.w.mul hq.z)).const_mul 2).mul hv.y))
      ((((hq.x.mul hq.z).add (hq.w.mul hq.y)).const_mul 2).mul hv.z)) ?_
    simp [rotD, Quat.rotate]; ring
  · refine HasDerivAt.congr_deriv (HasDerivAt.add (HasDerivAt.add
      ((((hq.x.mul hq.y).add (hq.w.mul hq.z)).const_mul 2).mul hv.x)
      ((((hq.w.pow 2).sub (hq.x.pow 2)).add (hq.y.pow 2)).sub (hq.z.pow 2) |>.mul hv.y))
      ((((hq.y.mul hq.z).sub (hq.w.mul hq.x)).const_mul 2).mul hv.z)) ?_
    simp [rotD, Quat.rotate]; ring
  · refine HasDerivAt.congr_deriv (HasDerivAt.add (HasDerivAt.add
      ((((hq.x.mul hq.z).sub (hq.w.mul hq.y)).const_mul 2).mul hv.x)
      ((((hq.y.mul hq.z).add (hq.w.mul hq.x)).const_mul 2).mul hv.y))
      ((((hq.w.pow 2).sub (hq.x.pow 2)).sub (hq.y.pow 2)).add (hq.z.pow 2) |>.mul hv.z)) ?_
    simp [rotD, Quat.rotate]; ring

end HasDerivQ

namespace Quat

/-- Closed form of the exponential along a line. -/
lemma exp_smul (δ : V3) (h : δ ≠ 0) (s : ℝ) :
    exp (s • δ) = ⟨Real.cos (s * (δ.norm / 2)), Real.sin (s * (δ.norm / 2)) * (δ.x / δ.norm),
      Real.sin (s * (δ.norm / 2)) * (δ.y / δ.norm), Real.sin (s * (δ.norm / 2)) * (δ.z / δ.norm)⟩ := by
  have hn := V3.norm_pos h
  have hsin : ∀ a : ℝ, Real.sinc ((s • δ).norm / 2) / 2 * (s * a) = Real.sin (s * (δ.norm / 2)) * (a / δ.norm) := by
    intro a
    rw [V3.norm_smul]
    rcases eq_or_ne s 0 with rfl | hs
    · simp
    · have e : |s| * δ.norm / 2 ≠ 0 := by
        have := abs_pos.mpr hs; positivity
      rw [Real.sinc_of_ne_zero e]
      rcases abs_cases s with ⟨e1, _⟩ | ⟨e1, _⟩ <;> rw [e1]
      · rw [show s * δ.norm / 2 = s * (δ.norm / 2) by ring]; field_simp
      · rw [show -s * δ.norm / 2 = -(s * (δ.norm / 2)) by ring, Real.sin_neg]; field_simp
  have hcos : Real.cos ((s • δ).norm / 2) = Real.cos (s * (δ.norm / 2)) := by
    rw [V3.norm_smul]
    rcases abs_cases s with ⟨e1, _⟩ | ⟨e1, _⟩ <;> rw [e1]
    · rw [show s * δ.norm / 2 = s * (δ.norm / 2) by ring]
    · rw [show -s * δ.norm / 2 = -(s * (δ.norm / 2)) by ring, Real.cos_neg]
  ext
  · exact hcos
  · exact hsin δ.x
  · exact hsin δ.y
  · exact hsin δ.z

@[simp] lemma exp_zero : exp 0 = one := by
  ext <;> simp [exp]

lemma isUnit_exp (v : V3) : (exp v).IsUnit := by
  rcases eq_or_ne v 0 with rfl | h
  · rw [exp_zero]; exact isUnit_one
  · have e : exp v = exp ((1:ℝ) • v) := by congr 1; ext <;> simp
    have hn := V3.norm_pos h
    rw [e, exp_smul v h]
    simp only [IsUnit, normSq]
    have h2 : (v.x / v.norm) ^ 2 + (v.y / v.norm) ^ 2 + (v.z / v.norm) ^ 2 = 1 := by
      have := V3.norm_sq v
      unfold V3.normSq at this
      field_simp
      linarith
    have h3 := Real.sin_sq_add_cos_sq (1 * (v.norm / 2))
    linear_combination h3 + (Real.sin (1 * (v.norm / 2))) ^ 2 * h2

lemma exp_neg (v : V3) : exp (-v) = (exp v).inv := by
  have : (-v).norm = v.norm := by simp [V3.norm, V3.normSq]
  ext <;> simp [exp, this]

/-- Derivative of the exponential at the origin. -/
lemma hasDeriv_exp_line (δ : V3) :
    HasDerivQ (fun s : ℝ => exp (s • δ)) ⟨0, δ.x / 2, δ.y / 2, δ.z / 2⟩ 0 := by
  rcases eq_or_ne δ 0 with rfl | h
  · have e : ∀ s : ℝ, exp (s • (0 : V3)) = one := fun s => by
      rw [show s • (0 : V3) = 0 by ext <;> simp]; exact exp_zero
    refine (HasDerivQ.congr (f := fun _ => one) ?_ e)
    simpa using HasDerivQ.const one
  · have hn := V3.norm_pos h
    refine HasDerivQ.congr (f := _) ?_ (exp_smul δ h)
    have h1 : HasDerivAt (fun s : ℝ => s * (δ.norm / 2)) (δ.norm / 2) 0 :=
      ((hasDerivAt_id' (0:ℝ)).mul_const _).congr_deriv (by simp)
    have hs : HasDerivAt (fun s : ℝ => Real.sin (s * (δ.norm / 2))) (δ.norm / 2) 0 :=
      h1.sin.congr_deriv (by simp)
    have hc : HasDerivAt (fun s : ℝ => Real.cos (s * (δ.norm / 2))) 0 0 :=
      h1.cos.congr_deriv (by simp)
    exact ⟨hc, (hs.mul_const _).congr_deriv (by field_simp),
      (hs.mul_const _).congr_deriv (by field_simp), (hs.mul_const _).congr_deriv (by field_simp)⟩

/-- Rotating by `exp(s δ)` has derivative `δ × ·` at `s = 0`. -/
lemma hasDeriv_exp_rotate (δ : V3) {v : ℝ → V3} {v' : V3} (hv : HasDerivV3 v v' 0) :
    HasDerivV3 (fun s : ℝ => (exp (s • δ)).rotate (v s)) (δ.cross (v 0) + v') 0 := by
  refine ((hasDeriv_exp_line δ).rotate hv).congr_deriv ?_
  have e : exp ((0:ℝ) • δ) = one := by
    rw [show (0:ℝ) • δ = 0 by ext <;> simp]; exact exp_zero
  rw [e, rotate_one]
  ext <;> simp [HasDerivQ.rotD] <;> ring

/-- The inverse rotation has derivative `-δ × ·`. -/
lemma hasDeriv_exp_inv_rotate (δ : V3) {v : ℝ → V3} {v' : V3} (hv : HasDerivV3 v v' 0) :
    HasDerivV3 (fun s : ℝ => (exp (s • δ)).inv.rotate (v s)) (-(δ.cross (v 0)) + v') 0 := by
  have := hasDeriv_exp_rotate (-δ) hv
  refine (this.congr ?_).congr_deriv ?_
  · intro s
    rw [← exp_neg, show -(s • δ) = s • (-δ) by ext <;> simp]
  · ext <;> simp <;> ring

end Quat

namespace HasDerivV2

variable {f : ℝ → V2} {f' : V2} {t : ℝ}

lemma congr_deriv {f'' : V2} (h : HasDerivV2 f f' t) (e : f' = f'') : HasDerivV2 f f'' t := e ▸ h

/-- The straight line. -/
lemma line (v δ : V2) : HasDerivV2 (fun s => v + s • δ) δ t := by
  have h : ∀ a b : ℝ, HasDerivAt (fun s => a + s * b) b t := fun a b =>
    (((hasDerivAt_id' t).mul_const b).const_add a).congr_deriv (by simp)
  exact ⟨h _ _, h _ _⟩

end HasDerivV2

/-- A normal vector element built from a unit quaternion has a unit vector. -/
lemma Nor.norm_vec {n : Nor} (h : n.q.IsUnit) : n.vec.norm = 1 := by
  rw [Nor.vec, Quat.norm_rotate h, V3.ez_norm]

/-- `getM()` is the derivative of the vector with respect to the tangent increment. -/
lemma Nor.hasDeriv_boxPlus {n : Nor} (h : n.q.IsUnit) (d : V2) :
    HasDerivV3 (fun s : ℝ => (n.boxPlus (s • d)).vec) (n.M d) 0 := by
  have e : ∀ s : ℝ, (n.boxPlus (s • d)).vec = (Quat.exp (s • n.N d)).rotate n.vec := by
    intro s
    simp only [Nor.boxPlus, Nor.vec, Quat.rotate_mul]
    congr 2
    ext <;> simp [Nor.N] <;> ring
  refine ((Quat.hasDeriv_exp_rotate (n.N d) (HasDerivV3.const n.vec)).congr e).congr_deriv ?_
  have c1 : n.perp1.cross n.vec = -n.perp2 := by
    rw [Nor.perp1, Nor.vec, Quat.cross_rotate h, Nor.perp2, ← Quat.rotate_neg]
    congr 1; ext <;> simp [V3.ex, V3.ey, V3.ez]
  have c2 : n.perp2.cross n.vec = n.perp1 := by
    rw [Nor.perp2, Nor.vec, Quat.cross_rotate h, Nor.perp1]
    congr 1; ext <;> simp [V3.ex, V3.ey, V3.ez]
  have c1x := congrArg V3.x c1; have c1y := congrArg V3.y c1; have c1z := congrArg V3.z c1
  have c2x := congrArg V3.x c2; have c2y := congrArg V3.y c2; have c2z := congrArg V3.z c2
  simp at c1x c1y c1z c2x c2y c2z
  ext <;> simp [Nor.N, Nor.M]
  · linear_combination d.x * c1x + d.y * c2x
  · linear_combination d.x * c1y + d.y * c2y
  · linear_combination d.x * c1z + d.y * c2z

end Rovio
