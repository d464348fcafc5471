import Verif.Model.Ypr
import Verif.Spec.Ypr
import Verif.Lemmas.Geom

/-!
# C108: yaw, pitch and roll
-/

namespace Rovio.Ypr

open Rovio.Spec

/-! ### Lemmas -/

lemma atan2_cos_sin {x y c : ℝ} (hc : 0 < c) (h : x ^ 2 + y ^ 2 = c ^ 2) : Real.cos (atan2 y x) = x / c ∧ Real.sin (atan2 y x) = y / c := by
  have hn : ‖(⟨x, y⟩ : ℂ)‖ = c := by
    rw [Complex.norm_def, Complex.normSq_mk, ← sq, ← sq, h]
    exact Real.sqrt_sq hc.le
  have h0 : (⟨x, y⟩ : ℂ) ≠ 0 := by
    intro e
    rw [e, norm_zero] at hn
    exact hc.ne hn
  unfold atan2
  rw [Complex.cos_arg h0, Complex.sin_arg, hn]
  exact ⟨rfl, rfl⟩

lemma atan2_deriv {a b : ℝ → ℝ} {a' b' t : ℝ} (ha : HasDerivAt a a' t) (hb : HasDerivAt b b' t) (h : 0 < a t ∨ b t ≠ 0) :
    HasDerivAt (fun s => atan2 (b s) (a s)) ((a t * b' - b t * a') / (a t ^ 2 + b t ^ 2)) t := by
  have hf : HasDerivAt (fun s => (⟨a s, b s⟩ : ℂ)) ⟨a', b'⟩ t := by
    have h1 := ha.ofReal_comp.add (hb.ofReal_comp.mul_const Complex.I)
    have e : (fun s => (⟨a s, b s⟩ : ℂ)) = fun s => (a s : ℂ) + b s * Complex.I := by
      funext s
      apply Complex.ext <;> simp
    have e' : (⟨a', b'⟩ : ℂ) = a' + b' * Complex.I := by apply Complex.ext <;> simp
    rw [e, e']
    exact h1
  have hl := hf.clog_real (Complex.mem_slitPlane_iff.2 h)
  have him := (Complex.imCLM.hasFDerivAt.comp_hasDerivAt t hl)
  have e : (fun s => atan2 (b s) (a s)) = (Complex.imCLM ∘ fun s => Complex.log ⟨a s, b s⟩) := by
    funext s
    simp [atan2, Complex.log_im]
  rw [e]
  refine him.congr_deriv ?_
  have hne : a t * a t + b t * b t ≠ 0 := by
    rcases h with h | h
    · have := mul_self_nonneg (b t); positivity
    · have := mul_self_nonneg (a t); have := mul_self_pos.2 h; positivity
  show ((⟨a', b'⟩ : ℂ) / ⟨a t, b t⟩).im = _
  rw [Complex.div_im, Complex.normSq_mk, sq, sq]
  field_simp

variable {q : Quat}

/-- The cofactors of a rotation matrix are its entries, its rows and columns are orthonormal. -/
structure Rot (m : M3) : Prop where
  c00 : m.r2.y * m.r3.z - m.r2.z * m.r3.y = m.r1.x
  c01 : m.r2.z * m.r3.x - m.r2.x * m.r3.z = m.r1.y
  c02 : m.r2.x * m.r3.y - m.r2.y * m.r3.x = m.r1.z
  c10 : m.r1.z * m.r3.y - m.r1.y * m.r3.z = m.r2.x
  c11 : m.r1.x * m.r3.z - m.r1.z * m.r3.x = m.r2.y
  c12 : m.r1.y * m.r3.x - m.r1.x * m.r3.y = m.r2.z
  row : m.r3.x ^ 2 + m.r3.y ^ 2 + m.r3.z ^ 2 = 1
  col : m.r1.x ^ 2 + m.r2.x ^ 2 + m.r3.x ^ 2 = 1
  o13 : m.r1.x * m.r3.x + m.r1.y * m.r3.y + m.r1.z * m.r3.z = 0
  o23 : m.r2.x * m.r3.x + m.r2.y * m.r3.y + m.r2.z * m.r3.z = 0

lemma rot_mat (hq : q.IsUnit) : Rot q.mat := by
  have h : q.w ^ 2 + q.x ^ 2 + q.y ^ 2 + q.z ^ 2 = 1 := hq
  constructor <;> simp only [Quat.mat]
  · linear_combination (q.w ^ 2 + q.x ^ 2 - q.y ^ 2 - q.z ^ 2) * h
  · linear_combination (2 * (q.x * q.y - q.w * q.z)) * h
  · linear_combination (2 * (q.x * q.z + q.w * q.y)) * h
  · linear_combination (2 * (q.x * q.y + q.w * q.z)) * h
  · linear_combination (q.w ^ 2 - q.x ^ 2 + q.y ^ 2 - q.z ^ 2) * h
  · linear_combination (2 * (q.y * q.z - q.w * q.x)) * h
  · linear_combination (q.w ^ 2 + q.x ^ 2 + q.y ^ 2 + q.z ^ 2 + 1) * h
  · linear_combination (q.w ^ 2 + q.x ^ 2 + q.y ^ 2 + q.z ^ 2 + 1) * h
  · ring
  · ring

lemma not_vertical (hq : q.IsUnit) (hv : ¬ Vertical q) : q.mat.r3.x ^ 2 < 1 := by
  have h := (rot_mat hq).col
  by_contra hc
  push Not at hc
  have h1 : q.mat.r1.x = 0 := by nlinarith [sq_nonneg q.mat.r1.x, sq_nonneg q.mat.r2.x]
  have h2 : q.mat.r2.x = 0 := by nlinarith [sq_nonneg q.mat.r1.x, sq_nonneg q.mat.r2.x]
  have h3 : (q.mat.r3.x - 1) * (q.mat.r3.x + 1) = 0 := by nlinarith
  apply hv
  have e : q.rotate ⟨1, 0, 0⟩ = ⟨q.mat.r1.x, q.mat.r2.x, q.mat.r3.x⟩ := by ext <;> simp [Quat.rotate, Quat.mat]
  unfold Vertical
  rw [e, h1, h2]
  rcases mul_eq_zero.1 h3 with h | h
  · left; rw [sub_eq_zero.1 h]
  · right; rw [eq_neg_of_add_eq_zero_left h]

/-- Sines and cosines of the angles. -/
lemma angles (hq : q.IsUnit) (hv : ¬ Vertical q) : ∃ c, 0 < c ∧ c ^ 2 = 1 - q.mat.r3.x ^ 2 ∧
    Real.cos (evalTransform q).x = q.mat.r1.x / c ∧ Real.sin (evalTransform q).x = q.mat.r2.x / c ∧
    Real.cos (evalTransform q).y = c ∧ Real.sin (evalTransform q).y = -q.mat.r3.x ∧
    Real.cos (evalTransform q).z = q.mat.r3.z / c ∧ Real.sin (evalTransform q).z = q.mat.r3.y / c := by
  have hR := rot_mat hq
  have hs := not_vertical hq hv
  have hc : 0 < Real.sqrt (1 - q.mat.r3.x ^ 2) := Real.sqrt_pos.2 (by linarith)
  have hc2 : Real.sqrt (1 - q.mat.r3.x ^ 2) ^ 2 = 1 - q.mat.r3.x ^ 2 := Real.sq_sqrt (by linarith)
  obtain ⟨h1, h2⟩ := atan2_cos_sin (x := q.mat.r1.x) (y := q.mat.r2.x) hc (by rw [hc2]; linarith [hR.col])
  obtain ⟨h3, h4⟩ := atan2_cos_sin (x := q.mat.r3.z) (y := q.mat.r3.y) hc (by rw [hc2]; linarith [hR.row])
  refine ⟨_, hc, hc2, h1, h2, ?_, ?_, h3, h4⟩
  · show Real.cos (Real.arcsin _) = _
    rw [Real.cos_arcsin, neg_sq]
  · have h5 : |q.mat.r3.x| ≤ 1 := abs_le_one_iff_mul_self_le_one.2 (by nlinarith)
    exact Real.sin_arcsin (by linarith [(abs_le.1 h5).2]) (by linarith [(abs_le.1 h5).1])

/-! ### Properties -/

/-- **C108.** Unless the first axis is vertical, the reported yaw, pitch and roll are in their ranges and are the angles of the attitude: turning by roll, pitch and yaw in this
order is the rotation. -/
theorem C108_angles (hq : q.IsUnit) (hv : ¬ Vertical q) : YprRange (evalTransform q) ∧ ∀ v, q.rotate v = fromYpr (evalTransform q) v := by
  have hR := rot_mat hq
  have hs := not_vertical hq hv
  obtain ⟨c, hc, hc2, h1, h2, h3, h4, h5, h6⟩ := angles hq hv
  refine ⟨⟨⟨Complex.neg_pi_lt_arg _, Complex.arg_le_pi _⟩, ⟨?_, ?_⟩, ⟨Complex.neg_pi_lt_arg _, Complex.arg_le_pi _⟩⟩, fun v => ?_⟩
  · exact Real.neg_pi_div_two_lt_arcsin.2 (by nlinarith)
  · exact Real.arcsin_lt_pi_div_two.2 (by nlinarith)
  rw [← Quat.mat_mulVec]
  simp only [fromYpr, rotX, rotY, rotZ, h1, h2, h3, h4, h5, h6, M3.mulVec, V3.dot]
  obtain ⟨c00, c01, c02, c10, c11, c12, row, col, o13, o23⟩ := hR
  generalize q.mat.r1.x = a at *
  generalize q.mat.r1.y = b at *
  generalize q.mat.r1.z = d at *
  generalize q.mat.r2.x = e at *
  generalize q.mat.r2.y = f at *
  generalize q.mat.r2.z = g at *
  generalize q.mat.r3.x = h at *
  generalize q.mat.r3.y = k at *
  generalize q.mat.r3.z = l at *
  have hc0 := hc.ne'
  have hb : b = (-a * h * k - e * l) / c ^ 2 := by rw [eq_div_iff (pow_ne_zero 2 hc0), hc2]; linear_combination -c01 - h * c12
  have hd : d = (-a * h * l + e * k) / c ^ 2 := by rw [eq_div_iff (pow_ne_zero 2 hc0), hc2]; linear_combination -c02 + h * c11
  have hf : f = (-e * h * k + a * l) / c ^ 2 := by rw [eq_div_iff (pow_ne_zero 2 hc0), hc2]; linear_combination -c11 + h * c02
  have hg : g = (-e * h * l - a * k) / c ^ 2 := by rw [eq_div_iff (pow_ne_zero 2 hc0), hc2]; linear_combination -c12 - h * c01
  ext
  · dsimp only
    rw [hb, hd]
    field_simp
    ring
  · dsimp only
    rw [hf, hg]
    field_simp
    ring
  · dsimp only
    field_simp
    ring

lemma cos_sin_inj {a b : ℝ} (ha : -Real.pi < a ∧ a ≤ Real.pi) (hb : -Real.pi < b ∧ b ≤ Real.pi) (hc : Real.cos a = Real.cos b) (hs : Real.sin a = Real.sin b) : a = b := by
  have h := Real.Angle.cos_sin_inj hc hs
  have h1 := Real.Angle.toReal_coe_eq_self_iff.2 ha
  have h2 := Real.Angle.toReal_coe_eq_self_iff.2 hb
  rw [← h1, ← h2, h]

/-- **C108.** They are the only angles in these ranges that give the attitude. -/
theorem C108_unique (hq : q.IsUnit) (e : V3) (he : YprRange e) (h : ∀ v, q.rotate v = fromYpr e v) : evalTransform q = e := by
  obtain ⟨hx, hy, hz⟩ := he
  have hc : 0 < Real.cos e.y := Real.cos_pos_of_mem_Ioo hy
  have h1 := h ⟨1, 0, 0⟩
  have h2 := h ⟨0, 1, 0⟩
  have h3 := h ⟨0, 0, 1⟩
  rw [← Quat.mat_mulVec] at h1 h2 h3
  simp only [fromYpr, rotX, rotY, rotZ, M3.mulVec, V3.dot, V3.mk.injEq, mul_one, mul_zero, add_zero, zero_add, sub_zero, zero_sub] at h1 h2 h3
  obtain ⟨a1, a2, a3⟩ := h1
  obtain ⟨b1, b2, b3⟩ := h2
  obtain ⟨d1, d2, d3⟩ := h3
  have hv : ¬ Vertical q := by
    have e1 : q.rotate ⟨1, 0, 0⟩ = ⟨q.mat.r1.x, q.mat.r2.x, q.mat.r3.x⟩ := by ext <;> simp [Quat.rotate, Quat.mat]
    unfold Vertical
    rw [e1, a1, a2]
    intro hv
    have h0 : Real.cos e.x * Real.cos e.y = 0 ∧ Real.sin e.x * Real.cos e.y = 0 := by
      rcases hv with hv | hv <;> exact ⟨congrArg V3.x hv, congrArg V3.y hv⟩
    have h4 : Real.cos e.x = 0 := (mul_eq_zero.1 h0.1).resolve_right hc.ne'
    have h5 : Real.sin e.x = 0 := (mul_eq_zero.1 h0.2).resolve_right hc.ne'
    have := Real.sin_sq_add_cos_sq e.x
    rw [h4, h5] at this
    norm_num at this
  obtain ⟨c, hc0, hc2, k1, k2, k3, k4, k5, k6⟩ := angles hq hv
  have hcc : c = Real.cos e.y := by
    have : c ^ 2 = Real.cos e.y ^ 2 := by rw [hc2, a3, neg_sq, Real.cos_sq']
    nlinarith
  ext
  · refine cos_sin_inj ⟨Complex.neg_pi_lt_arg _, Complex.arg_le_pi _⟩ hx ?_ ?_
    · rw [k1, a1, hcc]; field_simp
    · rw [k2, a2, hcc]; field_simp
  · show Real.arcsin _ = _
    rw [a3, neg_neg, Real.arcsin_sin hy.1.le hy.2.le]
  · refine cos_sin_inj ⟨Complex.neg_pi_lt_arg _, Complex.arg_le_pi _⟩ hz ?_ ?_
    · rw [k5, d3, hcc]; field_simp
    · rw [k6, b3, hcc]; field_simp

/-- The rotation matrix of a turning frame: `R' = [ω]× R`. -/
lemma mat_deriv {q : ℝ → Quat} {ω : V3} {t : ℝ} (h : HasAngVel q ω t) :
    HasDerivAt (fun s => (q s).mat.r1.x) (ω.y * (q t).mat.r3.x - ω.z * (q t).mat.r2.x) t ∧
    HasDerivAt (fun s => (q s).mat.r2.x) (ω.z * (q t).mat.r1.x - ω.x * (q t).mat.r3.x) t ∧
    HasDerivAt (fun s => (q s).mat.r3.x) (ω.x * (q t).mat.r2.x - ω.y * (q t).mat.r1.x) t ∧
    HasDerivAt (fun s => (q s).mat.r3.y) (ω.x * (q t).mat.r2.y - ω.y * (q t).mat.r1.y) t ∧
    HasDerivAt (fun s => (q s).mat.r3.z) (ω.x * (q t).mat.r2.z - ω.y * (q t).mat.r1.z) t := by
  obtain ⟨hw, hx, hy, hz⟩ := h
  simp only [Quat.mul_w, Quat.mul_x, Quat.mul_y, Quat.mul_z] at hw hx hy hz
  simp only [Quat.mat]
  refine ⟨?_, ?_, ?_, ?_, ?_⟩
  · refine ((((hw.pow 2).add (hx.pow 2)).sub (hy.pow 2)).sub (hz.pow 2)).congr_deriv ?_
    norm_num; ring
  · refine (((hx.mul hy).add (hw.mul hz)).const_mul 2).congr_deriv ?_
    ring
  · refine (((hx.mul hz).sub (hw.mul hy)).const_mul 2).congr_deriv ?_
    ring
  · refine (((hy.mul hz).add (hw.mul hx)).const_mul 2).congr_deriv ?_
    ring
  · refine ((((hw.pow 2).sub (hx.pow 2)).sub (hy.pow 2)).add (hz.pow 2)).congr_deriv ?_
    norm_num; ring

/-- **C108.** The Jacobian is the derivative of yaw, pitch and roll with respect to the attitude: along every motion with angular velocity `ω` (in the target frame) they
change with velocity `J ω`, unless the first axis is vertical or yaw or roll is at the end of its range (where the angle jumps). -/
theorem C108_jacobian {q : ℝ → Quat} {ω : V3} {t : ℝ} (hq : (q t).IsUnit) (h : HasAngVel q ω t) (hv : ¬ Vertical (q t)) (hy : (evalTransform (q t)).x ≠ Real.pi)
    (hr : (evalTransform (q t)).z ≠ Real.pi) :
    ∃ J, jacTransform (q t) = some J ∧ HasDerivAt (fun s => (evalTransform (q s)).x) (J.mulVec ω).x t ∧
      HasDerivAt (fun s => (evalTransform (q s)).y) (J.mulVec ω).y t ∧ HasDerivAt (fun s => (evalTransform (q s)).z) (J.mulVec ω).z t := by
  classical
  have hR := rot_mat hq
  have hs := not_vertical hq hv
  obtain ⟨c, hc, hc2, k1, k2, k3, k4, k5, k6⟩ := angles hq hv
  obtain ⟨d1, d2, d3, d4, d5⟩ := mat_deriv h
  have cut : ∀ a b : ℝ, a ^ 2 + b ^ 2 = c ^ 2 → atan2 b a ≠ Real.pi → 0 < a ∨ b ≠ 0 := by
    intro a b e hp
    by_contra hn
    push Not at hn
    refine hp (Complex.arg_eq_pi_iff.2 ⟨lt_of_le_of_ne hn.1 ?_, hn.2⟩)
    rintro (rfl : a = 0)
    rw [hn.2] at e
    have := pow_pos hc 2
    norm_num at e
    exact this.ne e
  have hinv : (q t).inv.mat = (q t).mat.tr := by
    unfold Quat.mat Quat.inv M3.tr M3.c1 M3.c2 M3.c3
    ext <;> dsimp only <;> ring
  have hc0 := hc.ne'
  obtain ⟨c00, c01, c02, c10, c11, c12, row, col, o13, o23⟩ := hR
  refine ⟨_, by unfold jacTransform mapping; rw [if_neg (by rw [k3]; exact hc.ne')]; rfl, ?_, ?_, ?_⟩
  · refine (atan2_deriv d1 d2 (cut _ _ (by rw [hc2]; linarith [col]) hy)).congr_deriv ?_
    simp only [hinv, k3, k4, k5, k6, M3.mul, M3.mulVec, V3.dot, M3.tr, M3.c1, M3.c2, M3.c3]
    generalize (q t).mat.r1.x = a at *
    generalize (q t).mat.r1.y = b at *
    generalize (q t).mat.r1.z = d at *
    generalize (q t).mat.r2.x = e at *
    generalize (q t).mat.r2.y = f at *
    generalize (q t).mat.r2.z = g at *
    generalize (q t).mat.r3.x = h at *
    generalize (q t).mat.r3.y = k at *
    generalize (q t).mat.r3.z = l at *
    rw [show a ^ 2 + e ^ 2 = c ^ 2 by rw [hc2]; linarith]
    field_simp
    linear_combination ω.z * (col - row) - ω.x * o13 - ω.y * o23
  · refine ((Real.hasDerivAt_arcsin (x := -(q t).mat.r3.x) ?_ ?_).comp t d3.neg).congr_deriv ?_
    · intro e; rw [neg_inj] at e; rw [e] at hs; norm_num at hs
    · intro e; rw [neg_eq_iff_eq_neg] at e; rw [e] at hs; norm_num at hs
    simp only [hinv, k3, k4, k5, k6, M3.mul, M3.mulVec, V3.dot, M3.tr, M3.c1, M3.c2, M3.c3]
    generalize (q t).mat.r1.x = a at *
    generalize (q t).mat.r1.y = b at *
    generalize (q t).mat.r1.z = d at *
    generalize (q t).mat.r2.x = e at *
    generalize (q t).mat.r2.y = f at *
    generalize (q t).mat.r2.z = g at *
    generalize (q t).mat.r3.x = h at *
    generalize (q t).mat.r3.y = k at *
    generalize (q t).mat.r3.z = l at *
    rw [neg_sq, ← hc2, Real.sqrt_sq hc.le]
    field_simp
    linear_combination ω.x * c10 - ω.y * c00
  · refine (atan2_deriv d5 d4 (cut _ _ (by rw [hc2]; linarith [row]) hr)).congr_deriv ?_
    simp only [hinv, k3, k4, k5, k6, M3.mul, M3.mulVec, V3.dot, M3.tr, M3.c1, M3.c2, M3.c3]
    generalize (q t).mat.r1.x = a at *
    generalize (q t).mat.r1.y = b at *
    generalize (q t).mat.r1.z = d at *
    generalize (q t).mat.r2.x = e at *
    generalize (q t).mat.r2.y = f at *
    generalize (q t).mat.r2.z = g at *
    generalize (q t).mat.r3.x = h at *
    generalize (q t).mat.r3.y = k at *
    generalize (q t).mat.r3.z = l at *
    rw [show l ^ 2 + k ^ 2 = c ^ 2 by rw [hc2]; linarith]
    field_simp
    linear_combination ω.x * c00 + ω.y * c10 - (ω.x * a + ω.y * e + ω.z * h) * hc2 + ω.x * h * o13 + ω.y * h * o23 + ω.z * h * row

/-- **C108, finding.** With a vertical first axis the angles are not those of the attitude: yaw and roll are both reported as zero (`atan2(0, 0)`), so this attitude (nose
down after a quarter turn) is reported like the one without the turn; there is no Jacobian. -/
theorem C108_finding_vertical : ∃ q p : Quat, q.IsUnit ∧ p.IsUnit ∧ evalTransform q = evalTransform p ∧ (∃ v, q.rotate v ≠ p.rotate v) ∧ jacTransform q = none := by
  classical
  have h2 : Real.sqrt 2 ^ 2 = 2 := Real.sq_sqrt (by norm_num)
  have e : ∀ q : Quat, q.mat.r1.x = 0 → q.mat.r2.x = 0 → q.mat.r3.x = -1 → q.mat.r3.y = 0 → q.mat.r3.z = 0 → evalTransform q = ⟨0, Real.pi / 2, 0⟩ := by
    intro q a b c d e
    have h0 : (⟨0, 0⟩ : ℂ) = 0 := rfl
    unfold evalTransform atan2
    rw [a, b, c, d, e, h0, Complex.arg_zero, neg_neg, Real.arcsin_one]
  have e1 : evalTransform ⟨1 / 2, -1 / 2, 1 / 2, 1 / 2⟩ = ⟨0, Real.pi / 2, 0⟩ := by
    apply e <;> norm_num [Quat.mat]
  have e2 : evalTransform ⟨Real.sqrt 2 / 2, 0, Real.sqrt 2 / 2, 0⟩ = ⟨0, Real.pi / 2, 0⟩ := by
    apply e <;> simp only [Quat.mat] <;> nlinarith
  refine ⟨⟨1 / 2, -1 / 2, 1 / 2, 1 / 2⟩, ⟨Real.sqrt 2 / 2, 0, Real.sqrt 2 / 2, 0⟩, ?_, ?_, ?_, ⟨⟨0, 1, 0⟩, ?_⟩, ?_⟩
  · norm_num [Quat.IsUnit, Quat.normSq]
  · unfold Quat.IsUnit Quat.normSq; nlinarith
  · rw [e1, e2]
  · intro h
    have := congrArg V3.y h
    simp only [Quat.rotate] at this
    nlinarith
  · unfold jacTransform mapping
    rw [e1, if_pos (Real.cos_pi_div_two)]
    rfl

/-! ### Non-vacuity -/

/-- A quarter turn about the vertical: yaw `π/2`, and no pitch and roll. -/
example : evalTransform ⟨Real.cos (Real.pi / 4), 0, 0, Real.sin (Real.pi / 4)⟩ = ⟨Real.pi / 2, 0, 0⟩ := by
  refine C108_unique ?_ _ ⟨⟨by linarith [Real.pi_pos], by linarith [Real.pi_pos]⟩, ⟨by linarith [Real.pi_pos], by linarith [Real.pi_pos]⟩,
    ⟨by linarith [Real.pi_pos], by linarith [Real.pi_pos]⟩⟩ fun v => ?_
  · unfold Quat.IsUnit Quat.normSq
    have := Real.sin_sq_add_cos_sq (Real.pi / 4)
    dsimp only
    linarith
  · have h2 : Real.sqrt 2 ^ 2 = 2 := Real.sq_sqrt (by norm_num)
    ext <;> simp [Quat.rotate, fromYpr, rotX, rotY, rotZ]
    · linear_combination (v.y / 2) * h2
    · linear_combination (v.x / 2) * h2
    · linear_combination (v.z / 2) * h2

/-- A body turning with angular velocity `ω` about the vertical, at the start: the Jacobian gives `ω` for yaw. -/
example (ω : ℝ) : ∃ J, jacTransform Quat.one = some J ∧
    HasDerivAt (fun s => (evalTransform ⟨Real.cos (ω / 2 * s), 0, 0, Real.sin (ω / 2 * s)⟩).x) (J.mulVec ⟨0, 0, ω⟩).x 0 := by
  have h0 : (⟨Real.cos (ω / 2 * 0), 0, 0, Real.sin (ω / 2 * 0)⟩ : Quat) = Quat.one := by
    rw [mul_zero, Real.cos_zero, Real.sin_zero]; rfl
  have hz : evalTransform Quat.one = ⟨0, 0, 0⟩ := by
    have : (⟨1, 0⟩ : ℂ) = 1 := rfl
    norm_num [evalTransform, Quat.mat, Quat.one, atan2, this]
  have hd : HasDerivAt (fun s : ℝ => ω / 2 * s) (ω / 2) 0 := by simpa using (hasDerivAt_id (0 : ℝ)).const_mul (ω / 2)
  obtain ⟨J, h1, h2, -⟩ := C108_jacobian (q := fun s => ⟨Real.cos (ω / 2 * s), 0, 0, Real.sin (ω / 2 * s)⟩) (ω := ⟨0, 0, ω⟩) (t := 0)
    (by rw [h0]; norm_num [Quat.IsUnit, Quat.normSq, Quat.one])
    ⟨by simpa using hd.cos, by simpa using hasDerivAt_const (0 : ℝ) (0 : ℝ), by simpa using hasDerivAt_const (0 : ℝ) (0 : ℝ), by simpa using hd.sin⟩
    (by rw [h0]; unfold Vertical; norm_num [Quat.rotate, Quat.one])
    (by rw [h0, hz]; exact Real.pi_pos.ne) (by rw [h0, hz]; exact Real.pi_pos.ne)
  rw [h0] at h1
  exact ⟨J, h1, h2⟩

end Rovio.Ypr
