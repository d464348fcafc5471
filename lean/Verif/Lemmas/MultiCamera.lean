import Verif.Lemmas.Geom
import Verif.Model.FilterState
import Verif.Spec.Geometry
import Verif.Props.FeatureDistance
import Mathlib.Tactic.Choose

namespace Rovio

open Distance

lemma V3.normalized_normSq {v : V3} (h : v ≠ 0) : v.normalized.x ^ 2 + v.normalized.y ^ 2 + v.normalized.z ^ 2 = 1 := by
  have := V3.norm_sq v.normalized
  rw [V3.norm_normalized h] at this
  unfold V3.normSq at this
  linarith

/-- Every direction is the image of the z axis under some rotation. -/
lemma exists_rotation_ez (u : V3) (hu : u.x ^ 2 + u.y ^ 2 + u.z ^ 2 = 1) : ∃ q : Quat, q.IsUnit ∧ q.rotate V3.ez = u := by
  by_cases hz : u.z = -1
  · refine ⟨⟨0, 1, 0, 0⟩, by simp [Quat.IsUnit, Quat.normSq], ?_⟩
    have hx : u.x = 0 := by rw [hz] at hu; nlinarith [sq_nonneg u.x, sq_nonneg u.y]
    have hy : u.y = 0 := by rw [hz] at hu; nlinarith [sq_nonneg u.x, sq_nonneg u.y]
    ext <;> simp [Quat.rotate, V3.ez, hx, hy, hz]
  · have hpos : 0 < 2 * (1 + u.z) := by
      have h1 : -1 ≤ u.z := by nlinarith [sq_nonneg u.x, sq_nonneg u.y]
      have h2 : -1 < u.z := lt_of_le_of_ne h1 (Ne.symm hz)
      linarith
    set k := Real.sqrt (2 * (1 + u.z)) with hk
    have hk0 : 0 < k := Real.sqrt_pos.mpr hpos
    have hk2 : k ^ 2 = 2 * (1 + u.z) := Real.sq_sqrt hpos.le
    refine ⟨⟨(1 + u.z) / k, -u.y / k, u.x / k, 0⟩, ?_, ?_⟩
    · unfold Quat.IsUnit Quat.normSq
      simp only
      rw [div_pow, div_pow, div_pow, hk2, zero_pow two_ne_zero, add_zero, ← add_div, ← add_div, div_eq_one_iff_eq hpos.ne']
      nlinarith
    · have e : ∀ a b : ℝ, a / k * (b / k) = a * b / (2 * (1 + u.z)) := by
        intro a b; rw [div_mul_div_comm, ← sq, hk2]
      ext
      · simp only [Quat.rotate, V3.ez]
        have := e (1 + u.z) u.x
        have h2 : (1 + u.z) * u.x / (2 * (1 + u.z)) * 2 = u.x := by rw [div_mul_eq_mul_div, div_eq_iff hpos.ne']; ring
        linear_combination 2 * this + h2
      · simp only [Quat.rotate, V3.ez]
        have := e (1 + u.z) (-u.y)
        have h2 : (1 + u.z) * (-u.y) / (2 * (1 + u.z)) * 2 = -u.y := by rw [div_mul_eq_mul_div, div_eq_iff hpos.ne']; ring
        linear_combination -2 * this - h2
      · simp only [Quat.rotate, V3.ez]
        have h1 := e (1 + u.z) (1 + u.z)
        have h2 := e (-u.y) (-u.y)
        have h3 := e u.x u.x
        have h4 : (1 + u.z) * (1 + u.z) / (2 * (1 + u.z)) - -u.y * -u.y / (2 * (1 + u.z)) - u.x * u.x / (2 * (1 + u.z)) = u.z := by
          rw [← sub_div, ← sub_div, div_eq_iff hpos.ne']
          nlinarith
        linear_combination h1 - h2 - h3 + h4

lemma exists_rotation_to (v : V3) (hv : v ≠ 0) : ∃ q : Quat, q.IsUnit ∧ q.rotate V3.ez = v.normalized :=
  exists_rotation_ez _ (V3.normalized_normSq hv)

/-- The assumptions about `setFromVector` are satisfiable. -/
lemma exists_setFromVector : ∃ f, Spec.SetFromVector f := by
  have : Nonempty Quat := ⟨Quat.one⟩
  choose! q hq using exists_rotation_to
  refine ⟨fun v => if 1e-6 < v.norm then ⟨q v⟩ else ⟨Quat.one⟩, ⟨fun v => ?_, fun v hv => ?_⟩⟩
  · by_cases h : (1e-6 : ℝ) < v.norm
    · have hv : v ≠ 0 := by rintro rfl; rw [V3.norm_zero] at h; norm_num at h
      simpa only [if_pos h] using (hq v hv).1
    · simpa only [if_neg h] using Quat.isUnit_one
  · have h0 : v ≠ 0 := by rintro rfl; rw [V3.norm_zero] at hv; norm_num at hv
    rw [if_pos hv]; exact (hq v h0).2

/-- The assumptions about `setFromVectors` are satisfiable. -/
lemma exists_setFromVectors : ∃ f, Spec.SetFromVectors f := by
  have : Nonempty Quat := ⟨Quat.one⟩
  choose! q hq using exists_rotation_to
  refine ⟨fun a b => q b * (q a).inv, ⟨fun a b ha hb => (hq b hb).1.mul (hq a ha).1.inv, fun a b ha hb => ?_⟩⟩
  rw [Quat.rotate_mul, ← (hq a ha).2, Quat.rotate_inv_rotate (hq a ha).1, (hq b hb).2]

lemma camIdx_val (nCam : ℕ) (a : Fin nCam) : camIdx nCam a.val = some a := by
  unfold camIdx
  have h : (0 : ℤ) ≤ (a.val : ℤ) ∧ (a.val : ℤ) < nCam := by have := a.2; omega
  rw [dif_pos h]
  simp

lemma camIdx_some {nCam : ℕ} {k : ℤ} {a : Fin nCam} (h : camIdx nCam k = some a) : k = a.val := by
  unfold camIdx at h
  split at h
  · rename_i hk
    simp only [Option.some.injEq] at h
    rw [← h]; simp; omega
  · cases h

namespace MultiCamera

variable {nCam : ℕ}

/-- The moved vector is the landmark seen from the other camera. -/
lemma moved_eq (mc : MultiCamera nCam) (a b : Fin nCam) (ha : (mc.qCB a).IsUnit) (v : V3) :
    mc.moved a b v = (mc.qCB b).rotate (mc.BrBC a + (mc.qCB a).inv.rotate v - mc.BrBC b) := by
  unfold moved
  simp only
  rw [Quat.rotate_mul, Quat.rotate_sub, Quat.rotate_inv_rotate ha]
  congr 1
  ext <;> simp <;> ring

/-- Uniqueness of distance and direction of a point seen from a camera. -/
lemma bodyPoint_inj {r : V3} {q : Quat} (hq : q.IsUnit) {d d' : ℝ} {m m' : V3} (hm : m.norm = 1) (hm' : m'.norm = 1)
    (hd : 0 < d) (hd' : 0 < d') (h : Spec.bodyPoint r q d m = Spec.bodyPoint r q d' m') : d = d' ∧ m = m' := by
  unfold Spec.bodyPoint at h
  have h1 : q.inv.rotate (d • m) = q.inv.rotate (d' • m') := by
    have hx := congrArg V3.x h; have hy := congrArg V3.y h; have hz := congrArg V3.z h
    simp only [V3.add_x, V3.add_y, V3.add_z] at hx hy hz
    ext <;> linarith
  have h2 : d • m = d' • m' := by
    have := congrArg q.rotate h1
    rwa [Quat.rotate_rotate_inv hq, Quat.rotate_rotate_inv hq] at this
  have h3 := congrArg V3.norm h2
  rw [V3.norm_smul, V3.norm_smul, hm, hm', abs_of_pos hd, abs_of_pos hd', mul_one, mul_one] at h3
  refine ⟨h3, ?_⟩
  subst h3
  have hx := congrArg V3.x h2; have hy := congrArg V3.y h2; have hz := congrArg V3.z h2
  simp only [V3.smul_x, V3.smul_y, V3.smul_z] at hx hy hz
  ext
  · exact mul_left_cancel₀ hd.ne' hx
  · exact mul_left_cancel₀ hd.ne' hy
  · exact mul_left_cancel₀ hd.ne' hz

lemma norm_sub_bodyPoint {r : V3} {q : Quat} (hq : q.IsUnit) {d : ℝ} {m : V3} (hm : m.norm = 1) :
    (Spec.bodyPoint r q d m - r).norm = |d| := by
  have : Spec.bodyPoint r q d m - r = q.inv.rotate (d • m) := by
    unfold Spec.bodyPoint; ext <;> simp
  rw [this, Quat.norm_rotate hq.inv, V3.norm_smul, hm, mul_one]

end MultiCamera

end Rovio
