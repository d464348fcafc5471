import Verif.Spec.Geometry
import Mathlib.Analysis.SpecialFunctions.Trigonometric.Basic

/-!
# Rotations about the coordinate axes
-/

namespace Rovio.Spec

/-- Rotation about the first axis. -/
noncomputable def rotX (a : ℝ) (v : V3) : V3 := ⟨v.x, Real.cos a * v.y - Real.sin a * v.z, Real.sin a * v.y + Real.cos a * v.z⟩
/-- Rotation about the second axis. -/
noncomputable def rotY (a : ℝ) (v : V3) : V3 := ⟨Real.cos a * v.x + Real.sin a * v.z, v.y, -Real.sin a * v.x + Real.cos a * v.z⟩
/-- Rotation about the third axis. -/
noncomputable def rotZ (a : ℝ) (v : V3) : V3 := ⟨Real.cos a * v.x - Real.sin a * v.y, Real.sin a * v.x + Real.cos a * v.y, v.z⟩

/-- The rotation by roll `e.z`, then pitch `e.y`, then yaw `e.x`. -/
noncomputable def fromYpr (e v : V3) : V3 := rotZ e.x (rotY e.y (rotX e.z v))

/-- Yaw and roll in `(-π, π]`, pitch strictly between `-π/2` and `π/2`. -/
def YprRange (e : V3) : Prop :=
  (-Real.pi < e.x ∧ e.x ≤ Real.pi) ∧ (-(Real.pi / 2) < e.y ∧ e.y < Real.pi / 2) ∧ (-Real.pi < e.z ∧ e.z ≤ Real.pi)

/-- The first axis of the body points straight up or down (gimbal lock). -/
def Vertical (q : Quat) : Prop := q.rotate ⟨1, 0, 0⟩ = ⟨0, 0, 1⟩ ∨ q.rotate ⟨1, 0, 0⟩ = ⟨0, 0, -1⟩

end Rovio.Spec
