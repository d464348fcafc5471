import Verif.Model.Geom
import Mathlib.Analysis.SpecialFunctions.Complex.LogDeriv
import Mathlib.Analysis.SpecialFunctions.Trigonometric.InverseDeriv

/-!
# Yaw, pitch and roll

include/rovio/CoordinateTransform/YprOutput.hpp; kindr's Euler angles (not part of the repository) as documented.
-/

namespace Rovio.Ypr

/-- C's `atan2(y, x)`. -/
noncomputable def atan2 (y x : ℝ) : ℝ := Complex.arg ⟨x, y⟩

/-- Yaw, pitch and roll: `kindr::EulerAnglesZyxD(att).vector()`, include/rovio/CoordinateTransform/YprOutput.hpp:62-64 (kindr's conversion from a quaternion: the angles of
the rotation matrix).  Over the reals the argument of `asin` is in its domain for unit quaternions. -/
noncomputable def evalTransform (q : Quat) : V3 :=
  ⟨atan2 q.mat.r2.x q.mat.r1.x, Real.arcsin (-q.mat.r3.x), atan2 q.mat.r3.y q.mat.r3.z⟩

/-- kindr's `getMappingFromLocalAngularVelocityToDiff` for yaw `e.x`, pitch `e.y` and roll `e.z`, used at include/rovio/CoordinateTransform/YprOutput.hpp:67; `none` if it
divides by zero. -/
noncomputable def mapping (e : V3) : Option M3 :=
  open Classical in if Real.cos e.y = 0 then none
  else some ⟨⟨0, Real.sin e.z / Real.cos e.y, Real.cos e.z / Real.cos e.y⟩, ⟨0, Real.cos e.z, -Real.sin e.z⟩,
    ⟨1, Real.sin e.y * Real.sin e.z / Real.cos e.y, Real.sin e.y * Real.cos e.z / Real.cos e.y⟩⟩

/-- `jacTransform`, include/rovio/CoordinateTransform/YprOutput.hpp:65-68. -/
noncomputable def jacTransform (q : Quat) : Option M3 := (mapping (evalTransform q)).map fun m => m.mul q.inv.mat

end Rovio.Ypr
