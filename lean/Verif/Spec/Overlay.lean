import Verif.Model.Geom
import Mathlib.Analysis.SpecialFunctions.Trigonometric.Inverse

/-!
# How a camera is held, and the picture of an artificial horizon
-/

namespace Rovio.Spec

/-- Elevation in degrees of a direction of length one, given in a frame whose third axis points up. -/
noncomputable def elevation (v : V3) : ℝ := Real.arcsin v.z * 180 / Real.pi

/-- `d` is the direction of `v` in the image: the first two coordinates, with length one. -/
def ImageDirection (v : V3) (d : V2) : Prop := d.x ^ 2 + d.y ^ 2 = 1 ∧ ∃ k : ℝ, 0 < k ∧ v.x = k * d.x ∧ v.y = k * d.y

/-- The point of the circle of radius `r` about the origin at the angle `t`, in degrees. -/
noncomputable def onCircle (r t : ℝ) : V2 := ⟨r * Real.cos (t * Real.pi / 180), r * Real.sin (t * Real.pi / 180)⟩

end Rovio.Spec
