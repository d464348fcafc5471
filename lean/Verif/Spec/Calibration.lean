import Verif.Model.Geom
import Mathlib.Analysis.SpecialFunctions.Trigonometric.Inverse

/-!
# Specification: the published camera models

Written from the literature, independently of the code: the pixel of a point `v` (camera coordinates, in front of the camera)
under a calibration (focal lengths, principal point, distortion coefficients).
-/

namespace Rovio.Spec

/-- Pinhole part without skew. -/
def pinholePix (fx fy cx cy : ℝ) (p : V2) : V2 := ⟨fx * p.x + cx, fy * p.y + cy⟩

/-- `plumb_bob` (Brown; OpenCV `k1, k2, p1, p2, k3`) on the normalised image plane. -/
noncomputable def plumbBob (k1 k2 p1 p2 k3 : ℝ) (v : V3) : V2 :=
  let x := v.x / v.z
  let y := v.y / v.z
  let r2 := x ^ 2 + y ^ 2
  let radial := 1 + k1 * r2 + k2 * r2 ^ 2 + k3 * r2 ^ 3
  ⟨x * radial + 2 * p1 * x * y + p2 * (r2 + 2 * x ^ 2), y * radial + p1 * (r2 + 2 * y ^ 2) + 2 * p2 * x * y⟩

/-- `equidistant` (Kannala-Brandt `k1..k4`): the distance from the centre is the odd polynomial of the angle `θ` between the point
and the optical axis, the direction is that of the point. -/
noncomputable def equidistant (k1 k2 k3 k4 : ℝ) (v : V3) : V2 :=
  let θ := Real.arccos (v.z / v.norm)
  let ρ := Real.sqrt (v.x ^ 2 + v.y ^ 2)
  let R := θ + k1 * θ ^ 3 + k2 * θ ^ 5 + k3 * θ ^ 7 + k4 * θ ^ 9
  ⟨R * (v.x / ρ), R * (v.y / ρ)⟩

/-- Double sphere (Usenko, Demmel, Cremers 2018) with parameters `ξ`, `α`. -/
noncomputable def doubleSphere (ξ α : ℝ) (v : V3) : V2 :=
  let d1 := Real.sqrt (v.x ^ 2 + v.y ^ 2 + v.z ^ 2)
  let d2 := Real.sqrt (v.x ^ 2 + v.y ^ 2 + (ξ * d1 + v.z) ^ 2)
  let den := α * d2 + (1 - α) * (ξ * d1 + v.z)
  ⟨v.x / den, v.y / den⟩

end Rovio.Spec
