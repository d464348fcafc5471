import Verif.Model.FilterState
import Verif.Model.FeatureCoordinates
import Verif.Model.CNum
import Verif.Model.Ypr

/-!
# What is drawn over the camera image: artificial horizon and uncertainty ellipse

include/rovio/ImgUpdate.hpp:1091-1120 and src/FeatureCoordinates.cpp:200-208.  What OpenCV does with the numbers it is
handed is not modelled; `none` is undefined behaviour: the conversion to `int` of a number that does not fit or of the NaN
that `asin` returns outside of its domain.
-/

namespace Rovio.Overlay

/-- C's `asin`; `none` is the NaN it returns outside of `[-1, 1]` (used at include/rovio/ImgUpdate.hpp:1106). -/
noncomputable def cAsin (x : ℝ) : Option ℝ := if -1 ≤ x ∧ x ≤ 1 then some (Real.arcsin x) else none

/-- `Vg` of `drawVirtualHorizon`, include/rovio/ImgUpdate.hpp:1102. -/
noncomputable def vg {n nCam nPose : ℕ} (s : State n nCam nPose) (cam : Fin nCam) : V3 :=
  (s.qCM cam * s.att.inv).rotate ⟨0, 0, -1⟩

/-- `roll`, include/rovio/ImgUpdate.hpp:1103. -/
noncomputable def roll (g : V3) : ℝ := Ypr.atan2 g.y g.x - 0.5 * Real.pi

/-- `pitch`, include/rovio/ImgUpdate.hpp:1104.  Over the reals the argument of `acos` is in its domain for a unit vector. -/
noncomputable def pitch (g : V3) : ℝ := Real.arccos (g.dot ⟨0, 0, 1⟩) - 0.5 * Real.pi

/-- `pitchOffsetAngle`, include/rovio/ImgUpdate.hpp:1105-1106. -/
noncomputable def pitchOffsetAngle (g : V3) : Option ℝ := do
  let a ← cAsin (pitch g / Real.pi * 180.0 / 10.0 * 5.0 / 30.0)
  return -a

/-- `drawVirtualHorizon`, include/rovio/ImgUpdate.hpp:1091-1120: first and last degree of the arc of the circle of radius 30
about the centre of the indicator that is handed to `cv::ellipse2Poly` (whose parameters are of type `int`) and filled.  The
fixed decoration around it is left out. -/
noncomputable def drawVirtualHorizon {n nCam nPose : ℕ} (s : State n nCam nPose) (cam : Fin nCam) : Option (ℤ × ℤ) := do
  let g := vg s cam
  let o ← pitchOffsetAngle g
  let a ← cInt ((roll g - o) / Real.pi * 180)
  let b ← cInt ((roll g + o) / Real.pi * 180 + 180)
  return (a, b)

/-- What `drawEllipse` hands to `cv::ellipse`: half axes in pixels and direction of the first one in degrees,
src/FeatureCoordinates.cpp:207. -/
structure Ellipse where
  axis1 : ℤ
  axis2 : ℤ
  angle : ℝ

/-- `drawEllipse`, src/FeatureCoordinates.cpp:205-208, without the dot in the centre. -/
noncomputable def drawEllipse (p : FC.PixelCov) (scaleFactor : ℝ) : Option Ellipse := do
  let a ← cInt (scaleFactor * p.sigma1 + 0.5)
  let b ← cInt (scaleFactor * p.sigma2 + 0.5)
  return ⟨max a 1, max b 1, p.sigmaAngle * 180 / Real.pi⟩

end Rovio.Overlay
