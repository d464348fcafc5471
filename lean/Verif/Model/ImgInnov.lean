import Verif.Model.Outputs

/-!
# Model of the innovation of the image update and of the pixel output

`include/rovio/ImgUpdate.hpp` (`evalInnovation`, `jacState`, `jacNoise`) and `include/rovio/CoordinateTransform/PixelOutput.hpp`.
The auxiliary data `activeFeature_` and `activeCameraCounter_` are the arguments `i` and `counter`; drawing and verbose output are dropped; `float`
pixels are reals.  `out` is the scratch member `featureOutput_` the transformation writes to.
-/

namespace Rovio

variable {n nCam nPose : ℕ}

/-- The negative of a 2x2 matrix (Eigen's unary minus), include/rovio/ImgUpdate.hpp:558, 566. -/
def M2.neg (A : M2) : M2 := ⟨-A.a, -A.b, -A.c, -A.d⟩

/-- `(activeCameraCounter_ + camID) % nCam_`, include/rovio/ImgUpdate.hpp:409, 549. -/
def activeCam (counter : ℕ) (a : Fin nCam) : Fin nCam := ⟨(counter + a.val) % nCam, Nat.mod_lt _ (lt_of_le_of_lt (Nat.zero_le _) a.2)⟩

/-- The linear equations of the direct method at given coordinates: `A_red_`, `b_red_`, or failure
(`getLinearAlignEquationsReduced`, include/rovio/ImgUpdate.hpp:422, 555; its body is `Align.reduced`). -/
abbrev RedEq := FC → Option (M2 × V2)

namespace State

/-- The feature in the active camera, include/rovio/ImgUpdate.hpp:407-412, 547-552. -/
noncomputable def imgFeature (s : State n nCam nPose) (mc : MultiCamera nCam) (sfv : V3 → Nor) (i : Fin n) (counter : ℕ) (out : Fea) : Option (Fin nCam × Fea) := do
  let a ← camIdx nCam (s.fea i).c.camID
  let b := activeCam counter a
  let f ← s.featureOut mc sfv i b out
  return (b, f)

/-- `evalInnovation` with the reprojection error, include/rovio/ImgUpdate.hpp:406-412, 434-439; `meas` is `feaCoorMeas_[ID]`. -/
noncomputable def imgInnov (s : State n nCam nPose) (mc : MultiCamera nCam) (sfv : V3 → Nor) (i : Fin n) (counter : ℕ) (out : Fea) (meas : FC) (noise : V2) :
    Option V2 := do
  let (_, f) ← s.imgFeature mc sfv i counter out
  let (_, m) ← meas.getC
  let (_, c) ← f.c.getC
  return ⟨m.x - c.x, m.y - c.y⟩ + noise

/-- The matrix `c_J_` after `bearingToPixel`, include/rovio/ImgUpdate.hpp:557, 565: the result of the call is ignored, so a failing projection leaves the
matrix of an earlier call (`stale`). -/
def pixJ (stale : M2) (cam : CamI) (nor : Nor) : M2 := match cam.b2pJ nor with | some (_, J) => J | none => stale

/-- `jacState` with the reprojection error, include/rovio/ImgUpdate.hpp:546-552, 563-567, applied to an increment. -/
noncomputable def imgJac (s : State n nCam nPose) (mc : MultiCamera nCam) (sfv : V3 → Nor) (i : Fin n) (counter : ℕ) (out : Fea) (stale : M2)
    (δ : DState n nCam nPose) : Option V2 := do
  let (b, f) ← s.imgFeature mc sfv i counter out
  let J ← s.featureJac sfv true i b δ
  let (_, nor) ← f.c.getNor
  return (pixJ stale (mc.cams b) nor).neg.mulVec J.1

/-- `evalInnovation` of the direct method, include/rovio/ImgUpdate.hpp:414-433: the innovation and whether `cancelIteration_` is set. -/
noncomputable def directInnov (s : State n nCam nPose) (mc : MultiCamera nCam) (sfv : V3 → Nor) (eqs : Fin nCam → RedEq) (i : Fin n) (counter : ℕ) (out : Fea)
    (noise : V2) : Option (V2 × Bool) := do
  let (b, f) ← s.imgFeature mc sfv i counter out
  match eqs b f.c with
  | some (_, r) => return (r + noise, false)
  | none => return (noise, true)

/-- `jacState` of the direct method, include/rovio/ImgUpdate.hpp:554-562. -/
noncomputable def directJac (s : State n nCam nPose) (mc : MultiCamera nCam) (sfv : V3 → Nor) (eqs : Fin nCam → RedEq) (i : Fin n) (counter : ℕ) (out : Fea)
    (stale : M2) (δ : DState n nCam nPose) : Option (V2 × Bool) := do
  let (b, f) ← s.imgFeature mc sfv i counter out
  match eqs b f.c with
  | some (A, _) =>
    let J ← s.featureJac sfv true i b δ
    let (_, nor) ← f.c.getNor
    return ((A.neg.mul (pixJ stale (mc.cams b) nor)).mulVec J.1, false)
  | none => return (0, true)

end State

/-- `jacNoise`, include/rovio/ImgUpdate.hpp:575-578. -/
def imgNoiseJac : M2 := M2.one

/-- `PixelOutputCT::evalTransform`, include/rovio/CoordinateTransform/PixelOutput.hpp:57-60. -/
def pixelOut (f : Fea) : Option V2 := do
  let (_, c) ← f.c.getC
  return c

/-- `PixelOutputCT::jacTransform`, include/rovio/CoordinateTransform/PixelOutput.hpp:61-64, applied to an increment of the feature. -/
def pixelJac (f : Fea) (d : V2) : Option V2 := do
  let (_, J) ← f.c.getJ
  return J.mulVec d

end Rovio
