import Verif.Model.FilterState

/-!
# Model of the published outputs, `include/rovio/CoordinateTransform/`

A Jacobian matrix `J` is modelled as the linear map `δ ↦ J δ` on the error vector, one summand per block assigned in the code.
`YprOutput` (a call into kindr's Euler angles) is not modelled.
-/

namespace Rovio

open Distance

variable {n nCam nPose : ℕ}

/-- `StandardOutput`, include/rovio/CoordinateTransform/RovioOutput.hpp:36-98. -/
structure StdOut where
  WrWB : V3
  qBW : Quat
  BvB : V3
  BwWB : V3

/-- Error vector of `StandardOutput`. -/
structure DStdOut where
  pos : V3
  att : V3
  vel : V3
  ror : V3

namespace State

/-- Camera 0, the default argument of `MrMC()`, include/rovio/FilterStates.hpp:303. -/
def cam0 (c : Fin nCam) : Fin nCam := ⟨0, lt_of_le_of_lt (Nat.zero_le _) c.2⟩

/-- `ImuOutputCT::evalTransform`, include/rovio/CoordinateTransform/RovioOutput.hpp:158-167. -/
def imuOut (s : State n nCam nPose) : StdOut where
  WrWB := s.pos
  BwWB := s.aux.MwWMmeas - s.gyb
  BvB := -s.vel
  qBW := s.att.inv

/-- `ImuOutputCT::jacTransform`, include/rovio/CoordinateTransform/RovioOutput.hpp:168-174. -/
def imuJac (s : State n nCam nPose) (δ : DState n nCam nPose) : DStdOut where
  pos := M3.one.mulVec δ.pos
  att := (-s.att.inv.mat).mulVec δ.att
  vel := (-M3.one).mulVec δ.vel
  ror := (-M3.one).mulVec δ.gyb

/-- `CameraOutputCT::evalTransform`, include/rovio/CoordinateTransform/RovioOutput.hpp:111-120. -/
def camOut (s : State n nCam nPose) (c : Fin nCam) : StdOut where
  WrWB := s.pos + s.att.rotate (s.MrMC c)
  BwWB := (s.qCM c).rotate (s.aux.MwWMmeas - s.gyb)
  BvB := (s.qCM c).rotate (-s.vel + (M3.skew (s.aux.MwWMmeas - s.gyb)).mulVec (s.MrMC c))
  qBW := s.qCM c * s.att.inv

/-- `CameraOutputCT::jacTransform`, include/rovio/CoordinateTransform/RovioOutput.hpp:121-144.  Note `input.MrMC()` (camera 0)
in the velocity/extrinsic rotation block, line 140. -/
def camJac (s : State n nCam nPose) (c : Fin nCam) (δ : DState n nCam nPose) : DStdOut where
  pos := M3.one.mulVec δ.pos + (-M3.skew (s.att.rotate (s.MrMC c))).mulVec δ.att +
    (if s.aux.doVE then s.att.mat.mulVec (δ.vep c) else 0)
  att := (-(s.qCM c * s.att.inv).mat).mulVec δ.att + (if s.aux.doVE then M3.one.mulVec (δ.vea c) else 0)
  vel := (-(s.qCM c).mat).mulVec δ.vel + ((s.qCM c).mat.mul (M3.skew (s.MrMC c))).mulVec δ.gyb +
    (if s.aux.doVE then
      ((s.qCM c).mat.mul (M3.skew (s.aux.MwWMmeas - s.gyb))).mulVec (δ.vep c) +
      (-M3.skew ((s.qCM c).rotate (-s.vel + (M3.skew (s.aux.MwWMmeas - s.gyb)).mulVec (s.MrMC (cam0 c))))).mulVec (δ.vea c)
     else 0)
  ror := (-(s.qCM c).mat).mulVec δ.gyb +
    (if s.aux.doVE then (-M3.skew ((s.qCM c).rotate (s.aux.MwWMmeas - s.gyb))).mulVec (δ.vea c) else 0)

/-- `LandmarkOutputImuCT::evalTransform`, include/rovio/CoordinateTransform/LandmarkOutput.hpp:77-82. -/
noncomputable def landmark (s : State n nCam nPose) (mc : MultiCamera nCam) (i : Fin n) : Option V3 := do
  let mc := s.updateMultiCamera mc
  let (_, nor) ← (s.fea i).c.getNor
  let CrCP := getDistance (s.fea i).d • nor.vec
  let a ← camIdx nCam (s.fea i).c.camID
  return mc.BrBC a + (mc.qCB a).inv.rotate CrCP

/-- `LandmarkOutputImuCT::jacTransform`, include/rovio/CoordinateTransform/LandmarkOutput.hpp:83-98.  Lines 95-96 write the
extrinsics blocks to the columns of camera 0, whatever the camera of the feature. -/
noncomputable def landmarkJac (s : State n nCam nPose) (mc : MultiCamera nCam) (i : Fin n) (δ : DState n nCam nPose) : Option V3 := do
  let mc := s.updateMultiCamera mc
  let (_, nor) ← (s.fea i).c.getNor
  let CrCP := getDistance (s.fea i).d • nor.vec
  let a ← camIdx nCam (s.fea i).c.camID
  let mBC := (mc.qCB a).inv.mat
  return mBC.mulVec (getDistance (s.fea i).d • nor.M (δ.nor i)) + mBC.mulVec (δ.dep i • (getDistanceDerivative (s.fea i).d • nor.vec)) +
    (if s.aux.doVE then M3.one.mulVec (δ.vep (cam0 a)) + (mBC.mul (M3.skew CrCP)).mulVec (δ.vea (cam0 a)) else 0)

end State

/-- `getM().transpose()` applied to a vector (LWF: `getM = [-p2 p1]`). -/
def Nor.Mt (m : Nor) (v : V3) : V2 := ⟨(-m.perp2).dot v, m.perp1.dot v⟩

/-- A 2x2 matrix from its columns. -/
def M2.ofCols (f : V2 → V2) : M2 := ⟨(f ⟨1, 0⟩).x, (f ⟨0, 1⟩).x, (f ⟨1, 0⟩).y, (f ⟨0, 1⟩).y⟩

namespace State

/-- The block `J_nor_DrDP*J_DrDP_CrCP*J_CrCP_nor`, include/rovio/CoordinateTransform/FeatureOutput.hpp:123-133. -/
noncomputable def bearingBlock (s : State n nCam nPose) (sfv : V3 → Nor) (i : Fin n) (a b : Fin nCam) (nor : Nor) : M2 :=
  let qDC := s.qCM b * (s.qCM a).inv
  let CrCD := (s.qCM a).rotate (s.MrMC b - s.MrMC a)
  let CrCP := getDistance (s.fea i).d • nor.vec
  let DrDP := qDC.rotate (CrCP - CrCD)
  let norOut := sfv DrDP
  M2.ofCols fun u => norOut.Mt ((1 / DrDP.norm) • qDC.mat.mulVec (getDistance (s.fea i).d • nor.M u))

/-- `TransformFeatureOutputCT::evalTransform`, include/rovio/CoordinateTransform/FeatureOutput.hpp:120-136: feature `i`
expressed in camera `b`, written to `out`. -/
noncomputable def featureOut (s : State n nCam nPose) (mc : MultiCamera nCam) (sfv : V3 → Nor) (i : Fin n) (b : Fin nCam) (out : Fea) : Option Fea := do
  let mc := s.updateMultiCamera mc
  let (c, d) ← mc.transformFeature sfv b (s.fea i).c (s.fea i).d out.c out.d
  if (s.fea i).c.trackWarping then do
    let (fc, ok) ← (s.fea i).c.comWarpNor
    if ok then do
      let a ← camIdx nCam fc.camID
      let (fc, nor) ← fc.getNor
      let (_, w) ← fc.getWarpNor
      return { c := c.setWarpNor ((s.bearingBlock sfv i a b nor).mul w), d := d }
    else return { c := c, d := d }
  else return { c := c, d := d }

/-- `TransformFeatureOutputCT::jacTransform`, include/rovio/CoordinateTransform/FeatureOutput.hpp:137-187: bearing and distance
rows (`ignoreDistanceOutput_` leaves the distance row zero when the camera changes). -/
noncomputable def featureJac (s : State n nCam nPose) (sfv : V3 → Nor) (ignoreDistance : Bool) (i : Fin n) (b : Fin nCam) (δ : DState n nCam nPose) :
    Option (V2 × ℝ) :=
  if (s.fea i).c.camID ≠ b.val then do
    let a ← camIdx nCam (s.fea i).c.camID
    let (_, nor) ← (s.fea i).c.getNor
    let qDC := s.qCM b * (s.qCM a).inv
    let CrCD := (s.qCM a).rotate (s.MrMC b - s.MrMC a)
    let CrCP := getDistance (s.fea i).d • nor.vec
    let DrDP := qDC.rotate (CrCP - CrCD)
    let norOut := sfv DrDP
    let Jd : V3 → ℝ := fun v => norOut.vec.dot v
    let Jn : V3 → V2 := fun v => norOut.Mt ((1 / DrDP.norm) • v)
    let JqDC := M3.skew DrDP
    let JCrCP := qDC.mat
    let JCrCD := -qDC.mat
    let vNor := JCrCP.mulVec (getDistance (s.fea i).d • nor.M (δ.nor i))
    let vDep := JCrCP.mulVec (δ.dep i • (getDistanceDerivative (s.fea i).d • nor.vec))
    let vExt :=
      if s.aux.doVE then
        (JqDC.mul (-qDC.mat) + JCrCD.mul (M3.skew CrCD)).mulVec (δ.vea a) + (JqDC.mul M3.one).mulVec (δ.vea b) +
        (JCrCD.mul (-(s.qCM a).mat)).mulVec (δ.vep a) + (JCrCD.mul (s.qCM a).mat).mulVec (δ.vep b)
      else 0
    return (Jn (vNor + vDep + vExt), if ignoreDistance then 0 else Jd (vNor + vDep + vExt))
  else some (δ.nor i, δ.dep i)

end State

/-- `FeatureOutputReadableCT::evalTransform`, include/rovio/CoordinateTransform/FeatureOutputReadable.hpp:83-86. -/
noncomputable def Fea.readable (f : Fea) : Option (V3 × ℝ) := do
  let (_, nor) ← f.c.getNor
  return (nor.vec, getDistance f.d)

/-- `FeatureOutputReadableCT::jacTransform`, include/rovio/CoordinateTransform/FeatureOutputReadable.hpp:87-91. -/
noncomputable def Fea.readableJac (f : Fea) (dn : V2) (dp : ℝ) : Option (V3 × ℝ) := do
  let (_, nor) ← f.c.getNor
  return (nor.M dn, getDistanceDerivative f.d * dp)

end Rovio
