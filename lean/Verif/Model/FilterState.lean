import Verif.Model.FeatureCoordinates
import Verif.Model.FeatureDistance

/-!
# Model of the state part of `include/rovio/FilterStates.hpp`, of `include/rovio/RobocentricFeatureElement.hpp` and of the
extrinsics handling of `include/rovio/RovioFilter.hpp`

The state is a record of its elements, the tangent space a record of the increments (`DState`); positions in the error
vector are replaced by field names.  LWF supplies the increments of the elements (documented behaviour): vectors add,
quaternions are multiplied from the left by the exponential map, features use `RobocentricFeatureElement::boxPlus`.
Template capacities `nMax`, `nCam`, `nPose` are arbitrary naturals.  Members used by other modules only (`A_red_`,
`feaCoorMeas_`, `activeFeature_`, ...) are modelled there.
-/

namespace Rovio

open Distance

/-- `assert(camID < nCam_)` followed by an array access, e.g. include/rovio/FilterStates.hpp:280-284; outside the array the
access is undefined (`none`). -/
def camIdx (nCam : ℕ) (k : ℤ) : Option (Fin nCam) :=
  if h : 0 ≤ k ∧ k < nCam then some ⟨k.toNat, by omega⟩ else none

/-- `RobocentricFeatureElement`, include/rovio/RobocentricFeatureElement.hpp:37-48: coordinates and distance. -/
structure Fea where
  c : FC
  d : FeatureDistance

/-- `StateAuxiliary`, include/rovio/FilterStates.hpp:52-98 (the members used by prediction, outputs and pose update). -/
structure Aux (nCam : ℕ) where
  MwWMest : V3
  MwWMmeas : V3
  wMeasCov : M3
  doVE : Bool
  qCM : Fin nCam → Quat
  MrMC : Fin nCam → V3
  tInertial : ℝ
  tImage : ℝ
  poseMeasRot : Quat
  poseMeasLin : V3

/-- `State`, include/rovio/FilterStates.hpp:110-147: position, velocity (with the sign convention of the filter: `MvM` is
minus the velocity), biases, attitude `qWM`, extrinsics, features, additional poses, auxiliary. -/
structure State (n nCam nPose : ℕ) where
  pos : V3
  vel : V3
  acb : V3
  gyb : V3
  att : Quat
  vep : Fin nCam → V3
  vea : Fin nCam → Quat
  fea : Fin n → Fea
  pop : Fin nPose → V3
  poa : Fin nPose → Quat
  aux : Aux nCam

/-- The error vector of the state; a feature has two bearing components and the distance parameter
(include/rovio/RobocentricFeatureElement.hpp:60-68). -/
structure DState (n nCam nPose : ℕ) where
  pos : V3
  vel : V3
  acb : V3
  gyb : V3
  att : V3
  vep : Fin nCam → V3
  vea : Fin nCam → V3
  nor : Fin n → V2
  dep : Fin n → ℝ
  pop : Fin nPose → V3
  poa : Fin nPose → V3

namespace DState

variable {n nCam nPose : ℕ}

/-- Scaling of an increment. -/
def scale (t : ℝ) (δ : DState n nCam nPose) : DState n nCam nPose :=
  { pos := t • δ.pos, vel := t • δ.vel, acb := t • δ.acb, gyb := t • δ.gyb, att := t • δ.att,
    vep := fun i => t • δ.vep i, vea := fun i => t • δ.vea i, nor := fun i => t • δ.nor i, dep := fun i => t * δ.dep i,
    pop := fun i => t • δ.pop i, poa := fun i => t • δ.poa i }

end DState

namespace Fea

/-- `RobocentricFeatureElement::boxPlus`, include/rovio/RobocentricFeatureElement.hpp:60-68, for a feature whose bearing is
already computed (`valid_nor_`; `FC.boxPlus` is the general version and agrees, see `Fea.boxPlus_coord`). -/
noncomputable def boxPlus (f : Fea) (d : V2) (p : ℝ) : Fea :=
  { c := f.c.setNor (f.c.nor.boxPlus d) false, d := { f.d with p := f.d.p + p } }

end Fea

namespace State

variable {n nCam nPose : ℕ}

/-- `qCM(camID)`, include/rovio/FilterStates.hpp:279-294. -/
def qCM (s : State n nCam nPose) (i : Fin nCam) : Quat := if s.aux.doVE then s.vea i else s.aux.qCM i

/-- `MrMC(camID)`, include/rovio/FilterStates.hpp:303-318. -/
def MrMC (s : State n nCam nPose) (i : Fin nCam) : V3 := if s.aux.doVE then s.vep i else s.aux.MrMC i

/-- `WrWC(camID)`, include/rovio/FilterStates.hpp:327-330. -/
def WrWC (s : State n nCam nPose) (i : Fin nCam) : V3 := s.pos + s.att.rotate (s.MrMC i)

/-- `qCW(camID)`, include/rovio/FilterStates.hpp:340-343. -/
def qCW (s : State n nCam nPose) (i : Fin nCam) : Quat := s.qCM i * s.att.inv

/-- State increment (LWF `State::boxPlus`: every element by its own rule; the auxiliary element is copied). -/
noncomputable def boxPlus (s : State n nCam nPose) (δ : DState n nCam nPose) : State n nCam nPose :=
  { pos := s.pos + δ.pos, vel := s.vel + δ.vel, acb := s.acb + δ.acb, gyb := s.gyb + δ.gyb, att := s.att.boxPlus δ.att,
    vep := fun i => s.vep i + δ.vep i, vea := fun i => (s.vea i).boxPlus (δ.vea i),
    fea := fun i => (s.fea i).boxPlus (δ.nor i) (δ.dep i),
    pop := fun i => s.pop i + δ.pop i, poa := fun i => (s.poa i).boxPlus (δ.poa i), aux := s.aux }

/-- `initWithImuPose`, include/rovio/FilterStates.hpp:582-585. -/
def initWithImuPose (s : State n nCam nPose) (WrWM : V3) (qMW : Quat) : State n nCam nPose :=
  { s with pos := WrWM, att := qMW.inv }

/-- `initWithAccelerometer`, include/rovio/FilterStates.hpp:591-598; `setFromVectors` (kindr) is a parameter. -/
noncomputable def initWithAccelerometer (setFromVectors : V3 → V3 → Quat) (s : State n nCam nPose) (f : V3) : State n nCam nPose :=
  if f.norm > 1e-6 then { s with att := setFromVectors f ⟨0, 0, 1⟩ } else { s with att := Quat.one }

/-- `RovioFilter::setExtrinsics`, include/rovio/RovioFilter.hpp:228-232, on the initial state; the rotation matrix is given by
its quaternion. -/
def setExtrinsics (s : State n nCam nPose) (qCM : Quat) (CrCM : V3) (i : Fin nCam) : State n nCam nPose :=
  { s with aux := { s.aux with
      qCM := Function.update s.aux.qCM i qCM
      MrMC := Function.update s.aux.MrMC i (-(qCM.inv.rotate CrCM)) } }

end State

/-- `MultiCamera`, include/rovio/MultiCamera.hpp:39-43. -/
structure MultiCamera (nCam : ℕ) where
  BrBC : Fin nCam → V3
  qCB : Fin nCam → Quat
  cams : Fin nCam → CamI

/-- `updateMultiCameraExtrinsics`, include/rovio/FilterStates.hpp:438-443. -/
def State.updateMultiCamera {n nCam nPose : ℕ} (s : State n nCam nPose) (mc : MultiCamera nCam) : MultiCamera nCam :=
  { mc with BrBC := fun i => s.MrMC i, qCB := fun i => s.qCM i }

namespace MultiCamera

variable {nCam : ℕ}

/-- The landmark expressed in the other camera, `DrDP`, include/rovio/MultiCamera.hpp:94-97. -/
def moved (mc : MultiCamera nCam) (a b : Fin nCam) (CrCP : V3) : V3 :=
  let qDC := mc.qCB b * (mc.qCB a).inv
  let CrCD := (mc.qCB a).rotate (mc.BrBC b - mc.BrBC a)
  qDC.rotate (CrCP - CrCD)

/-- `transformFeature`, include/rovio/MultiCamera.hpp:86-126; `setFromVector` is LWF's.  `vecOut`, `dOut` are the objects
written to.  Computing the bearing of the input may also update its cache, which is not observable afterwards (C08) and not
returned.  The pixel uncertainty members, reset to zero, are not part of the model of the coordinates. -/
noncomputable def transformFeature (mc : MultiCamera nCam) (setFromVector : V3 → Nor) (i : Fin nCam) (vecIn : FC) (dIn : FeatureDistance)
    (vecOut : FC) (dOut : FeatureDistance) : Option (FC × FeatureDistance) :=
  if vecIn.camID ≠ i.val then do
    let a ← camIdx nCam vecIn.camID
    let (vecIn, nor) ← vecIn.getNor
    let DrDP := mc.moved a i (getDistance dIn • nor.vec)
    let dOut ← setParameter dOut DrDP.norm
    let out := { vecOut with
      nor := setFromVector DrDP, validC := false, validNor := true, camID := i.val, cam := some (mc.cams i),
      trackWarping := vecIn.trackWarping }
    let out :=
      if vecIn.trackWarping then { out with validWarpC := false, validWarpNor := false, isWarpIdentity := false }
      else { out with
        warpC := vecIn.warpC, validWarpC := vecIn.validWarpC, warpNor := vecIn.warpNor, validWarpNor := vecIn.validWarpNor,
        isWarpIdentity := vecIn.isWarpIdentity }
    return (out, dOut)
  else some (vecIn, dIn)

end MultiCamera

end Rovio
