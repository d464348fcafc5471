import Verif.Model.Outputs
import Verif.Model.ExpJac

/-!
# Model of `include/rovio/ImuPrediction.hpp`

The prediction noise has one vector per state element (include/rovio/FilterStates.hpp:474-520), so `DState` is used for it:
the components of a feature's noise vector are its bearing part `nor` and its distance part `dep`.
A Jacobian is the linear map `δ ↦ F δ`, one summand per assigned block.
Non-positive time steps give NaN in the code (`sqrt(dt)` in a denominator, lines 103 and 137) and `none` in the model.
-/

namespace Rovio

open Distance

variable {n nCam nPose : ℕ}

/-- `PredictionMeas`, include/rovio/FilterStates.hpp:450-464. -/
structure ImuMeas where
  acc : V3
  gyr : V3

/-- The parameters of the prediction: thresholds of the motion detection and the attitude block of `prenoiP_`,
include/rovio/ImuPrediction.hpp:45,54-55. -/
structure PredCfg where
  rorTh : ℝ
  accTh : ℝ
  attNoise : M3

/-- `g_`, include/rovio/ImuPrediction.hpp:53,59. -/
noncomputable def gravity : V3 := ⟨0, 0, -9.81⟩

/-- Run a partial computation for every index of an array (the loops over features; the order is irrelevant because an
iteration only touches its own slot). -/
def optAll {α : Type} (f : Fin n → Option α) : Option (Fin n → α) :=
  if h : ∀ i, (f i).isSome then some fun i => (f i).get (h i) else none

/-- kindr `fix()` of a quaternion: normalisation. -/
noncomputable def Quat.fix (q : Quat) : Quat :=
  ⟨q.w / Real.sqrt q.normSq, q.x / Real.sqrt q.normSq, q.y / Real.sqrt q.normSq, q.z / Real.sqrt q.normSq⟩

/-- `RobocentricFeatureElement::fix`, include/rovio/RobocentricFeatureElement.hpp:96-100. -/
noncomputable def Fea.fix (f : Fea) : Option Fea := do
  let (c, nor) ← f.c.getNor
  return { f with c := c.setNor ⟨nor.q.fix⟩ false }

namespace State

/-- LWF `State::fix()`: every element by its own rule; vectors and the auxiliary element have nothing to fix. -/
noncomputable def fix (s : State n nCam nPose) : Option (State n nCam nPose) := do
  let fea ← optAll fun i => (s.fea i).fix
  return { s with att := s.att.fix, vea := fun i => (s.vea i).fix, fea := fea, poa := fun i => (s.poa i).fix }

/-- `detectInertialMotion`, include/rovio/ImuPrediction.hpp:285-289. -/
noncomputable def detectInertialMotion (cfg : PredCfg) (s : State n nCam nPose) (m : ImuMeas) : Bool :=
  let imuRor := m.gyr - s.gyb
  let imuAcc := m.acc - s.acb + s.att.inv.rotate gravity
  decide (imuRor.norm > cfg.rorTh) || decide (imuAcc.norm > cfg.accTh)

/-- `noMeasCase`, include/rovio/ImuPrediction.hpp:157-160. -/
noncomputable def noMeasCase (s : State n nCam nPose) : ImuMeas where
  gyr := s.gyb
  acc := s.acb - s.att.inv.rotate gravity

/-- `camRor`, include/rovio/ImuPrediction.hpp:113. -/
def camRor (s : State n nCam nPose) (a : Fin nCam) (imuRor : V3) : V3 := (s.qCM a).rotate imuRor

/-- `camVel`, include/rovio/ImuPrediction.hpp:114. -/
def camVel (s : State n nCam nPose) (a : Fin nCam) (imuRor : V3) : V3 := (s.qCM a).rotate (imuRor.cross (s.MrMC a) - s.vel)

end State

/-- `dm`, include/rovio/ImuPrediction.hpp:118-120 (and without noise 187-188). -/
noncomputable def bearingStep (nor : Nor) (d : FeatureDistance) (camVel camRor : V3) (dt : ℝ) (w : V2) : V3 :=
  (-dt) • ((1 / getDistance d) • (M3.skew nor.vec).mulVec camVel + (M3.one - M3.outer nor.vec nor.vec).mulVec camRor) + Real.sqrt dt • nor.N w

/-- The matrix `dt*gSM(qm.rotate(n))*Lmat(dm)*(...) + MPD(qm)`, include/rovio/ImuPrediction.hpp:125-129 and 199-202. -/
noncomputable def bearingMat (nor : Nor) (d : FeatureDistance) (camVel camRor : V3) (dt : ℝ) (dm : V3) : M3 :=
  let qm := Quat.exp dm
  dt • ((M3.skew (qm.rotate nor.vec)).mul (Lmat dm)).mul
      ((-1.0 / getDistance d) • M3.skew camVel - (nor.vec.dot camRor • M3.one + M3.outer nor.vec camRor)) + qm.mat

namespace State

/-- One iteration of the feature loop, include/rovio/ImuPrediction.hpp:106-133. -/
noncomputable def predictFea (s : State n nCam nPose) (imuRor : V3) (dt : ℝ) (w : DState n nCam nPose) (i : Fin n) : Option Fea :=
  let f := s.fea i
  match camIdx nCam f.c.camID with
  | none => some f
  | some a => do
    let camRor := s.camRor a imuRor
    let camVel := s.camVel a imuRor
    let (oldC, nor) ← f.c.getNor
    let d := { f.d with p := f.d.p - dt * getParameterDerivative f.d * nor.vec.dot camVel + w.dep i * Real.sqrt dt }
    let dm := bearingStep nor f.d camVel camRor dt (w.nor i)
    let nOut := nor.rotated (Quat.exp dm)
    let c := f.c.setNor nOut true
    if f.c.trackWarping then do
      let (_, warp) ← oldC.getWarpNor
      let jac := M2.ofCols fun u => nOut.Mt ((bearingMat nor f.d camVel camRor dt dm).mulVec (nor.M u))
      return { c := c.setWarpNor (jac.mul warp), d := d }
    else return { c := c, d := d }

/-- `evalPrediction`, include/rovio/ImuPrediction.hpp:100-156.  `inPlace`: output and input are the same object, as in the
EKF prediction of LWF; then the motion detection of line 150 reads the already predicted state.  `out` is the state written to
otherwise; its auxiliary data, including the calibration flag selecting where lines 142-144 write, is not copied from `s`. -/
noncomputable def evalPrediction (cfg : PredCfg) (m : ImuMeas) (inPlace : Bool) (out s : State n nCam nPose) (w : DState n nCam nPose) (dt : ℝ) :
    Option (State n nCam nPose) :=
  if dt ≤ 0 then none
  else do
    let out := if inPlace then s else out
    let imuRor := m.gyr - s.gyb + (1 / Real.sqrt dt) • w.att
    let dOmega := dt • imuRor
    let fea ← optAll (s.predictFea imuRor dt w)
    let MrMC := fun i => s.MrMC i + Real.sqrt dt • w.vep i
    let qCM := fun i => Quat.exp (Real.sqrt dt • w.vea i) * s.qCM i
    let out : State n nCam nPose := {
      pos := s.pos - dt • (s.att.rotate s.vel - (1 / Real.sqrt dt) • w.pos)
      vel := (M3.one - M3.skew dOmega).mulVec s.vel - dt • (m.acc - s.acb + s.att.inv.rotate gravity - (1 / Real.sqrt dt) • w.vel)
      acb := s.acb + Real.sqrt dt • w.acb
      gyb := s.gyb + Real.sqrt dt • w.gyb
      att := s.att * Quat.exp dOmega
      vep := if out.aux.doVE then MrMC else out.vep
      vea := if out.aux.doVE then qCM else out.vea
      fea := fea
      pop := fun i => s.pop i + Real.sqrt dt • w.pop i
      poa := fun i => Quat.exp (Real.sqrt dt • w.poa i) * s.poa i
      aux := { out.aux with
        MwWMmeas := m.gyr
        MwWMest := m.gyr - s.gyb
        MrMC := if out.aux.doVE then out.aux.MrMC else MrMC
        qCM := if out.aux.doVE then out.aux.qCM else qCM
        wMeasCov := (1 / dt) • cfg.attNoise } }
    let out ← out.fix
    let moving := (if inPlace then out else s).detectInertialMotion cfg m
    return { out with aux := { out.aux with
      tInertial := if moving then 0 else out.aux.tInertial + dt
      tImage := out.aux.tImage + dt } }

/-- The row of the distance parameter of feature `i` (camera `a`, bearing `nor`) of `jacPreviousState`,
include/rovio/ImuPrediction.hpp:189-196, 215-219 (the extrinsics only when they are estimated). -/
noncomputable def feaJacDep (s : State n nCam nPose) (m : ImuMeas) (dt : ℝ) (i : Fin n) (a : Fin nCam) (nor : Nor) (δ : DState n nCam nPose) : ℝ :=
  let f := s.fea i
  let imuRor := m.gyr - s.gyb
  let camVel := s.camVel a imuRor
  let pd := getParameterDerivative f.d
  let R := (s.qCM a).mat
  (1.0 - dt * getParameterDerivativeCombined f.d * nor.vec.dot camVel) * δ.dep i +
  dt * pd * nor.vec.dot (R.mulVec δ.vel) +
  -dt * pd * nor.vec.dot (((M3.skew ((s.qCM a).rotate (s.MrMC a))).mul R).mulVec δ.gyb) +
  -dt * pd * camVel.dot (nor.M (δ.nor i)) +
  (if s.aux.doVE then
    dt * pd * nor.vec.dot ((M3.skew camVel).mulVec (δ.vea a)) +
    -dt * pd * nor.vec.dot ((R.mul (M3.skew imuRor)).mulVec (δ.vep a))
   else 0)

/-- The vector of which the bearing rows of feature `i` of `jacPreviousState` are the coordinates in the tangent plane of the
predicted bearing, include/rovio/ImuPrediction.hpp:197-215, 221-229. -/
noncomputable def feaJacVec (s : State n nCam nPose) (m : ImuMeas) (dt : ℝ) (i : Fin n) (a : Fin nCam) (nor : Nor) (δ : DState n nCam nPose) : V3 :=
  let f := s.fea i
  let imuRor := m.gyr - s.gyb
  let camRor := s.camRor a imuRor
  let camVel := s.camVel a imuRor
  let d := getDistance f.d
  let dm := bearingStep nor f.d camVel camRor dt 0
  let qm := Quat.exp dm
  let nOut := nor.rotated qm
  let SL := (M3.skew (qm.rotate nor.vec)).mul (Lmat dm)
  let P := M3.one - M3.outer nor.vec nor.vec
  let R := (s.qCM a).mat
  (bearingMat nor f.d camVel camRor dt dm).mulVec (nor.M (δ.nor i)) +
  δ.dep i • ((getDistanceDerivative f.d / (d * d)) • (-((M3.skew nOut.vec).mul (Lmat dm))).mulVec (dt • (M3.skew nor.vec).mulVec camVel)) +
  (-SL).mulVec ((dt / d) • ((M3.skew nor.vec).mul R).mulVec δ.vel) +
  SL.mulVec ((-P + (1.0 / d) • (M3.skew nor.vec).mul (M3.skew ((s.qCM a).rotate (s.MrMC a)))).mulVec (dt • R.mulVec δ.gyb)) +
  (if s.aux.doVE then
    (-SL).mulVec (P.mulVec (dt • (M3.skew camRor).mulVec (δ.vea a))) -
      SL.mulVec ((dt / d) • ((M3.skew nor.vec).mul (M3.skew camVel)).mulVec (δ.vea a)) +
    SL.mulVec ((dt / d) • (((M3.skew nor.vec).mul R).mul (M3.skew imuRor)).mulVec (δ.vep a))
   else 0)

/-- The rows of feature `i` of `jacPreviousState`, include/rovio/ImuPrediction.hpp:180-233; the rows of a slot without a camera
stay zero. -/
noncomputable def feaJac (s : State n nCam nPose) (m : ImuMeas) (dt : ℝ) (i : Fin n) (δ : DState n nCam nPose) : Option (V2 × ℝ) :=
  let f := s.fea i
  match camIdx nCam f.c.camID with
  | none => some (0, 0)
  | some a => do
    let imuRor := m.gyr - s.gyb
    let (_, nor) ← f.c.getNor
    let dm := bearingStep nor f.d (s.camVel a imuRor) (s.camRor a imuRor) dt 0
    let nOut := nor.rotated (Quat.exp dm)
    return (nOut.Mt (s.feaJacVec m dt i a nor δ), s.feaJacDep m dt i a nor δ)

/-- The blocks of `jacPreviousState` around the feature rows `fea`, include/rovio/ImuPrediction.hpp:162-177, 234-241. -/
noncomputable def predJacOf (s : State n nCam nPose) (m : ImuMeas) (dt : ℝ) (δ : DState n nCam nPose) (fea : Fin n → V2 × ℝ) : DState n nCam nPose :=
  let dOmega := dt • (m.gyr - s.gyb)
  { pos := M3.one.mulVec δ.pos + ((-dt) • s.att.mat).mulVec δ.vel + (dt • M3.skew (s.att.rotate s.vel)).mulVec δ.att
    vel := (M3.one - M3.skew dOmega).mulVec δ.vel + (dt • M3.one).mulVec δ.acb + ((-dt) • M3.skew s.vel).mulVec δ.gyb +
      ((-dt) • s.att.mat.tr.mul (M3.skew gravity)).mulVec δ.att
    acb := M3.one.mulVec δ.acb
    gyb := M3.one.mulVec δ.gyb
    att := ((-dt) • s.att.mat.mul (Lmat dOmega)).mulVec δ.gyb + M3.one.mulVec δ.att
    vep := fun c => M3.one.mulVec (δ.vep c)
    vea := fun c => M3.one.mulVec (δ.vea c)
    nor := fun i => (fea i).1
    dep := fun i => (fea i).2
    pop := fun k => M3.one.mulVec (δ.pop k)
    poa := fun k => M3.one.mulVec (δ.poa k) }

/-- `jacPreviousState`, include/rovio/ImuPrediction.hpp:161-241. -/
noncomputable def predJac (s : State n nCam nPose) (m : ImuMeas) (dt : ℝ) (δ : DState n nCam nPose) : Option (DState n nCam nPose) :=
  (optAll fun i => s.feaJac m dt i δ).map (s.predJacOf m dt δ)

/-- The row of the distance parameter of feature `i` of `jacNoise`, include/rovio/ImuPrediction.hpp:272-274. -/
noncomputable def feaNoiseDep (s : State n nCam nPose) (dt : ℝ) (i : Fin n) (a : Fin nCam) (nor : Nor) (w : DState n nCam nPose) : ℝ :=
  Real.sqrt dt * w.dep i +
  Real.sqrt dt * getParameterDerivative (s.fea i).d *
    nor.vec.dot (((M3.skew ((s.qCM a).rotate (s.MrMC a))).mul (s.qCM a).mat).mulVec w.att)

/-- The vector of which the bearing rows of feature `i` of `jacNoise` are the coordinates in the tangent plane of the predicted
bearing, include/rovio/ImuPrediction.hpp:275-281. -/
noncomputable def feaNoiseVec (s : State n nCam nPose) (m : ImuMeas) (dt : ℝ) (i : Fin n) (a : Fin nCam) (nor : Nor) (w : DState n nCam nPose) : V3 :=
  let f := s.fea i
  let imuRor := m.gyr - s.gyb
  let dm := bearingStep nor f.d (s.camVel a imuRor) (s.camRor a imuRor) dt 0
  let SL := (M3.skew ((Quat.exp dm).rotate nor.vec)).mul (Lmat dm)
  let P := M3.one - M3.outer nor.vec nor.vec
  (-SL).mulVec (Real.sqrt dt • nor.N (w.nor i)) +
  (-SL).mulVec ((-P + (1.0 / getDistance f.d) • (M3.skew nor.vec).mul (M3.skew ((s.qCM a).rotate (s.MrMC a)))).mulVec
    (Real.sqrt dt • (s.qCM a).mat.mulVec w.att))

/-- The rows of feature `i` of `jacNoise`, include/rovio/ImuPrediction.hpp:260-282. -/
noncomputable def feaNoise (s : State n nCam nPose) (m : ImuMeas) (dt : ℝ) (i : Fin n) (w : DState n nCam nPose) : Option (V2 × ℝ) :=
  let f := s.fea i
  match camIdx nCam f.c.camID with
  | none => some (0, 0)
  | some a => do
    let imuRor := m.gyr - s.gyb
    let (_, nor) ← f.c.getNor
    let dm := bearingStep nor f.d (s.camVel a imuRor) (s.camRor a imuRor) dt 0
    let nOut := nor.rotated (Quat.exp dm)
    return (nOut.Mt (s.feaNoiseVec m dt i a nor w), s.feaNoiseDep dt i a nor w)

/-- The blocks of `jacNoise` around the feature rows `fea`, include/rovio/ImuPrediction.hpp:243-259. -/
noncomputable def noiseJacOf (s : State n nCam nPose) (m : ImuMeas) (dt : ℝ) (w : DState n nCam nPose) (fea : Fin n → V2 × ℝ) : DState n nCam nPose :=
  let dOmega := dt • (m.gyr - s.gyb)
  { pos := (Real.sqrt dt • M3.one).mulVec w.pos
    vel := (Real.sqrt dt • M3.one).mulVec w.vel + (Real.sqrt dt • M3.skew s.vel).mulVec w.att
    acb := (Real.sqrt dt • M3.one).mulVec w.acb
    gyb := (Real.sqrt dt • M3.one).mulVec w.gyb
    att := (Real.sqrt dt • s.att.mat.mul (Lmat dOmega)).mulVec w.att
    vep := fun c => (Real.sqrt dt • M3.one).mulVec (w.vep c)
    vea := fun c => (Real.sqrt dt • M3.one).mulVec (w.vea c)
    nor := fun i => (fea i).1
    dep := fun i => (fea i).2
    pop := fun k => (Real.sqrt dt • M3.one).mulVec (w.pop k)
    poa := fun k => (Real.sqrt dt • M3.one).mulVec (w.poa k) }

/-- `jacNoise`, include/rovio/ImuPrediction.hpp:242-284. -/
noncomputable def noiseJac (s : State n nCam nPose) (m : ImuMeas) (dt : ℝ) (w : DState n nCam nPose) : Option (DState n nCam nPose) :=
  (optAll fun i => s.feaNoise m dt i w).map (s.noiseJacOf m dt w)

end State

end Rovio
