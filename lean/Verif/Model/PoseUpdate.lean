import Verif.Model.FilterState
import Mathlib.Data.Matrix.Block

/-!
# Model of `include/rovio/PoseUpdate.hpp`, `include/rovio/VelocityUpdate.hpp` and `include/rovio/ZeroVelocityUpdate.hpp`

Reals for doubles.  Jacobians are given by their action on an increment of the state, the position of a block in the matrix being
replaced by the field it multiplies.  The template indices (`-1`: not estimated) are `none` or a valid index, as enforced by the
static assertions (include/rovio/PoseUpdate.hpp:149-150).  The outlier detection, the property registers and the time offset are
not modelled.
-/

namespace Rovio

variable {n nCam nPose : ℕ}

/-- Rows and columns of the update noise: position (left) and attitude (right), include/rovio/PoseUpdate.hpp:88-111. -/
abbrev PoseIx := Fin 3 ⊕ Fin 3

/-- `PoseUpdateMeas`, include/rovio/PoseUpdate.hpp:59-87: measured position `IrIV`, attitude `qVI`, covariance. -/
structure PoseMeas where
  pos : V3
  att : Quat
  cov : Matrix PoseIx PoseIx ℝ

/-- The members of `PoseUpdate`, include/rovio/PoseUpdate.hpp:134-147. -/
structure PoseUpd (nPose : ℕ) where
  inertial : Option (Fin nPose)
  body : Option (Fin nPose)
  qVM : Quat
  MrMV : V3
  qWI : Quat
  IrIW : V3
  defaultNoise : Matrix PoseIx PoseIx ℝ
  noise : Matrix PoseIx PoseIx ℝ
  enablePosition : Bool
  enableAttitude : Bool
  noFeedback : Bool
  doAlign : Bool
  didAlign : Bool
  useOdometryCov : Bool

/-- `PoseInnovation`, include/rovio/PoseUpdate.hpp:38-58. -/
structure PoseInnov where
  pos : V3
  att : Quat

/-- A tangent vector at an innovation, also the noise (`PoseUpdateNoise`, include/rovio/PoseUpdate.hpp:88-111). -/
structure DPose where
  pos : V3
  att : V3

namespace PoseUpd

/-- `get_IrIW`, include/rovio/PoseUpdate.hpp:199-205. -/
def getIrIW (u : PoseUpd nPose) (s : State n nCam nPose) : V3 := match u.inertial with | some k => s.pop k | none => u.IrIW
/-- `get_qWI`, include/rovio/PoseUpdate.hpp:206-212. -/
def getqWI (u : PoseUpd nPose) (s : State n nCam nPose) : Quat := match u.inertial with | some k => s.poa k | none => u.qWI
/-- `get_MrMV`, include/rovio/PoseUpdate.hpp:213-219. -/
def getMrMV (u : PoseUpd nPose) (s : State n nCam nPose) : V3 := match u.body with | some k => s.pop k | none => u.MrMV
/-- `get_qVM`, include/rovio/PoseUpdate.hpp:220-226. -/
def getqVM (u : PoseUpd nPose) (s : State n nCam nPose) : Quat := match u.body with | some k => s.poa k | none => u.qVM

/-- `evalInnovation`, include/rovio/PoseUpdate.hpp:227-242. -/
noncomputable def innov (u : PoseUpd nPose) (meas : PoseMeas) (s : State n nCam nPose) (noise : DPose) : PoseInnov where
  pos := if u.enablePosition then
      u.getIrIW s + (u.getqWI s).inv.rotate (s.pos + s.att.rotate (u.getMrMV s)) - meas.pos + noise.pos
    else noise.pos
  att := if u.enableAttitude then
      Quat.exp noise.att * u.getqVM s * s.att.inv * u.getqWI s * meas.att.inv
    else Quat.exp noise.att

/-- The action of the columns of the additional positions: a block for the inertial frame, then one for the body frame, which
replaces the former if both indices coincide. -/
def twoBlocks (i b : Option (Fin nPose)) (A B : M3) (δ : Fin nPose → V3) : V3 :=
  (match i with | some k => if b = some k then 0 else A.mulVec (δ k) | none => 0) + (match b with | some k => B.mulVec (δ k) | none => 0)

/-- The action of the columns of one additional pose only. -/
def oneBlock (i : Option (Fin nPose)) (A : M3) (δ : Fin nPose → V3) : V3 :=
  match i with | some k => A.mulVec (δ k) | none => 0

/-- `jacState`, include/rovio/PoseUpdate.hpp:243-277. -/
def jacState (u : PoseUpd nPose) (s : State n nCam nPose) (δ : DState n nCam nPose) : DPose where
  pos := if u.enablePosition then
      (if u.noFeedback then 0 else
        (u.getqWI s).inv.mat.mulVec δ.pos + ((-(u.getqWI s).inv.mat).mul (M3.skew (s.att.rotate (u.getMrMV s)))).mulVec δ.att) +
      twoBlocks u.inertial u.body M3.one ((u.getqWI s).inv * s.att).mat δ.pop +
      oneBlock u.inertial ((M3.skew ((u.getqWI s).inv.rotate (s.pos + s.att.rotate (u.getMrMV s)))).mul (u.getqWI s).inv.mat) δ.poa
    else 0
  att := if u.enableAttitude then
      (if u.noFeedback then 0 else (-(u.getqVM s * s.att.inv).mat).mulVec δ.att) +
      twoBlocks u.inertial u.body (u.getqVM s * s.att.inv).mat M3.one δ.poa
    else 0

/-- `jacNoise`, include/rovio/PoseUpdate.hpp:278-282. -/
def jacNoise (ν : DPose) : DPose where
  pos := M3.one.mulVec ν.pos
  att := M3.one.mulVec ν.att


/-- The alignment part of `preProcess`, include/rovio/PoseUpdate.hpp:286-298.  The rotation is written before the position is
computed, which matters only if both template indices coincide. -/
def align (u : PoseUpd nPose) (meas : PoseMeas) (s : State n nCam nPose) : PoseUpd nPose × State n nCam nPose :=
  if u.didAlign = false ∧ u.doAlign = true then
    let qWI := s.att * (u.getqVM s).inv * meas.att
    let s₁ := match u.inertial with | some k => { s with poa := Function.update s.poa k qWI } | none => s
    let IrIW := meas.pos - qWI.inv.rotate (s₁.pos + s₁.att.rotate (u.getMrMV s₁))
    let s₂ := match u.inertial with | some k => { s₁ with pop := Function.update s₁.pop k IrIW } | none => s₁
    ({ u with qWI := qWI, IrIW := IrIW, didAlign := true }, s₂)
  else (u, s)

/-- The covariance part of `preProcess`, include/rovio/PoseUpdate.hpp:301-313. -/
noncomputable def setNoise (u : PoseUpd nPose) (meas : PoseMeas) : PoseUpd nPose :=
  if u.useOdometryCov then
    let M := u.defaultNoise * meas.cov
    { u with noise := if u.enablePosition ≠ u.enableAttitude then Matrix.fromBlocks M.toBlocks₁₁ 0 0 M.toBlocks₂₂ else M }
  else { u with noise := u.defaultNoise }

/-- `preProcess`, include/rovio/PoseUpdate.hpp:283-317. -/
noncomputable def preProcess (u : PoseUpd nPose) (meas : PoseMeas) (s : State n nCam nPose) : PoseUpd nPose × State n nCam nPose :=
  ((u.align meas s).1.setNoise meas, (u.align meas s).2)

/-- `postProcess`, include/rovio/PoseUpdate.hpp:318-325: the measured pose of camera 0 is recorded for display. -/
def postProcess (u : PoseUpd nPose) (meas : PoseMeas) (s : State n (nCam + 1) nPose) : State n (nCam + 1) nPose :=
  { s with aux := { s.aux with
      poseMeasLin := (u.getqWI s).rotate (meas.pos - ((u.getqWI s).inv * s.att).rotate (u.getMrMV s) - u.getIrIW s) + s.att.rotate (s.MrMC 0)
      poseMeasRot := s.qCM 0 * (u.getqVM s).inv * meas.att * (u.getqWI s).inv } }

end PoseUpd

/-- `VelocityUpdate::evalInnovation`, include/rovio/VelocityUpdate.hpp:166-168 (`qAM` is the configured rotation). -/
def velInnov (qAM : Quat) (meas : V3) (s : State n nCam nPose) (noise : V3) : V3 := qAM.rotate s.vel + meas + noise

/-- `VelocityUpdate::jacState`, include/rovio/VelocityUpdate.hpp:177-180. -/
def velJac (qAM : Quat) (δ : DState n nCam nPose) : V3 := qAM.mat.mulVec δ.vel

/-- `VelocityUpdate::jacNoise`, include/rovio/VelocityUpdate.hpp:189-192. -/
def velJacNoise (ν : V3) : V3 := M3.one.mulVec ν

/-- `ZeroVelocityUpdate::evalInnovation`, include/rovio/ZeroVelocityUpdate.hpp:144-146. -/
def zeroVelInnov (s : State n nCam nPose) (noise : V3) : V3 := s.vel + noise

/-- `ZeroVelocityUpdate::jacState`, include/rovio/ZeroVelocityUpdate.hpp:155-158. -/
def zeroVelJac (δ : DState n nCam nPose) : V3 := M3.one.mulVec δ.vel

/-- `ZeroVelocityUpdate::jacNoise`, include/rovio/ZeroVelocityUpdate.hpp:167-170. -/
def zeroVelJacNoise (ν : V3) : V3 := M3.one.mulVec ν

end Rovio
