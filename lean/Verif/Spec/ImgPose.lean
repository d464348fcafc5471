import Verif.Spec.AtRestIter
import Verif.Model.ImgPose
import Verif.Spec.Covariance

/-!
# A platform at rest with pose measurements
-/

namespace Rovio.Spec

open Rovio ImgFull Img

variable {n nCam nPose : ℕ}

/-- The measured pose is the one of the measured body in the frame of the measurements that the estimate `x` predicts, as far as position and attitude are used. -/
structure PredictedPose (u : PoseUpd nPose) (x : State n nCam nPose) (m : PoseMeas) : Prop where
  unit : m.att.IsUnit
  pos : u.enablePosition = true → m.pos = u.getIrIW x + (u.getqWI x).inv.rotate (x.pos + x.att.rotate (u.getMrMV x))
  att : u.enableAttitude = true → m.att = u.getqVM x * x.att.inv * u.getqWI x

/-- An input that says what a platform with estimate `x` at rest expects, pose measurements included. -/
def ExpectedAtRestOrPose (u : PoseUpd nPose) (x : State n nCam nPose) : PInput n nCam nPose → Prop
  | .input e => ExpectedAtRest x e
  | .pose m => PredictedPose u x m

/-- What the inputs are is sound: resets are to states without features whose covariance is one and whose rotations are rotations; measured attitudes are rotations; the noise
that the settings `u` of the pose update give a measurement is a covariance. -/
def SoundOrPose (u : PoseUpd nPose) (good : ImgFull.FSt n nCam nPose → Prop) : PInput n nCam nPose → Prop
  | .input (.reset init _) => good init
  | .input _ => True
  | .pose m => m.att.IsUnit ∧ IsCov (u.setNoise m).noise

end Rovio.Spec
