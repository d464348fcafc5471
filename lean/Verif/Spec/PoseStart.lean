import Verif.Spec.ImgPose

/-!
# The first pose measurement
-/

namespace Rovio.Spec

open Rovio ImgFull Img

variable {n nCam nPose : ℕ}

/-- Two estimates with the same odometry: position, velocity, biases, attitude and mounting of the cameras; the additional poses (the alignment of the frame of the pose
measurements among them) may differ. -/
structure SameOdometry (s s' : State n nCam nPose) : Prop where
  pos : s'.pos = s.pos
  vel : s'.vel = s.vel
  acb : s'.acb = s.acb
  gyb : s'.gyb = s.gyb
  att : s'.att = s.att
  qCM : ∀ c, s'.qCM c = s.qCM c
  MrMC : ∀ c, s'.MrMC c = s.MrMC c

/-- The pose update is going to align the frames with the next measurement, and its settings make sense: the frame alignment and the mounting of the measured body are not the
same element of the state, the configured mounting is a rotation. -/
structure AboutToAlign (u : PoseUpd nPose) : Prop where
  enabled : u.doAlign = true
  first : u.didAlign = false
  distinct : ∀ k, u.inertial = some k → u.body ≠ some k
  unit : u.qVM.IsUnit

/-- An input at rest, where all measured poses are the pose `m`. -/
def AtRestOrThePose (m : PoseMeas) (x : State n nCam nPose) : PInput n nCam nPose → Prop
  | .input e => ExpectedAtRest x e
  | .pose m' => m' = m

end Rovio.Spec
