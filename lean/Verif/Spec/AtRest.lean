import Verif.Spec.Influence

/-!
# Measurements that say nothing new

An independent description of inputs that agree with the estimate, and of what a measurement is about.
-/

namespace Rovio.Spec

open Rovio

variable {n nCam nPose : ℕ}

/-- Two estimates with the same platform: position, velocity, biases, attitude, mounting of the cameras, additional poses. -/
structure SamePlatformNumbers (s s' : State n nCam nPose) : Prop where
  pos : s'.pos = s.pos
  vel : s'.vel = s.vel
  acb : s'.acb = s.acb
  gyb : s'.gyb = s.gyb
  att : s'.att = s.att
  qCM : ∀ c, s'.qCM c = s.qCM c
  MrMC : ∀ c, s'.MrMC c = s.MrMC c
  pop : ∀ j, s'.pop j = s.pop j
  poa : ∀ j, s'.poa j = s.poa j

/-- Two estimates with the same features: camera, bearing and distance. -/
structure SameLandmarks (s s' : State n nCam nPose) : Prop where
  camID : ∀ i, (s'.fea i).c.camID = (s.fea i).c.camID
  nor : ∀ i, (s'.fea i).c.nor = (s.fea i).c.nor
  d : ∀ i, (s'.fea i).d = (s.fea i).d

/-- The input says what the estimate `s` predicts.  IMU: the platform is at rest, the gyroscopes measure their biases and the accelerometers their biases and gravity (pointing
down in the world with 9.81).  Velocity: the negative of the estimated one (the sign convention of the measurement), in the frame of the measurement.  No motion: the
velocity is zero.  Image: the innovation is zero.  Pose: the one of the measured body in the frame of the measurements, as far as it is used.  Changes of features leave the
auxiliary data alone. -/
def Agrees (cfg : FCfg n nCam nPose) (u : PoseUpd nPose) (s : State n nCam nPose) : Step n nCam nPose → Prop
  | .predict m _ => s.vel = 0 ∧ m.gyr = s.gyb ∧ s.att.rotate (m.acc - s.acb) = ⟨0, 0, 9.81⟩
  | .velocity v => v = -cfg.qAM.rotate s.vel
  | .zeroVel _ => s.vel = 0
  | .image alg => ∀ o P c, alg o P = some c → c.y = 0
  | .manage alg => ∀ o P, (alg o P).aux = o.aux
  | .pose m => (u.enablePosition = true → m.pos = u.getIrIW s + (u.getqWI s).inv.rotate (s.pos + s.att.rotate (u.getMrMV s))) ∧
      (u.enableAttitude = true → m.att = u.getqVM s * s.att.inv * u.getqWI s)

/-- Feature management. -/
def IsManage : Step n nCam nPose → Prop
  | .manage _ => True
  | _ => False

/-- The coordinates a measurement is about.  Velocity and absence of motion: the velocity.  Match: bearing and distance of the feature and the mounting of the cameras.  Pose:
position, attitude and the additional poses. -/
def About : Step n nCam nPose → Ix n nCam nPose → Prop
  | .velocity _, .vel _ => True
  | .zeroVel _, .vel _ => True
  | .image alg, .nor i _ => ∃ o P c, alg o P = some c ∧ c.i = i
  | .image alg, .dep i => ∃ o P c, alg o P = some c ∧ c.i = i
  | .image _, .vep _ _ => True
  | .image _, .vea _ _ => True
  | .pose _, .pos _ => True
  | .pose _, .att _ => True
  | .pose _, .pop _ _ => True
  | .pose _, .poa _ _ => True
  | _, _ => False

end Rovio.Spec
