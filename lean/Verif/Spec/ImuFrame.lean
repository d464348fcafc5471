import Verif.Spec.ExtFrame

/-!
# Changing the axes of the IMU

The body frame `M` of the filter is that of the IMU.  A change of its axes (another way to glue the IMU to the same place, or another convention for its axes) turns all vectors
expressed in it by a fixed rotation.  The world, the cameras, the features and the external body stay where they are: only their mounting relative to the IMU is
expressed differently.
-/

namespace Rovio.Spec

variable {n nCam nPose : ℕ}

/-- A change of the axes of the IMU: coordinates are turned by `q`. -/
structure ImuFrame where
  q : Quat

namespace ImuFrame

/-- The change in the other direction. -/
def back (f : ImuFrame) : ImuFrame := ⟨f.q.inv⟩

/-- The coordinates of a vector along the new axes. -/
def vec (f : ImuFrame) (v : V3) : V3 := f.q.rotate v

/-- A rotation that starts from the IMU, from the new axes. -/
def att (f : ImuFrame) (a : Quat) : Quat := a * f.q.inv

/-- A covariance of a vector along the new axes. -/
def tensor (f : ImuFrame) (A : M3) : M3 := (f.q.mat.mul A).mul f.q.mat.tr

/-- The rotation matrix. -/
def rot (f : ImuFrame) : Matrix (Fin 3) (Fin 3) ℝ :=
  Matrix.of fun k l => (f.q.rotate ⟨if l = 0 then 1 else 0, if l = 1 then 1 else 0, if l = 2 then 1 else 0⟩).at k

/-- What the IMU with the new axes measures. -/
def imu (f : ImuFrame) (m : ImuMeas) : ImuMeas := ⟨f.vec m.acc, f.vec m.gyr⟩

/-- The same auxiliary data: angular rates and mounting of the cameras. -/
def aux (f : ImuFrame) (a : Aux nCam) : Aux nCam :=
  { a with MwWMest := f.vec a.MwWMest, MwWMmeas := f.vec a.MwWMmeas, wMeasCov := f.tensor a.wMeasCov, qCM := fun c => f.att (a.qCM c), MrMC := fun c => f.vec (a.MrMC c) }

/-- The same estimate, if the additional pose `k` (if any) is the estimated mounting of the external body relative to the IMU.  Position, features and the other additional poses stay. -/
def state (f : ImuFrame) (k : Option (Fin nPose)) (s : State n nCam nPose) : State n nCam nPose :=
  { s with
    vel := f.vec s.vel
    acb := f.vec s.acb
    gyb := f.vec s.gyb
    att := f.att s.att
    vep := fun c => f.vec (s.vep c)
    vea := fun c => f.att (s.vea c)
    pop := fun j => if k = some j then f.vec (s.pop j) else s.pop j
    poa := fun j => if k = some j then f.att (s.poa j) else s.poa j
    aux := f.aux s.aux }

/-- Estimation errors along the new axes: those of velocity, biases and of positions relative to the IMU are turned; attitude errors are expressed in the frame the rotation leads
to and stay. -/
def mat (f : ImuFrame) (k : Option (Fin nPose)) : Cov n nCam nPose := Matrix.of fun
  | .vel a, .vel b => f.rot a b
  | .acb a, .acb b => f.rot a b
  | .gyb a, .gyb b => f.rot a b
  | .vep c a, .vep d b => if c = d then f.rot a b else 0
  | .pop i a, .pop j b => if i = j then (if k = some i then f.rot a b else if a = b then 1 else 0) else 0
  | a, b => if a = b then 1 else 0

/-- The same covariance. -/
def cov (f : ImuFrame) (k : Option (Fin nPose)) (P : Cov n nCam nPose) : Cov n nCam nPose := f.mat k * P * (f.mat k).transpose

/-- The same settings of the pose update: the configured mounting of the external body, used if it is not estimated, is converted. -/
def settings (f : ImuFrame) (u : PoseUpd nPose) : PoseUpd nPose := { u with qVM := f.att u.qVM, MrMV := f.vec u.MrMV }

/-- The same configuration: the rotation of the velocity sensor and the noise of the gyroscope are converted. -/
def cfg (f : ImuFrame) (c : FCfg n nCam nPose) : FCfg n nCam nPose := { c with qAM := f.att c.qAM, pred := { c.pred with attNoise := f.tensor c.pred.attNoise } }

/-- The same step: IMU measurements are those of the new axes, measured velocities and poses of other sensors are the same, and what depends on the estimate (the decisions of the
zero velocity update, of image processing and of feature management) is the same function of the same physical estimate. -/
def step (f : ImuFrame) : Step n nCam nPose → Step n nCam nPose
  | .predict m dt => .predict (f.imu m) dt
  | .velocity v => .velocity v
  | .zeroVel trigger => .zeroVel fun s => trigger (f.back.state none s)
  | .image alg => .image fun s P => (alg (f.back.state none s) (f.back.cov none P)).map fun c => { c with lin := f.state none c.lin }
  | .manage alg => .manage fun s P => let r := alg (f.back.state none s) (f.back.cov none P); { r with aux := f.aux r.aux }
  | .pose m => .pose m

/-- Two filters that differ by the axes of the IMU only. -/
structure Moved (f : ImuFrame) (x y : FSt n nCam nPose) : Prop where
  s : y.s = f.state x.u.body x.s
  P : y.P = f.cov x.u.body x.P
  u : y.u = f.settings x.u

end ImuFrame

/-- The configured noise does not prefer an axis of the IMU: one variance for the three axes of the accelerometer, of the gyroscope, of their biases and of each estimated position relative to
the IMU, and one for the zero velocity. -/
structure NoPreferredAxis (cfg : FCfg n nCam nPose) (body : Option (Fin nPose)) : Prop where
  vel : ∀ l l', cfg.q (.vel l) = cfg.q (.vel l')
  acb : ∀ l l', cfg.q (.acb l) = cfg.q (.acb l')
  gyb : ∀ l l', cfg.q (.gyb l) = cfg.q (.gyb l')
  att : ∀ l l', cfg.q (.att l) = cfg.q (.att l')
  vep : ∀ c l l', cfg.q (.vep c l) = cfg.q (.vep c l')
  pop : ∀ j l l', body = some j → cfg.q (.pop j l) = cfg.q (.pop j l')
  zero : ∃ a : ℝ, cfg.zeroR = a • 1
  gate : AxisFree cfg.gateZ

/-- Errors that are not expressed along the axes of the IMU. -/
def Worldly (body : Option (Fin nPose)) : Ix n nCam nPose → Prop
  | .pos _ | .att _ | .vea _ _ | .nor _ _ | .dep _ | .poa _ _ => True
  | .pop j _ => body ≠ some j
  | .vel _ | .acb _ | .gyb _ | .vep _ _ => False

end Rovio.Spec
