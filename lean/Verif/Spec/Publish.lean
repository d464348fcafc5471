import Verif.Model.Publish

/-!
# Specification vocabulary for what the node sends out

How a ROS client reads transforms and messages, and where things are according to the estimate.
-/

namespace Rovio.Publish.Spec

open Rovio.Publish

variable {n nCam nPose : ℕ} {Q : Type}

/-- A vector rotated by a ROS (Hamilton) quaternion with vector part `u`: `v + 2 w (u × v) + 2 u × (u × v)`. -/
def rosRotate (q : Quat) (v : V3) : V3 :=
  let u : V3 := ⟨q.x, q.y, q.z⟩
  v + (2 * q.w) • u.cross v + (2 : ℝ) • u.cross (u.cross v)

/-- A transform gives the coordinates in the parent frame of a point with coordinates `v` in the child frame. -/
def apply (x : Tf) (v : V3) : V3 := x.origin + rosRotate x.rot v

/-- What a tf client may answer from the transforms `l` for the coordinates in frame `b` of a point given in frame `a`: any path of
transforms from `a` up to `b`. -/
inductive Lookup (l : List Tf) : String → String → (V3 → V3) → Prop
  | here (a : String) : Lookup l a a id
  | up (x : Tf) (b : String) (f : V3 → V3) : x ∈ l → Lookup l x.frame b f → Lookup l x.child b (fun v => f (apply x v))

/-- World coordinates of a point given in IMU coordinates. -/
def imuToWorld (s : State n (nCam + 1) nPose) (v : V3) : V3 := s.pos + s.att.rotate v

/-- IMU coordinates of a point given in coordinates of camera `c`. -/
def camToImu (s : State n (nCam + 1) nPose) (c : Fin (nCam + 1)) (v : V3) : V3 := s.MrMC c + (s.qCM c).inv.rotate v

/-- Coordinates in the pose sensor's inertial frame of a point given in world coordinates. -/
def worldToMap (s : State n (nCam + 1) nPose) (p : Fin nPose) (v : V3) : V3 := s.pop p + (s.poa p).inv.rotate v

/-- The names of the frames are different. -/
structure Distinct (f : Frames) : Prop where
  map_world : f.map ≠ f.world
  map_imu : f.map ≠ f.imu
  world_imu : f.world ≠ f.imu
  cam_map : ∀ c, f.cam c ≠ f.map
  cam_world : ∀ c, f.cam c ≠ f.world
  cam_imu : ∀ c, f.cam c ≠ f.imu

/-- The rotations of the estimate are rotations; every feature in use has a camera and a bearing; the index of the pose of the pose
sensor exists if it is set. -/
structure Sound (cfg : Cfg) (e : Est n nCam nPose Q) : Prop where
  att : e.state.att.IsUnit
  cam : ∀ c, (e.state.qCM c).IsUnit
  pose : ∀ p, (e.state.poa p).IsUnit
  feature : ∀ i, e.valid i = true → (e.state.fea i).c.validNor = true ∧ 0 ≤ (e.state.fea i).c.camID ∧ (e.state.fea i).c.camID < nCam + 1
  index : cfg.inertialPose < nPose

/-- The transforms sent. -/
def tfs (l : List (Out nCam)) : List Tf := l.filterMap fun o => match o with | .tf x => some x | .msg _ => none

/-- The messages sent. -/
def msgs (l : List (Out nCam)) : List (Msg nCam) := l.filterMap fun o => match o with | .tf _ => none | .msg m => some m

/-- The stamp of what is sent. -/
def stamp : Out nCam → ℝ
  | .tf x => x.stamp
  | .msg m => m.stamp

/-- Is a message on the topic due?  Somebody subscribed or it is switched on; point cloud and lines only come together; the message on
the pose sensor's frame shares the switch of the transforms and needs an estimate of that frame. -/
def Due (cfg : Cfg) (subs : Topic nCam → Bool) : Topic nCam → Prop
  | .odometry => subs .odometry = true ∨ cfg.force.odometry = true
  | .poseWithCovariance => subs .poseWithCovariance = true ∨ cfg.force.poseWithCovariance = true
  | .transform => subs .transform = true ∨ cfg.force.transform = true
  | .transformJW => (subs .transformJW = true ∨ cfg.force.transform = true) ∧ 0 ≤ cfg.inertialPose
  | .extrinsics c => subs (.extrinsics c) = true ∨ cfg.force.extrinsics = true
  | .imuBias => subs .imuBias = true ∨ cfg.force.imuBias = true
  | .pcl => subs .pcl = true ∨ subs .markers = true ∨ cfg.force.pcl = true ∨ cfg.force.markers = true
  | .markers => subs .pcl = true ∨ subs .markers = true ∨ cfg.force.pcl = true ∨ cfg.force.markers = true
  | .patch => subs .patch = true ∨ cfg.force.patch = true

/-- The point of a feature in coordinates of its camera. -/
noncomputable def cameraPoint (s : State n (nCam + 1) nPose) (i : Fin n) : V3 :=
  Distance.getDistance (s.fea i).d • (s.fea i).c.nor.vec

/-- What a message must say about the estimate; for the lines of the markers see C57. -/
def Says (cfg : Cfg) (e : Est n nCam nPose Q) (m : Msg nCam) : Prop :=
  match m.topic, m.content with
  | .odometry, .odometry pos rot lin ang => m.frame = cfg.frames.world ∧ m.child = cfg.frames.imu ∧
      (∀ v, pos + rosRotate rot v = imuToWorld e.state v) ∧ lin = -e.state.vel ∧ ang = e.state.aux.MwWMmeas - e.state.gyb
  | .poseWithCovariance, .pose pos rot => ∀ v, pos + rosRotate rot v = imuToWorld e.state v
  | .transform, .pose pos rot => m.frame = cfg.frames.world ∧ m.child = cfg.frames.imu ∧ ∀ v, pos + rosRotate rot v = imuToWorld e.state v
  | .transformJW, .pose pos rot => ∃ p : Fin nPose, (p : ℤ) = cfg.inertialPose ∧ m.frame = cfg.frames.map ∧ m.child = cfg.frames.world ∧
      ∀ v, pos + rosRotate rot v = worldToMap e.state p v
  | .extrinsics c, .pose pos rot => m.frame = cfg.frames.imu ∧ ∀ v, pos + rosRotate rot v = camToImu e.state c v
  | .imuBias, .bias gyr acc => gyr = e.state.gyb ∧ acc = e.state.acb
  | .pcl, .cloud pts => m.frame = cfg.frames.imu ∧ pts.length = n ∧ ∀ i : Fin n,
      (e.valid i = false → pts[i.val]? = some none) ∧
      (e.valid i = true → ∀ c : Fin (nCam + 1), (e.state.fea i).c.camID = c.val →
        pts[i.val]? = some (some (camToImu e.state c (cameraPoint e.state i))))
  | .markers, .lines segs => segs = ((List.finRange n).filter e.valid).map fun i =>
      Rays.points (e.state.fea i).c.nor.vec (e.state.fea i).d (e.distVar i)
  | .patch, .patches => True
  | _, _ => False

/-- What a transform must say about the estimate. -/
def TfSays (cfg : Cfg) (e : Est n nCam nPose Q) (x : Tf) : Prop :=
  (x.frame = cfg.frames.map ∧ x.child = cfg.frames.world ∧ ∃ p : Fin nPose, (p : ℤ) = cfg.inertialPose ∧ ∀ v, apply x v = worldToMap e.state p v) ∨
  (x.frame = cfg.frames.world ∧ x.child = cfg.frames.imu ∧ ∀ v, apply x v = imuToWorld e.state v) ∨
  ∃ c : Fin (nCam + 1), x.frame = cfg.frames.imu ∧ x.child = cfg.frames.cam c ∧ ∀ v, apply x v = camToImu e.state c v

/-- What anything sent must say about the estimate. -/
def OutSays (cfg : Cfg) (e : Est n nCam nPose Q) : Out nCam → Prop
  | .msg m => Says cfg e m
  | .tf x => TfSays cfg e x

/-- The estimates the filter goes through when the given calls are made one after the other, starting from `e`; in between the camera set may be
refreshed from the estimated extrinsics. -/
inductive Reach {Img : Type} (env : Env n nCam nPose Img Q) (e : Est n nCam nPose Q) : List (Node.Call nCam Img) → Est n nCam nPose Q → Prop
  | start : Reach env e [] e
  | call (cs : List (Node.Call nCam Img)) (x : Est n nCam nPose Q) (c : Node.Call nCam Img) : Reach env e cs x → Reach env e (cs ++ [c]) (env.call c x)
  | cameras (cs : List (Node.Call nCam Img)) (x : Est n nCam nPose Q) : Reach env e cs x →
      Reach env e cs { x with mc := x.state.updateMultiCamera x.mc }

end Rovio.Publish.Spec
