import Verif.Model.Node
import Verif.Model.Outputs
import Verif.Model.Rays

/-!
# Model of what the node sends out: `updateAndPublish`, `include/rovio/RovioNode.hpp:633-1006`

Every transform and message is modelled with its header (sequence number, stamp, frames), its topic and its geometric content.  The
covariance arrays are in `Model/OutputCov.lean`, the byte layout and the other fields of the point clouds in `Model/Message.lean`.
Windows of OpenCV, console output and timing are not modelled.  LWF's filter is not in the repository: the effect of a call is an
arbitrary function.  Subscribers may come and go between callbacks.
-/

namespace Rovio.Publish

open Node

variable {n nCam nPose : ℕ} {Img Q : Type}

/-- Names of the frames, include/rovio/RovioNode.hpp:233-241: parameters of the node. -/
structure Frames where
  map : String
  world : String
  camera : String
  imu : String

/-- The default values, include/rovio/RovioNode.hpp:233-236. -/
def Frames.default : Frames := ⟨"/map", "/world", "/camera", "/imu"⟩

/-- Name of the frame of a camera, include/rovio/RovioNode.hpp:712. -/
def Frames.cam (f : Frames) (c : ℕ) : String := f.camera ++ Nat.repr c

/-- The advertised topics, include/rovio/RovioNode.hpp:218-230. -/
inductive Topic (nCam : ℕ) where
  | odometry
  | poseWithCovariance
  | transform
  | transformJW
  | extrinsics (c : Fin (nCam + 1))
  | imuBias
  | pcl
  | markers
  | patch
deriving DecidableEq

/-- The switches `force…Publishing_`, include/rovio/RovioNode.hpp:117-124. -/
structure Force where
  odometry : Bool
  poseWithCovariance : Bool
  transform : Bool
  extrinsics : Bool
  imuBias : Bool
  pcl : Bool
  markers : Bool
  patch : Bool

/-- Geometric content of a message: pose and twist; pose; the two biases; the coordinates of a point cloud (`none`: NaN, slot not in
use); the lines of a marker (`none`: NaN); patches (see `Model/Message.lean`). -/
inductive Content where
  | odometry (pos : V3) (rot : Quat) (lin ang : V3)
  | pose (pos : V3) (rot : Quat)
  | bias (gyr acc : V3)
  | cloud (points : List (Option V3))
  | lines (segments : List (Option (V3 × V3)))
  | patches

/-- A message with its header; `child` is empty for types without `child_frame_id`. -/
structure Msg (nCam : ℕ) where
  topic : Topic nCam
  seq : ℕ
  stamp : ℝ
  frame : String
  child : String
  content : Content

/-- `tf::StampedTransform`. -/
structure Tf where
  stamp : ℝ
  frame : String
  child : String
  origin : V3
  rot : Quat

/-- What leaves the node. -/
inductive Out (nCam : ℕ) where
  | tf (x : Tf)
  | msg (m : Msg nCam)

/-- Settings of the node: frame names, switches, the index of the pose of the pose sensor's inertial frame
(`mpPoseUpdate_->inertialPoseIndex_`) and the sequence number `msgSeq_` (include/rovio/RovioNode.hpp:252). -/
structure Cfg where
  frames : Frames
  force : Force
  inertialPose : ℤ
  seq : ℕ

/-- `msgSeq_ = 1`, include/rovio/RovioNode.hpp:252, with the switches of lines 196-203 and the given parameters. -/
def Cfg.construct (frames : Frames) (inertialPose : ℤ) : Cfg :=
  { frames := frames, force := ⟨false, false, false, false, false, false, false, false⟩, inertialPose := inertialPose, seq := 1 }

/-- What the publishing code reads of the filter: `safe_.t_`, `safe_.state_`, `safe_.fsm_.isValid_`, the variances of the distance
parameters in `safe_.cov_`, and `multiCamera_`; `q` is everything else. -/
structure Est (n nCam nPose : ℕ) (Q : Type) where
  t : ℝ
  state : State n (nCam + 1) nPose
  valid : Fin n → Bool
  distVar : Fin n → ℝ
  mc : MultiCamera (nCam + 1)
  q : Q

/-- The transform from the pose sensor's inertial frame, include/rovio/RovioNode.hpp:687-697; an index beyond the poses is
undefined. -/
def mapTf (cfg : Cfg) (e : Est n nCam nPose Q) : Option (List (Out nCam)) :=
  if 0 ≤ cfg.inertialPose then do
    let p ← camIdx nPose cfg.inertialPose
    return [.tf ⟨e.t, cfg.frames.map, cfg.frames.world, e.state.pop p, msgQuat (e.state.poa p)⟩]
  else some []

/-- The transforms of IMU and cameras, include/rovio/RovioNode.hpp:699-717. -/
def poseTfs (cfg : Cfg) (e : Est n nCam nPose Q) : List (Out nCam) :=
  .tf ⟨e.t, cfg.frames.world, cfg.frames.imu, e.state.imuOut.WrWB, msgQuat e.state.imuOut.qBW⟩ ::
  (List.finRange (nCam + 1)).map fun c : Fin (nCam + 1) => .tf ⟨e.t, cfg.frames.imu, cfg.frames.cam c, e.state.MrMC c, msgQuat (e.state.qCM c)⟩

/-- The odometry message, include/rovio/RovioNode.hpp:719-758; frames from lines 250-251. -/
def odometryMsg (cfg : Cfg) (e : Est n nCam nPose Q) : Msg nCam :=
  ⟨.odometry, cfg.seq, e.t, cfg.frames.world, cfg.frames.imu,
    .odometry e.state.imuOut.WrWB (msgQuat e.state.imuOut.qBW) e.state.imuOut.BvB e.state.imuOut.BwWB⟩

/-- The pose message, include/rovio/RovioNode.hpp:760-786; its frame is never assigned. -/
def poseMsg (cfg : Cfg) (e : Est n nCam nPose Q) : Msg nCam :=
  ⟨.poseWithCovariance, cfg.seq, e.t, "", "", .pose e.state.imuOut.WrWB (msgQuat e.state.imuOut.qBW)⟩

/-- The transform message, include/rovio/RovioNode.hpp:788-800; frames from lines 244-245. -/
def transformMsg (cfg : Cfg) (e : Est n nCam nPose Q) : Msg nCam :=
  ⟨.transform, cfg.seq, e.t, cfg.frames.world, cfg.frames.imu, .pose e.state.imuOut.WrWB (msgQuat e.state.imuOut.qBW)⟩

/-- The message with the pose of the world in the pose sensor's inertial frame, include/rovio/RovioNode.hpp:802-818; frames from
lines 247-248. -/
def transformJWMsg (cfg : Cfg) (e : Est n nCam nPose Q) : Option (List (Msg nCam)) :=
  if 0 ≤ cfg.inertialPose then do
    let p ← camIdx nPose cfg.inertialPose
    return [⟨.transformJW, cfg.seq, e.t, cfg.frames.map, cfg.frames.world, .pose (e.state.pop p) (msgQuat (e.state.poa p))⟩]
  else some []

/-- The extrinsics of a camera, include/rovio/RovioNode.hpp:822-840; frame from line 254. -/
def extrinsicsMsg (cfg : Cfg) (e : Est n nCam nPose Q) (c : Fin (nCam + 1)) : Msg nCam :=
  ⟨.extrinsics c, cfg.seq, e.t, cfg.frames.imu, "", .pose (e.state.MrMC c) (msgQuat (e.state.qCM c))⟩

/-- The biases, include/rovio/RovioNode.hpp:846-864; frame from line 256. -/
def imuBiasMsg (cfg : Cfg) (e : Est n nCam nPose Q) : Msg nCam :=
  ⟨.imuBias, cfg.seq, e.t, cfg.frames.world, "", .bias e.state.gyb e.state.acb⟩

/-- The point cloud and the lines, include/rovio/RovioNode.hpp:868-972; frames from lines 266 and 315.  Undefined if a bearing or camera
index of a slot in use is. -/
noncomputable def cloudMsgs (cfg : Cfg) (mc : MultiCamera (nCam + 1)) (e : Est n nCam nPose Q) : Option (Msg nCam × Msg nCam) := do
  let slots ← (List.finRange n).mapM fun i =>
    if e.valid i then do
      let (_, nor) ← (e.state.fea i).c.getNor
      let p ← e.state.landmark mc i
      return some (p, Rays.points nor.vec (e.state.fea i).d (e.distVar i))
    else some none
  return (⟨.pcl, cfg.seq, e.t, cfg.frames.imu, "", .cloud (slots.map fun s => s.map (·.1))⟩,
    ⟨.markers, cfg.seq, e.t, cfg.frames.imu, "", .lines (slots.filterMap fun s => s.map (·.2))⟩)

/-- The patches, include/rovio/RovioNode.hpp:975-1002; frame from line 292. -/
def patchMsg (cfg : Cfg) (e : Est n nCam nPose Q) : Msg nCam := ⟨.patch, cfg.seq, e.t, "", "", .patches⟩

/-- The condition of the message with the pose of the world, include/rovio/RovioNode.hpp:802. -/
def transformJWPart (cfg : Cfg) (subs : Topic nCam → Bool) (e : Est n nCam nPose Q) : Option (List (Msg nCam)) :=
  if subs .transformJW || cfg.force.transform then transformJWMsg cfg e else some []

/-- The condition of point cloud and lines, include/rovio/RovioNode.hpp:868. -/
noncomputable def cloudPart (cfg : Cfg) (subs : Topic nCam → Bool) (mc : MultiCamera (nCam + 1)) (e : Est n nCam nPose Q) :
    Option (List (Msg nCam)) :=
  if subs .pcl || subs .markers || cfg.force.pcl || cfg.force.markers then (cloudMsgs cfg mc e).map fun m => [m.1, m.2] else some []

/-- Everything sent at a publication, in order, include/rovio/RovioNode.hpp:664-1003.  `subs`: the topic has a subscriber.  The second
component is `multiCamera_` afterwards (`updateMultiCameraExtrinsics`, line 667). -/
noncomputable def publish (cfg : Cfg) (subs : Topic nCam → Bool) (e : Est n nCam nPose Q) : Option (List (Out nCam) × MultiCamera (nCam + 1)) := do
  let mc := e.state.updateMultiCamera e.mc
  let map ← mapTf cfg e
  let jw ← transformJWPart cfg subs e
  let cloud ← cloudPart cfg subs mc e
  return (map ++ poseTfs cfg e ++ List.map Out.msg (
    (if subs .odometry || cfg.force.odometry then [odometryMsg cfg e] else []) ++
    (if subs .poseWithCovariance || cfg.force.poseWithCovariance then [poseMsg cfg e] else []) ++
    (if subs .transform || cfg.force.transform then [transformMsg cfg e] else []) ++
    jw ++
    (List.finRange (nCam + 1)).flatMap (fun c => if subs (.extrinsics c) || cfg.force.extrinsics then [extrinsicsMsg cfg e c] else []) ++
    (if subs .imuBias || cfg.force.imuBias then [imuBiasMsg cfg e] else []) ++
    cloud ++
    (if subs .patch || cfg.force.patch then [patchMsg cfg e] else [])), mc)

/-- What is outside the repository: the effect of a call on the filter; and the time offset of pose measurements. -/
structure Env (n nCam nPose : ℕ) (Img Q : Type) where
  call : Call nCam Img → Est n nCam nPose Q → Est n nCam nPose Q
  timeOffset : ℝ
  cfg : Cfg

/-- A call made by a callback; `update` is `updateAndPublish`, include/rovio/RovioNode.hpp:633-1006 (called by an initialised node only, see
`Model/Node.lean`): publish if the time of the estimate advanced (line 652).  The result is what is sent. -/
noncomputable def call (env : Env n nCam nPose Img Q) (subs : Topic nCam → Bool) (e : Est n nCam nPose Q) (c : Call nCam Img) :
    Option (Est n nCam nPose Q × List (Out nCam)) :=
  let e' := env.call c e
  match c with
  | .update =>
    if e'.t > e.t then do
      let (out, mc) ← publish env.cfg subs e'
      return ({ e' with mc := mc }, out)
    else some (e', [])
  | _ => some (e', [])

/-- The calls of a callback, in order. -/
noncomputable def calls (env : Env n nCam nPose Img Q) (subs : Topic nCam → Bool) : Est n nCam nPose Q → List (Call nCam Img) →
    Option (Est n nCam nPose Q × List (Out nCam))
  | e, [] => some (e, [])
  | e, c :: cs => do
    let (e, o) ← call env subs e c
    let (e, os) ← calls env subs e cs
    return (e, o ++ os)

/-- A history of callbacks, each with the subscribers present; the result is the node, the filter and everything sent, in order. -/
noncomputable def run (env : Env n nCam nPose Img Q) : St nCam Img → Est n nCam nPose Q → List (Ev Img × (Topic nCam → Bool)) →
    Option (St nCam Img × Est n nCam nPose Q × List (Out nCam))
  | s, e, [] => some (s, e, [])
  | s, e, x :: xs => do
    let r := s.step env.timeOffset x.1
    let (e, o) ← calls env x.2 e r.2
    let (s, e, os) ← run env r.1 e xs
    return (s, e, o ++ os)

end Rovio.Publish
