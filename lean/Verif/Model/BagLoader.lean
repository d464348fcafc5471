import Verif.Model.Node

/-!
# Model of the bag loader, `src/rovio_rosbag_loader.cpp`, with the publishing condition of the node

The loop over the messages of the bag (lines 181-221) is modelled on top of the node's callbacks (`Model/Node.lean`).  LWF's filter is
not in the repository: its measurement queues are of an arbitrary type and `updateSafe` is an arbitrary function.  `ros::spinOnce`
(line 194) may run any callbacks and services.  Not modelled: file names, copying of the info file, console output, the time stamps
`ros::Time::now()` the records are written with, the interruption of the loop when `ros::ok()` is false.
-/

namespace Rovio.BagLoader

open Node

variable {n nCam nPose : ℕ} {Img Q M : Type}

/-- The part of the filter the loader and the publishing condition look at: the initial state `init_.state_`, the current estimate
`safe_.state_` and its time `safe_.t_`; `q` is everything else. -/
structure FS (n nCam nPose : ℕ) (Q : Type) where
  init : State n (nCam + 1) nPose
  safe : State n (nCam + 1) nPose
  t : ℝ
  q : Q

/-- The messages the node prepares (include/rovio/RovioNode.hpp:151-159, without `T_J_W_Msg_`). -/
inductive Topic (nCam : ℕ) where
  | odometry
  | poseWithCovariance
  | transform
  | extrinsics (c : Fin (nCam + 1))
  | imuBias
  | pcl
  | markers
  | patch
deriving DecidableEq

/-- The switches `force…Publishing_`, include/rovio/RovioNode.hpp:117-124, set by src/rovio_rosbag_loader.cpp:104-111. -/
structure Force where
  odometry : Bool
  poseWithCovariance : Bool
  transform : Bool
  extrinsics : Bool
  imuBias : Bool
  pcl : Bool
  markers : Bool
  patch : Bool

/-- Is a message prepared at a publication?  include/rovio/RovioNode.hpp:720, 760, 789, 821, 845, 868, 975 (without subscribers: a subscriber
makes the node prepare a message as well). -/
def Force.on (f : Force) : Topic nCam → Bool
  | .odometry => f.odometry
  | .poseWithCovariance => f.poseWithCovariance
  | .transform => f.transform
  | .extrinsics _ => f.extrinsics
  | .imuBias => f.imuBias
  | .pcl => f.pcl || f.markers
  | .markers => f.pcl || f.markers
  | .patch => f.patch

/-- What is outside the repository, and the parameters of the loader (src/rovio_rosbag_loader.cpp:103-112, 156-161). -/
structure Env (n nCam nPose : ℕ) (Img Q M : Type) where
  setFromVectors : V3 → V3 → Quat
  add : Call nCam Img → Q → Q
  clear : ℝ → Q → Q
  updateSafe : FS n nCam nPose Q → FS n nCam nPose Q
  content : FS n nCam nPose Q → Topic nCam → M
  timeOffset : ℝ
  force : Force
  resetTrigger : ℝ
  imuTopic : String
  cam0Topic : String
  cam1Topic : String

/-- What leaves the program: a publication (with the time of the estimate), a message written to the output bag, a reset request of
the loader. -/
inductive Out (nCam : ℕ) (M : Type) where
  | publish (t : ℝ) (msgs : Topic nCam → M)
  | write (k : Topic nCam) (m : M)
  | request (t : ℝ)

/-- The program's state: node, filter, prepared messages, `gotFirstMessages_`, the function-local static `lastSafeTime` (line 197, not
yet initialised: `none`), `lastTriggerTime` with `isTriggerInitialized` (lines 179-180), and the outputs so far. -/
structure LSt (n nCam nPose : ℕ) (Img Q M : Type) where
  node : St nCam Img
  fs : FS n nCam nPose Q
  msgs : Topic nCam → M
  got : Bool
  lastSafe : Option ℝ
  trigger : Option ℝ
  out : List (Out nCam M)

/-- A call into the filter; for `update` see `publish`.  `resetWithPose` and `resetWithAccelerometer`, include/rovio/RovioFilter.hpp:
206-220, change the initial state, and LWF's `reset` copies it to the estimate and sets the time. -/
noncomputable def FS.call (env : Env n nCam nPose Img Q M) (f : FS n nCam nPose Q) : Call nCam Img → FS n nCam nPose Q
  | .resetWithPose p q t =>
    let i := initAfter (Img := Img) env.setFromVectors f.init (.resetWithPose p q t)
    { init := i, safe := i, t := t, q := env.clear t f.q }
  | .resetWithAccel a t =>
    let i := initAfter (Img := Img) env.setFromVectors f.init (.resetWithAccel a t)
    { init := i, safe := i, t := t, q := env.clear t f.q }
  | .update => env.updateSafe f
  | c => { f with q := env.add c f.q }

/-- One call of a callback; `update` is `updateAndPublish`, include/rovio/RovioNode.hpp:633-1006: publish if the time of the estimate
advanced (line 652). -/
noncomputable def LSt.call (env : Env n nCam nPose Img Q M) (s : LSt n nCam nPose Img Q M) (c : Call nCam Img) : LSt n nCam nPose Img Q M :=
  let f := s.fs.call env c
  match c with
  | .update =>
    if f.t > s.fs.t then
      let msgs := fun k => if env.force.on k then env.content f k else s.msgs k
      { s with fs := f, msgs := msgs, got := true, out := s.out ++ [.publish f.t msgs] }
    else { s with fs := f }
  | _ => { s with fs := f }

/-- One callback of the node. -/
noncomputable def LSt.event (env : Env n nCam nPose Img Q M) (s : LSt n nCam nPose Img Q M) (e : Ev Img) : LSt n nCam nPose Img Q M :=
  let r := s.node.step env.timeOffset e
  r.2.foldl (LSt.call env) { s with node := r.1 }

/-- The data of a bag message: an IMU message, an image (`none`: cannot be decoded or empty), or another type. -/
inductive Payload (Img : Type) where
  | imu (acc gyr : V3) (t : ℝ)
  | image (im : Option Img) (t : ℝ)
  | other

/-- A message of the bag. -/
structure Entry (Img : Type) where
  topic : String
  data : Payload Img

/-- `rosbag::View` with the three topics, src/rovio_rosbag_loader.cpp:173-176. -/
def view (env : Env n nCam nPose Img Q M) (bag : List (Entry Img)) : List (Entry Img) :=
  bag.filter fun e => e.topic = env.imuTopic ∨ e.topic = env.cam0Topic ∨ e.topic = env.cam1Topic

/-- The callbacks called for one message, src/rovio_rosbag_loader.cpp:182-193; a message of another type than expected instantiates to
a null pointer and is skipped. -/
def dispatch (env : Env n nCam nPose Img Q M) (e : Entry Img) : List (Ev Img) :=
  (if e.topic = env.imuTopic then match e.data with | .imu a g t => [.imu a g t] | _ => [] else []) ++
  (if e.topic = env.cam0Topic then match e.data with | .image im t => [.image false im t] | _ => [] else []) ++
  (if e.topic = env.cam1Topic then match e.data with | .image im t => [.image true im t] | _ => [] else [])

/-- The messages written when the time of the estimate has advanced, src/rovio_rosbag_loader.cpp:199-207. -/
def records (f : Force) (msgs : Topic nCam → M) : List (Out nCam M) :=
  (if f.odometry then [.write .odometry (msgs .odometry)] else []) ++
  (if f.transform then [.write .transform (msgs .transform)] else []) ++
  (List.finRange (nCam + 1)).flatMap (fun c => if f.extrinsics then [.write (.extrinsics c) (msgs (.extrinsics c))] else []) ++
  (if f.imuBias then [.write .imuBias (msgs .imuBias)] else []) ++
  (if f.pcl then [.write .pcl (msgs .pcl)] else []) ++
  (if f.markers then [.write .markers (msgs .markers)] else []) ++
  (if f.patch then [.write .patch (msgs .patch)] else [])

/-- Recording, src/rovio_rosbag_loader.cpp:197-209: the static variable is initialised on the first visit. -/
noncomputable def LSt.record (env : Env n nCam nPose Img Q M) (s : LSt n nCam nPose Img Q M) : LSt n nCam nPose Img Q M × ℝ :=
  let last := s.lastSafe.getD s.fs.t
  if s.fs.t > last then ({ s with lastSafe := some s.fs.t, out := s.out ++ records env.force s.msgs }, s.fs.t)
  else ({ s with lastSafe := some last }, last)

/-- The reset trigger, src/rovio_rosbag_loader.cpp:210-219. -/
noncomputable def LSt.pull (env : Env n nCam nPose Img Q M) (s : LSt n nCam nPose Img Q M) (last : ℝ) : LSt n nCam nPose Img Q M :=
  let trig := s.trigger.getD last
  if env.resetTrigger > 0 ∧ last - trig > env.resetTrigger then
    { s with node := s.node.requestReset, fs := { s.fs with init := { s.fs.init with pos := s.fs.safe.pos, att := s.fs.safe.att } }
             trigger := some last, out := s.out ++ [.request last] }
  else { s with trigger := some trig }

/-- What follows the callbacks once something was published, src/rovio_rosbag_loader.cpp:196-220. -/
noncomputable def LSt.block (env : Env n nCam nPose Img Q M) (s : LSt n nCam nPose Img Q M) : LSt n nCam nPose Img Q M :=
  if s.got then
    let r := s.record env
    r.1.pull env r.2
  else s

/-- One message of the bag and the callbacks run by `spinOnce` afterwards, src/rovio_rosbag_loader.cpp:181-221. -/
noncomputable def LSt.step (env : Env n nCam nPose Img Q M) (s : LSt n nCam nPose Img Q M) (x : Entry Img × List (Ev Img)) : LSt n nCam nPose Img Q M :=
  ((dispatch env x.1 ++ x.2).foldl (LSt.event env) s).block env

/-- The state before the loop: the node newly constructed, nothing published. -/
def start (qMW : Quat) (pose : PoseMeas) (fs : FS n nCam nPose Q) (msgs : Topic nCam → M) : LSt n nCam nPose Img Q M :=
  { node := St.construct qMW pose, fs := fs, msgs := msgs, got := false, lastSafe := none, trigger := none, out := [] }

/-- The loop over the bag; `spin k` are the callbacks `spinOnce` runs after the `k`-th message. -/
noncomputable def loop (env : Env n nCam nPose Img Q M) (s : LSt n nCam nPose Img Q M) (bag : List (Entry Img)) (spin : ℕ → List (Ev Img)) :
    LSt n nCam nPose Img Q M :=
  ((view env bag).zipIdx.map fun x => (x.1, spin x.2)).foldl (LSt.step env) s

end Rovio.BagLoader
