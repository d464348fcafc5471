import Verif.Model.PoseUpdate
import Verif.Model.ImuPrediction

/-!
# Model of the callbacks of `include/rovio/RovioNode.hpp`

Every callback holds the mutex `m_filter_` from beginning to end, so an execution is a sequence of callbacks.  The calls into the
filter (LWF's measurement time lines, not in the repository) are recorded in the order they are made.  An image is represented by
a payload of an arbitrary type (the pyramid is a function of the image).  `nCam + 1` cameras: the template parameter is positive.
Console output is not modelled.
-/

namespace Rovio

namespace Node

variable {nCam : ℕ} {Img : Type}

/-- `FilterInitializationState::State`, include/rovio/RovioNode.hpp:92-100. -/
inductive Init where
  | waitAccel
  | waitPose
  | initialized
deriving DecidableEq

/-- The members of the node that outlive a callback: `init_state_` (include/rovio/RovioNode.hpp:87-114), the image set being
collected (`imgUpdateMeas_`; include/rovio/ImgUpdate.hpp:69-91) and the pose measurement (`poseUpdateMeas_`, line 81). -/
structure St (nCam : ℕ) (Img : Type) where
  init : Init
  WrWM : V3
  qMW : Quat
  imgTime : ℝ
  pyr : Fin (nCam + 1) → Option Img
  valid : Fin (nCam + 1) → Bool
  pose : PoseMeas

/-- What the node does to the filter: `addPredictionMeas`, `resetWithPose`, `resetWithAccelerometer`, `addUpdateMeas<0,1,2>` and
the filter update of `updateAndPublish` (include/rovio/RovioNode.hpp:633-644). -/
inductive Call (nCam : ℕ) (Img : Type) where
  | addImu (m : ImuMeas) (t : ℝ)
  | resetWithPose (WrWM : V3) (qMW : Quat) (t : ℝ)
  | resetWithAccel (acc : V3) (t : ℝ)
  | addImages (imgs : Fin (nCam + 1) → Option Img) (t : ℝ)
  | addPose (m : PoseMeas) (t : ℝ)
  | addVelocity (v : V3) (t : ℝ)
  | update

/-- A callback with the contents of its message.  Images: the topic (`true`: cam1) and the decoded image, `none` if the conversion
throws or the image is empty. -/
inductive Ev (Img : Type) where
  | imu (acc gyr : V3) (t : ℝ)
  | image (cam1 : Bool) (im : Option Img) (t : ℝ)
  | transform (pos : V3) (q : Quat) (t : ℝ)
  | odometry (pos : V3) (q : Quat) (cov : Matrix PoseIx PoseIx ℝ) (t : ℝ)
  | velocity (v : V3) (t : ℝ)
  | reset
  | resetToPose (pos : V3) (q : Quat)

namespace St

/-- `FilterInitializationState()` and `ImgUpdateMeasAuxiliary()`, include/rovio/RovioNode.hpp:88-90 and
include/rovio/ImgUpdate.hpp:71-73; the members without an initial value are arguments. -/
def construct (qMW : Quat) (pose : PoseMeas) : St nCam Img :=
  { init := .waitAccel, WrWM := 0, qMW := qMW, imgTime := 0, pyr := fun _ => none, valid := fun _ => false, pose := pose }

/-- `ImgUpdateMeasAuxiliary::reset`, include/rovio/ImgUpdate.hpp:75-80. -/
def resetSet (s : St nCam Img) (t : ℝ) : St nCam Img := { s with imgTime := t, valid := fun _ => false }

/-- The first part of `imgCallback` after decoding, include/rovio/RovioNode.hpp:511-521: a new stamp starts a new set, then the
image is stored. -/
noncomputable def store (s : St nCam Img) (c : Fin (nCam + 1)) (im : Img) (t : ℝ) : St nCam Img :=
  let s := if t ≠ s.imgTime then s.resetSet t else s
  { s with pyr := Function.update s.pyr c (some im), valid := Function.update s.valid c true }

/-- `areAllValid`, include/rovio/ImgUpdate.hpp:81-86. -/
def allValid (s : St nCam Img) : Bool := decide (∀ c, s.valid c = true)

/-- `imgCallback`, include/rovio/RovioNode.hpp:498-528. -/
noncomputable def imgCallback (s : St nCam Img) (c : Fin (nCam + 1)) (im : Option Img) (t : ℝ) : St nCam Img × List (Call nCam Img) :=
  match im with
  | none => (s, [])
  | some im =>
    if s.init = .initialized then
      let s := s.store c im t
      if s.allValid then (s.resetSet t, [.addImages s.pyr t, .update]) else (s, [])
    else (s, [])

/-- `imuCallback`, include/rovio/RovioNode.hpp:441-471. -/
def imuCallback (s : St nCam Img) (acc gyr : V3) (t : ℝ) : St nCam Img × List (Call nCam Img) :=
  match s.init with
  | .initialized => (s, [.addImu ⟨acc, gyr⟩ t, .update])
  | .waitPose => ({ s with init := .initialized }, [.resetWithPose s.WrWM s.qMW t])
  | .waitAccel => ({ s with init := .initialized }, [.resetWithAccel acc t])

/-- `groundtruthCallback`, include/rovio/RovioNode.hpp:534-544. -/
def transformCallback (timeOffset : ℝ) (s : St nCam Img) (pos : V3) (q : Quat) (t : ℝ) : St nCam Img × List (Call nCam Img) :=
  if s.init = .initialized then
    let s := { s with pose := { s.pose with pos := pos, att := q.inv } }
    (s, [.addPose s.pose (t + timeOffset), .update])
  else (s, [])

/-- `groundtruthOdometryCallback`, include/rovio/RovioNode.hpp:550-565. -/
def odometryCallback (timeOffset : ℝ) (s : St nCam Img) (pos : V3) (q : Quat) (cov : Matrix PoseIx PoseIx ℝ) (t : ℝ) :
    St nCam Img × List (Call nCam Img) :=
  if s.init = .initialized then
    let s := { s with pose := { pos := pos, att := q.inv, cov := cov } }
    (s, [.addPose s.pose (t + timeOffset), .update])
  else (s, [])

/-- `requestReset`, include/rovio/RovioNode.hpp:604-612. -/
def requestReset (s : St nCam Img) : St nCam Img := if s.init = .initialized then { s with init := .waitAccel } else s

/-- `requestResetToPose`, include/rovio/RovioNode.hpp:619-629. -/
def requestResetToPose (s : St nCam Img) (WrWM : V3) (qMW : Quat) : St nCam Img :=
  if s.init = .initialized then { s with WrWM := WrWM, qMW := qMW, init := .waitPose } else s

/-- One callback: lines 441-528 (IMU, images; topic cam1 is ignored with a single camera), 534-579 (poses, velocity), 583-599
(services) of include/rovio/RovioNode.hpp. -/
noncomputable def step (timeOffset : ℝ) (s : St nCam Img) : Ev Img → St nCam Img × List (Call nCam Img)
  | .imu acc gyr t => s.imuCallback acc gyr t
  | .image cam1 im t =>
    if cam1 then
      if h : 1 < nCam + 1 then s.imgCallback ⟨1, h⟩ im t else (s, [])
    else s.imgCallback 0 im t
  | .transform pos q t => transformCallback timeOffset s pos q t
  | .odometry pos q cov t => odometryCallback timeOffset s pos q cov t
  | .velocity v t => if s.init = .initialized then (s, [.addVelocity v t, .update]) else (s, [])
  | .reset => (s.requestReset, [])
  | .resetToPose pos q => (s.requestResetToPose pos q.inv, [])

/-- A history of callbacks. -/
noncomputable def run (timeOffset : ℝ) (s : St nCam Img) : List (Ev Img) → St nCam Img × List (Call nCam Img)
  | [] => (s, [])
  | e :: es =>
    let r := step timeOffset s e
    let r' := run timeOffset r.1 es
    (r'.1, r.2 ++ r'.2)

end St

/-- The state the filter restarts from (`init_.state_`) after a call: `resetWithAccelerometer` and `resetWithPose`,
include/rovio/RovioFilter.hpp:206-220, change it and then restart (`reset`, LWF, copies it to the current estimate); no other call
changes it. -/
noncomputable def initAfter {n nPose : ℕ} (setFromVectors : V3 → V3 → Quat) (s : State n (nCam + 1) nPose) : Call nCam Img → State n (nCam + 1) nPose
  | .resetWithPose WrWM qMW _ => s.initWithImuPose WrWM qMW
  | .resetWithAccel acc _ => State.initWithAccelerometer setFromVectors s acc
  | _ => s

end Node

/-- The orientation written into messages and transforms for a quaternion `q`: components `x`, `y`, `z` and the negated `w`,
include/rovio/RovioNode.hpp:695, 705, 715, 729-732, 769-772, 795-798, 811-814, 827-830.  Read back by kindr's constructor
`QPD(w,x,y,z)` (lines 539, 556, 595). -/
def msgQuat (q : Quat) : Quat := ⟨-q.w, q.x, q.y, q.z⟩

end Rovio
