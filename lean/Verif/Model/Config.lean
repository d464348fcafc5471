import Verif.Model.Covariance

/-!
# Model of the registration of settings: constructors of `RovioFilter`, `ImuPrediction`, `PoseUpdate`, and of reading the info file

The registers are those of LWF's property handlers (not in the repository): a register maps variables to keys, reading an info file
assigns to every registered variable the value found at its key, and a missing key is an error.  Registering a registered variable and
removing an unregistered one are the outcome `none`, whatever LWF does then.  Component suffixes (`_x`, …) and the keys of the initial
registration are those visible in cfg/rovio.info.  Not modelled: the scalar settings of the image update (include/rovio/ImgUpdate.hpp:
312-366), of the velocity updates and the measurement noises, each a member registered once under its own key.
-/

namespace Rovio.Config

variable {n nCam nPose : ℕ}

/-- The variables, as members of `init_.state_` (include/rovio/FilterStates.hpp:110-147), its auxiliary data (lines 86-90), the
diagonals of the initial covariance and of the prediction noise, members of `PoseUpdate` (include/rovio/PoseUpdate.hpp:146-149), the
statistics ranges and warping flags of the features, and members of the filter.  Quaternion components are numbered w, x, y, z. -/
inductive Var (n nCam nPose : ℕ) where
  | pos (j : Fin 3)
  | vel (j : Fin 3)
  | acb (j : Fin 3)
  | gyb (j : Fin 3)
  | att (j : Fin 4)
  | vep (c : Fin nCam) (j : Fin 3)
  | vea (c : Fin nCam) (j : Fin 4)
  | nor (i : Fin n) (j : Fin 4)
  | dep (i : Fin n)
  | pop (k : Fin nPose) (j : Fin 3)
  | poa (k : Fin nPose) (j : Fin 4)
  | auxMrMC (c : Fin nCam) (j : Fin 3)
  | auxqCM (c : Fin nCam) (j : Fin 4)
  | doVE
  | cov (a : Ix n nCam nPose)
  | prenoi (a : Ix n nCam nPose)
  | rorTh
  | accTh
  | MrMV (j : Fin 3)
  | qVM (j : Fin 4)
  | IrIW (j : Fin 3)
  | qWI (j : Fin 4)
  | quality (i : Fin n)
  | visibility (i : Fin n)
  | global (i : Fin n)
  | warping (i : Fin n)
  | depthType
  | file (c : Fin nCam)
  | verbose
  | plotPose
deriving DecidableEq

/-- The property handlers: the filter itself and its parts under the names of include/rovio/RovioFilter.hpp:84-89 (`Prediction` by
LWF). -/
inductive Handler where
  | main
  | prediction
  | img
  | pose
deriving DecidableEq

/-- All registers (those of different types taken together, the variables tell the type). -/
abbrev Regs (n nCam nPose : ℕ) := Handler → Var n nCam nPose → Option String

/-- A call of `registerScalar` or `removeScalarByVar`. -/
inductive Op (n nCam nPose : ℕ) where
  | reg (h : Handler) (key : String) (v : Var n nCam nPose)
  | rem (h : Handler) (v : Var n nCam nPose)

/-- One entry of a register, changed. -/
def Regs.set (R : Regs n nCam nPose) (h : Handler) (v : Var n nCam nPose) (k : Option String) : Regs n nCam nPose :=
  fun h' v' => if h' = h ∧ v' = v then k else R h' v'

/-- Effect of one call; `none` if the variable is already registered respectively not registered. -/
def Op.apply (R : Regs n nCam nPose) : Op n nCam nPose → Option (Regs n nCam nPose)
  | .reg h k v => if R h v = none then some (R.set h v (some k)) else none
  | .rem h v => if R h v = none then none else some (R.set h v none)

/-- A sequence of calls. -/
def runOps (R : Regs n nCam nPose) (ops : List (Op n nCam nPose)) : Option (Regs n nCam nPose) := ops.foldlM Op.apply R

/-- Suffixes used by `registerVector`, see cfg/rovio.info:16-18. -/
def vecName : Fin 3 → String := ![ "_x", "_y", "_z"]

/-- Suffixes used by `registerQuaternion`, see cfg/rovio.info:12-15. -/
def quatName : Fin 4 → String := ![ "_w", "_x", "_y", "_z"]

/-- `registerVector`. -/
def regVec (h : Handler) (key : String) (v : Fin 3 → Var n nCam nPose) : List (Op n nCam nPose) :=
  (List.finRange 3).map fun j => .reg h (key ++ vecName j) (v j)

/-- `registerQuaternion`. -/
def regQuat (h : Handler) (key : String) (v : Fin 4 → Var n nCam nPose) : List (Op n nCam nPose) :=
  (List.finRange 4).map fun j => .reg h (key ++ quatName j) (v j)

/-- What LWF registers by itself (cfg/rovio.info:32-77, 144 ff.): every component of the initial state, the diagonal of the initial
covariance and the diagonal of the prediction noise, under some default key (for features include/rovio/RobocentricFeatureElement.hpp:
109-112). -/
def base (dflt : Var n nCam nPose → String) : Regs n nCam nPose
  | .main, .pos j => some (dflt (.pos j))
  | .main, .vel j => some (dflt (.vel j))
  | .main, .acb j => some (dflt (.acb j))
  | .main, .gyb j => some (dflt (.gyb j))
  | .main, .att j => some (dflt (.att j))
  | .main, .vep c j => some (dflt (.vep c j))
  | .main, .vea c j => some (dflt (.vea c j))
  | .main, .nor i j => some (dflt (.nor i j))
  | .main, .dep i => some (dflt (.dep i))
  | .main, .pop k j => some (dflt (.pop k j))
  | .main, .poa k j => some (dflt (.poa k j))
  | .main, .cov a => some (dflt (.cov a))
  | .prediction, .prenoi a => some (dflt (.prenoi a))
  | _, _ => none

/-- The loop over the features in the constructor of `ImuPrediction`, include/rovio/ImuPrediction.hpp:65-74. -/
def predFeature (i : Fin n) : List (Op n nCam nPose) :=
  [.rem .prediction (.prenoi (.nor i 0)), .rem .prediction (.prenoi (.nor i 1)),
   .reg .prediction "PredictionNoise.nor" (.prenoi (.nor i 0)), .reg .prediction "PredictionNoise.nor" (.prenoi (.nor i 1)),
   .rem .prediction (.prenoi (.dep i)), .reg .prediction "PredictionNoise.dep" (.prenoi (.dep i))]

/-- The loop over the cameras in the constructor of `ImuPrediction`, include/rovio/ImuPrediction.hpp:75-82. -/
def predCamera (c : Fin nCam) : List (Op n nCam nPose) := (List.finRange 3).flatMap fun j =>
  [.rem .prediction (.prenoi (.vep c j)), .rem .prediction (.prenoi (.vea c j)),
   .reg .prediction "PredictionNoise.vep" (.prenoi (.vep c j)), .reg .prediction "PredictionNoise.vea" (.prenoi (.vea c j))]

/-- The loop over the poses in the constructor of `ImuPrediction`, include/rovio/ImuPrediction.hpp:83-88. -/
def predPose (k : Fin nPose) : List (Op n nCam nPose) := (List.finRange 3).flatMap fun j =>
  [.rem .prediction (.prenoi (.pop k j)), .rem .prediction (.prenoi (.poa k j))]

/-- Constructor of `ImuPrediction`, include/rovio/ImuPrediction.hpp:63-88. -/
def imuPrediction : List (Op n nCam nPose) :=
  [.reg .prediction "MotionDetection.inertialMotionRorTh" .rorTh, .reg .prediction "MotionDetection.inertialMotionAccTh" .accTh] ++
  (List.finRange n).flatMap predFeature ++ (List.finRange nCam).flatMap predCamera ++ (List.finRange nPose).flatMap predPose

/-- Constructor of `PoseUpdate`, include/rovio/PoseUpdate.hpp:173-176. -/
def poseUpdate : List (Op n nCam nPose) :=
  regVec .pose "MrMV" .MrMV ++ regQuat .pose "qVM" .qVM ++ regVec .pose "IrIW" .IrIW ++ regQuat .pose "qWI" .qWI

/-- The component of the extrinsics that `MrMC(camID)` refers to, include/rovio/FilterStates.hpp:304-319. -/
def refMrMC (doVE : Bool) (c : Fin nCam) (j : Fin 3) : Var n nCam nPose := if doVE then .vep c j else .auxMrMC c j

/-- The component of the extrinsics that `qCM(camID)` refers to, include/rovio/FilterStates.hpp:279-294. -/
def refqCM (doVE : Bool) (c : Fin nCam) (j : Fin 4) : Var n nCam nPose := if doVE then .vea c j else .auxqCM c j

/-- `doVECalibration_` after construction of the state, include/rovio/FilterStates.hpp:65. -/
def doVE0 : Bool := true

/-- Name prefix of a camera, include/rovio/RovioFilter.hpp:94-96. -/
def camName (c : ℕ) : String := "Camera" ++ toString c

/-- The loop over the cameras, include/rovio/RovioFilter.hpp:92-113. -/
def cameraOps (c : Fin nCam) : List (Op n nCam nPose) :=
  [.reg .main (camName c ++ ".CalibrationFile") (.file c)] ++
  regVec .main (camName c ++ ".MrMC") (.auxMrMC c) ++ regQuat .main (camName c ++ ".qCM") (.auxqCM c) ++
  ((List.finRange 3).map fun j => .rem .main (refMrMC doVE0 c j)) ++ ((List.finRange 4).map fun j => .rem .main (refqCM doVE0 c j)) ++
  (List.finRange 3).flatMap (fun j =>
    [.rem .main (.cov (.vep c j)), .rem .main (.cov (.vea c j)),
     .reg .main "Init.Covariance.vep" (.cov (.vep c j)), .reg .main "Init.Covariance.vea" (.cov (.vea c j))]) ++
  regVec .main (camName c ++ ".MrMC") (refMrMC doVE0 c) ++ regQuat .main (camName c ++ ".qCM") (refqCM doVE0 c)

/-- The loop over the poses, include/rovio/RovioFilter.hpp:114-126. -/
def poseOps (k : Fin nPose) : List (Op n nCam nPose) :=
  ((List.finRange 3).map fun j => .rem .main (.pop k j)) ++ ((List.finRange 4).map fun j => .rem .main (.poa k j)) ++
  (List.finRange 3).flatMap (fun j => [.rem .main (.cov (.pop k j)), .rem .main (.cov (.poa k j))])

/-- Registration of an estimated alignment with the pose update, include/rovio/RovioFilter.hpp:127-136 and 137-146. -/
def alignOps (lin rot : String) (k : Fin nPose) : List (Op n nCam nPose) :=
  regVec .pose lin (.pop k) ++ regQuat .pose rot (.poa k) ++
  (List.finRange 3).flatMap (fun j =>
    [.reg .pose ("init_cov_" ++ lin) (.cov (.pop k j)), .reg .pose ("init_cov_" ++ rot) (.cov (.poa k j)),
     .reg .pose ("pre_cov_" ++ lin) (.prenoi (.pop k j)), .reg .pose ("pre_cov_" ++ rot) (.prenoi (.poa k j))])

/-- Template argument `inertialPoseIndex`, include/rovio/RovioFilter.hpp:48. -/
def inertialPoseIndex (nPose : ℕ) : ℤ := (if nPose > 0 then 1 else 0) - 1

/-- Template argument `bodyPoseIndex`, include/rovio/RovioFilter.hpp:48. -/
def bodyPoseIndex (nPose : ℕ) : ℤ := (if nPose > 1 then 1 else 0) * 2 - 1

/-- `poseLin(i)`/`poseRot(i)` with the index of a pose; `none` outside (excluded by the assertions include/rovio/PoseUpdate.hpp:
158-159). -/
def poseIdx (nPose : ℕ) (i : ℤ) : Option (Fin nPose) := if h : 0 ≤ i ∧ i.toNat < nPose then some ⟨i.toNat, h.2⟩ else none

/-- The component `get_IrIW` refers to, include/rovio/PoseUpdate.hpp:199-205; `none` for an index outside. -/
def refIrIW (j : Fin 3) : Option (Var n nCam nPose) :=
  if 0 ≤ inertialPoseIndex nPose then (poseIdx nPose (inertialPoseIndex nPose)).map (.pop · j) else some (.IrIW j)

/-- The component `get_qWI` refers to, include/rovio/PoseUpdate.hpp:206-212. -/
def refqWI (j : Fin 4) : Option (Var n nCam nPose) :=
  if 0 ≤ inertialPoseIndex nPose then (poseIdx nPose (inertialPoseIndex nPose)).map (.poa · j) else some (.qWI j)

/-- The component `get_MrMV` refers to, include/rovio/PoseUpdate.hpp:213-219. -/
def refMrMV (j : Fin 3) : Option (Var n nCam nPose) :=
  if 0 ≤ bodyPoseIndex nPose then (poseIdx nPose (bodyPoseIndex nPose)).map (.pop · j) else some (.MrMV j)

/-- The component `get_qVM` refers to, include/rovio/PoseUpdate.hpp:220-226. -/
def refqVM (j : Fin 4) : Option (Var n nCam nPose) :=
  if 0 ≤ bodyPoseIndex nPose then (poseIdx nPose (bodyPoseIndex nPose)).map (.poa · j) else some (.qVM j)

/-- The two conditional registrations, include/rovio/RovioFilter.hpp:127-146. -/
def alignmentOps : Option (List (Op n nCam nPose)) := do
  let a ← if 0 ≤ inertialPoseIndex nPose then (poseIdx nPose (inertialPoseIndex nPose)).map (alignOps "IrIW" "qWI") else some []
  let b ← if 0 ≤ bodyPoseIndex nPose then (poseIdx nPose (bodyPoseIndex nPose)).map (alignOps "MrMV" "qVM") else some []
  return a ++ b

/-- The loop over the features, include/rovio/RovioFilter.hpp:148-164. -/
def featureOps (i : Fin n) : List (Op n nCam nPose) :=
  [.rem .main (.cov (.nor i 0)), .rem .main (.cov (.nor i 1)), .rem .main (.cov (.dep i)), .rem .main (.dep i)] ++
  ((List.finRange 4).map fun j => .rem .main (.nor i j)) ++
  [.reg .img "statLocalQualityRange" (.quality i), .reg .img "statLocalVisibilityRange" (.visibility i),
   .reg .img "statMinGlobalQualityRange" (.global i), .reg .img "doPatchWarping" (.warping i)]

/-- Constructor of `RovioFilter` after those of its parts, include/rovio/RovioFilter.hpp:78-177. -/
def filterOps : Option (List (Op n nCam nPose)) := do
  let a ← alignmentOps
  return imuPrediction ++ poseUpdate ++
    [.reg .main "Common.doVECalibration" .doVE, .reg .main "Common.depthType" .depthType] ++
    (List.finRange nCam).flatMap cameraOps ++ (List.finRange nPose).flatMap poseOps ++ a ++ (List.finRange n).flatMap featureOps ++
    [.reg .main "Common.verbose" .verbose, .reg .main "PoseUpdate.doVisualization" .plotPose]

/-- The registers of a newly constructed filter. -/
def construct (dflt : Var n nCam nPose → String) : Option (Regs n nCam nPose) := filterOps.bind (runOps (base dflt))

/-- Path prefix of a handler in the info file, include/rovio/RovioFilter.hpp:84-89. -/
def prefixOf : Handler → String
  | .main => ""
  | .prediction => "Prediction."
  | .img => "ImgUpdate."
  | .pose => "PoseUpdate."

open Classical in
/-- Reading one handler's part of the info file `tree` into the variables `x`; `none` if a key is missing. -/
noncomputable def readHandler {α : Type} (R : Regs n nCam nPose) (tree : String → Option α) (x : Var n nCam nPose → α) (h : Handler) : Option (Var n nCam nPose → α) :=
  if ∀ v k, R h v = some k → (tree (prefixOf h ++ k)).isSome then
    some fun v => ((R h v).bind fun k => tree (prefixOf h ++ k)).getD (x v)
  else none

/-- `readFromInfo`: all handlers, in some order. -/
noncomputable def read {α : Type} (R : Regs n nCam nPose) (tree : String → Option α) (order : List Handler) (x : Var n nCam nPose → α) :
    Option (Var n nCam nPose → α) := order.foldlM (readHandler R tree) x

end Rovio.Config
