import Verif.Model.ImgIekf

/-!
# The whole filter with pose measurements

The filter of `Model/ImgEkf.lean` and `Model/ImgIekf.lean`, from IMU measurements, velocities and images to estimate and covariance, together with the update from externally
measured poses (include/rovio/PoseUpdate.hpp), whose members (the alignment of the frames among them) change from measurement to measurement.
-/

namespace Rovio.ImgFull

open Rovio.Img Matrix

variable {n nCam nPose : ℕ}

/-- What a user feeds to the filter: the inputs of `Input` and measured poses (include/rovio/RovioNode.hpp:534-566). -/
inductive PInput (n nCam nPose : ℕ) where
  | input (e : Input n nCam nPose)
  | pose (m : PoseMeas)

/-- The members of the pose update after a measurement, include/rovio/PoseUpdate.hpp:283-317.  (Simplification: a step without result, a division by zero in the code, leaves
them as they are, see `keepOr`.) -/
noncomputable def poseMembers (cfg : FCfg n (nCam + 1) nPose) (m : PoseMeas) (u : PoseUpd nPose) (x : State n (nCam + 1) nPose) (P : Cov n (nCam + 1) nPose) : PoseUpd nPose :=
  match Rovio.FSt.pose cfg m ⟨x, P, u⟩ with
  | some z => z.u
  | none => u

/-- One input, include/rovio/PoseUpdate.hpp:227-325 for poses.  `F` is the image processing, whose filter update may be given the members of the pose update. -/
noncomputable def stepPose (I : USet) (order : Finset (Fin n) → List (Fin n)) (cfg : Cfg) (F : PoseUpd nPose → Full n (nCam + 1) nPose) (fcfg : FCfg n (nCam + 1) nPose)
    (mem : FSt n (nCam + 1) nPose → Mem) (mem' : ℝ → Slot MLP → Mem) (fuel : ℕ) (s : FSt n (nCam + 1) nPose × PoseUpd nPose) :
    PInput n (nCam + 1) nPose → Option (FSt n (nCam + 1) nPose × PoseUpd nPose)
  | .input e => (step I order cfg (F s.2) mem mem' fuel s.1 (e.happening fcfg s.2)).map fun r => (r, s.2)
  | .pose m => (step I order cfg (F s.2) mem mem' fuel s.1 (.filter (fun x P => keepOr (Rovio.FSt.pose fcfg m ⟨x, P, s.2⟩) x P) 0 fun _ => false)).map
      fun r => (r, poseMembers fcfg m s.2 (here s.1) s.1.cov)

/-- A filter's life from its inputs, include/rovio/PoseUpdate.hpp:227-325. -/
noncomputable def lifePose (I : USet) (order : Finset (Fin n) → List (Fin n)) (cfg : Cfg) (F : PoseUpd nPose → Full n (nCam + 1) nPose) (fcfg : FCfg n (nCam + 1) nPose)
    (mem : FSt n (nCam + 1) nPose → Mem) (mem' : ℝ → Slot MLP → Mem) (fuel : ℕ) (es : List (PInput n (nCam + 1) nPose)) (s : FSt n (nCam + 1) nPose × PoseUpd nPose) :
    Option (FSt n (nCam + 1) nPose × PoseUpd nPose) :=
  es.foldlM (stepPose I order cfg F fcfg mem mem' fuel) s

end Rovio.ImgFull
