import Verif.Model.ImgFull
import Verif.Model.Filter

/-!
# The filter put together

`Model/ImgFull.lean` leaves the filter update open, `Model/Filter.lean` leaves the image processing open.  Here the callbacks of the image update
(include/rovio/ImgUpdate.hpp:406-573) are given to the Kalman update of `Model/Filter.lean`, and predictions, velocity updates and zero-velocity updates are those of
that file: a filter from pixels to estimate and covariance.
-/

namespace Rovio.ImgFull

open Rovio.Img Matrix

variable {n nCam nPose : ℕ}

/-- What to do with the result of a filter step of `Model/Filter.lean`: a step without result (a division by zero in the code) leaves everything as it is.
(Simplification: NaN in the code.) -/
def keepOr (o : Option (Rovio.FSt n nCam nPose)) (x : State n nCam nPose) (P : Cov n nCam nPose) : State n nCam nPose × Cov n nCam nPose :=
  match o with
  | some y => (y.s, y.P)
  | none => (x, P)

/-- LWF `performUpdate` with the callbacks of include/rovio/ImgUpdate.hpp:406-573: innovation and Jacobian at the estimate, outlier test, correction
(`FSt.finish`), and the check of the result; without success (`cancelIteration_`, a failed check) the estimate stays.  (Simplification: a single candidate and a
single iteration; `R` is the measurement noise, `u` the pose update's members, which nothing reads.) -/
noncomputable def ekf (gate : Gate 2) (R : Matrix (Fin 2) (Fin 2) ℝ) (u : PoseUpd nPose) (K : Callbacks n nCam nPose) (x : State n nCam nPose)
    (P : Cov n nCam nPose) (r : Scr) : State n nCam nPose × Cov n nCam nPose × M2 × Bool :=
  let res : Option (State n nCam nPose × Cov n nCam nPose × M2 × Bool) := do
    let (y, stop, r) ← K.innov x 0 r
    let (J, stop', r) ← K.jac x r
    let H ← colMat fun b => (J (DState.unit b)).map V2.at
    let z ← Rovio.FSt.finish ⟨x, P, u⟩ gate y.at H R id
    let (ok, r) ← K.check z.s true r
    return if ok && !stop && !stop' then (z.s, z.P, r.2, true) else (x, P, r.2, false)
  res.getD (x, P, r.2, false)

/-- The zero-velocity update, include/rovio/ImgUpdate.hpp:1075-1081, include/rovio/ZeroVelocityUpdate.hpp:144-170. -/
noncomputable def zeroUpdate (cfg : FCfg n nCam nPose) (u : PoseUpd nPose) (x : State n nCam nPose) (P : Cov n nCam nPose) : State n nCam nPose × Cov n nCam nPose :=
  keepOr (Rovio.FSt.zeroVel cfg (fun _ => true) ⟨x, P, u⟩) x P

/-- The image processing with these filter updates, include/rovio/ImgUpdate.hpp:645-1082. -/
noncomputable def Full.withFilter (F : Full n nCam nPose) (cfg : FCfg n nCam nPose) (gate : Gate 2) (R : Matrix (Fin 2) (Fin 2) ℝ) (u : PoseUpd nPose) :
    Full n nCam nPose := { F with lwf := ekf gate R u, zvu := zeroUpdate cfg u }

/-- What a user feeds to the filter: IMU measurements (include/rovio/ImuPrediction.hpp:93-160), velocities (include/rovio/VelocityUpdate.hpp:166-192) and images, and
resets (include/rovio/RovioFilter.hpp:206-220). -/
inductive Input (n nCam nPose : ℕ) where
  | imu (m : ImuMeas) (dt : ℝ)
  | velocity (v : V3)
  | image (t : ℝ)
  | reset (init : FSt n nCam nPose) (t : ℝ)

/-- What an input does, include/rovio/ImuPrediction.hpp:93-160, include/rovio/VelocityUpdate.hpp:166-192: inertial motion is judged with the predicted state
(include/rovio/ImuPrediction.hpp:150). -/
noncomputable def Input.happening (cfg : FCfg n nCam nPose) (u : PoseUpd nPose) : Input n nCam nPose → Happening n nCam nPose
  | .imu m dt => .filter (fun x P => keepOr (Rovio.FSt.predict cfg m dt ⟨x, P, u⟩) x P) dt
      fun x => ((x.evalPrediction cfg.pred m true x (DState.ofFn 0) dt).getD x).detectInertialMotion cfg.pred m
  | .velocity v => .filter (fun x P => keepOr (Rovio.FSt.velocity cfg v ⟨x, P, u⟩) x P) 0 fun _ => false
  | .image t => .image t
  | .reset init t => .reset init t

/-- A filter's life from its inputs. -/
noncomputable def life (I : USet) (order : Finset (Fin n) → List (Fin n)) (cfg : Cfg) (F : Full n nCam nPose) (fcfg : FCfg n nCam nPose) (gate : Gate 2)
    (R : Matrix (Fin 2) (Fin 2) ℝ) (u : PoseUpd nPose) (mem : FSt n nCam nPose → Mem) (mem' : ℝ → Slot MLP → Mem) (fuel : ℕ) (es : List (Input n nCam nPose))
    (s : FSt n nCam nPose) : Option (FSt n nCam nPose) :=
  run I order cfg (F.withFilter fcfg gate R u) mem mem' fuel (es.map (Input.happening fcfg u)) s

end Rovio.ImgFull
