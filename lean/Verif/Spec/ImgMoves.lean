import Verif.Model.ImgEkf

/-!
# What one image may do to the estimate

An independent description: Kalman corrections with the bearing of a feature in a camera, and bookkeeping of the features.
-/

namespace Rovio.Spec

open Rovio.Img Matrix

variable {n nCam nPose : ℕ}

/-- The visit got as far as the filter: the feature was in frame and, unless the direct method is used, matched. -/
def Reached (v : Visit n nCam) : Bool := v.result != some .notInFrame && v.result != some .failedAlignment

/-- The visit ended as a success. -/
def Tracked (v : Visit n nCam) : Bool := v.result == some .tracked

/-- Feature and camera of the visits of a kind, in order. -/
def pairs (p : Visit n nCam → Bool) (log : List (Visit n nCam)) : List (Fin n × Fin nCam) := (log.filter p).map fun v => (v.i, v.c)

/-- What the covariance of a feature is set to: one when the feature is removed, the configured initial covariance, or that one with the variance of the distance converted to
the parametrisation. -/
def ResetBlock (C₀ C : Matrix (Fin 3) (Fin 3) ℝ) : Prop := C = 1 ∨ C = C₀ ∨ ∃ d, C = scaleDepth C₀ d

/-- From the estimate `x₀` with covariance `P₀` to another one by two-dimensional Kalman corrections (noise `R`, outlier test `gate`), each with the derivative of a feature's
bearing in a camera (times a matrix), for the features and cameras in the list in this order, and by changes of the features and resets of their covariance (`C₀`: the
configured initial one). -/
inductive ByMatches (sfv : V3 → Nor) (C₀ : Matrix (Fin 3) (Fin 3) ℝ) (gate : Gate 2) (R : Matrix (Fin 2) (Fin 2) ℝ) (u : PoseUpd nPose) (x₀ : State n nCam nPose) (P₀ : Cov n nCam nPose) :
    List (Fin n × Fin nCam) → State n nCam nPose → Cov n nCam nPose → Prop
  | start : ByMatches sfv C₀ gate R u x₀ P₀ [] x₀ P₀
  | features {l x P} (f : Fin n → Fea) : ByMatches sfv C₀ gate R u x₀ P₀ l x P → ByMatches sfv C₀ gate R u x₀ P₀ l { x with fea := f } P
  | reset {l x P} (i : Fin n) {C : Matrix (Fin 3) (Fin 3) ℝ} (hC : ResetBlock C₀ C) : ByMatches sfv C₀ gate R u x₀ P₀ l x P → ByMatches sfv C₀ gate R u x₀ P₀ l x (P.resetFeature i C)
  | correct {l x P} (i : Fin n) (b : Fin nCam) (A : Matrix (Fin 2) (Fin 2) ℝ) (y : Fin 2 → ℝ) {J : Matrix (Fin 2) (Ix n nCam nPose) ℝ} {z : FSt n nCam nPose} :
      ByMatches sfv C₀ gate R u x₀ P₀ l x P →
      (∀ a, (x.featureJac sfv true i b (DState.unit a)).map (fun r => r.1.at) = some fun k => J k a) →
      FSt.finish ⟨x, P, u⟩ gate y (A * J) R id = some z → ByMatches sfv C₀ gate R u x₀ P₀ (l ++ [(i, b)]) z.s z.P

/-- Two estimates that differ in the features only: the same position, velocity, biases, attitude, mounting of the cameras, additional poses and auxiliary data. -/
def SamePlatformEstimate (x y : State n nCam nPose) : Prop := y = { x with fea := y.fea }

/-- The feature in slot `i` is the same one in both filter states: the slot is in use with the same identifier. -/
def Survives (s s' : ImgFull.FSt n nCam nPose) (i : Fin n) : Prop := s.valid i = true ∧ s'.valid i = true ∧ (s'.fsm.slots i).idx = (s.fsm.slots i).idx

/-- Coordinates of the same point: the same pixel, bearing, camera; the warp may differ. -/
structure SamePoint (x y : FC) : Prop where
  c : y.c = x.c
  validC : y.validC = x.validC
  nor : y.nor = x.nor
  validNor : y.validNor = x.validNor
  camID : y.camID = x.camID
  cam : y.cam = x.cam

/-- A row of the covariance that belongs to the platform (position, velocity, attitude, biases, mounting of cameras, additional poses) or to a feature that `p` holds of. -/
def keptRow (p : Fin n → Prop) : Ix n nCam nPose → Prop
  | .nor i _ => p i
  | .dep i => p i
  | _ => True

/-- The zero-velocity update is due after the image: it is switched on together with the motion detection in images, and neither detector has seen motion for the
configured time. -/
def ZeroVelocityDue (cfg : Cfg) (s : ImgFull.FSt n nCam nPose) : Prop :=
  cfg.zeroVelocity = true ∧ cfg.visualMotion = true ∧ cfg.minTimeZeroVelocity < s.sinceImage ∧ cfg.minTimeZeroVelocity < s.sinceInertial

/-- A measurement of another sensor than the cameras: of the IMU, with the time it covers, or of a velocity. -/
abbrev Sensor := (ImuMeas × ℝ) ⊕ V3

/-- The measurement of another sensor that an input is. -/
def ofInput : ImgFull.Input n nCam nPose → Option Sensor
  | .imu m dt => some (.inl (m, dt))
  | .velocity v => some (.inr v)
  | _ => none

/-- The measurement of another sensor that a step of the filter uses. -/
def ofStep : Step n nCam nPose → Option Sensor
  | .predict m dt => some (.inl (m, dt))
  | .velocity v => some (.inr v)
  | _ => none

/-- The steps a filter from pixels takes: no external poses, image corrections with noise `R` and outlier test `gate`. -/
def FromPixels (gate : Gate 2) (R : Matrix (Fin 2) (Fin 2) ℝ) : Step n nCam nPose → Prop
  | .pose _ => False
  | .image alg => ∀ o P, ∃ i b lin A y, alg o P = some ⟨2, i, b, lin, A, y, R, gate⟩
  | _ => True

end Rovio.Spec
