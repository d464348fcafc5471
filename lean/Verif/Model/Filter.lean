import Verif.Model.Covariance
import Verif.Model.PoseUpdate
import Verif.Model.Outputs
import Mathlib.LinearAlgebra.Matrix.NonsingularInverse

/-!
# Model of a filter run

The Kalman filter itself is part of LWF, which is not in the repository; its documented behaviour is modelled: a prediction
evaluates the prediction and `P ← F P Fᵀ + G Q Gᵀ`, an update evaluates innovation and Jacobians, `S ← H P Hᵀ + Hn R Hnᵀ`, rejected
rows are neutralised, `K ← P Hᵀ S⁻¹`, `P ← P - K S Kᵀ`, `x ← x ⊞ (-K y)`; afterwards quaternions are normalised (`fix`) and the covariance is
made symmetric.  A singular `S` has no inverse: NaN in the code, `none` in the model.

What happens between the updates of one image (alignment in the image, feature management) is an arbitrary function of the
odometry part of the estimate and its covariance: include/rovio/ImgUpdate.hpp does not mention the additional poses.
Merging of inertial measurements between updates and the scheduling of updates are not modelled: a run is a list of steps.
-/

namespace Rovio

open Distance Matrix

variable {n nCam nPose : ℕ}

/-- Coordinates without their pixel cache. -/
def FC.noPixel (c : FC) : FC := { c with c := ⟨0, 0⟩, validC := false }

/-- The odometry part of a state: everything but the additional poses, the recorded pose measurement
(include/rovio/FilterStates.hpp:92-93, written for display only) and the pixel caches of the features. -/
def State.odo (s : State n nCam nPose) : State n nCam 0 where
  pos := s.pos
  vel := s.vel
  acb := s.acb
  gyb := s.gyb
  att := s.att
  vep := s.vep
  vea := s.vea
  fea := fun i => { s.fea i with c := (s.fea i).c.noPixel }
  pop := Fin.elim0
  poa := Fin.elim0
  aux := { s.aux with poseMeasRot := Quat.one, poseMeasLin := 0 }

/-- A state with another odometry part. -/
def State.withOdo (s : State n nCam nPose) (o : State n nCam 0) : State n nCam nPose :=
  { pos := o.pos, vel := o.vel, acb := o.acb, gyb := o.gyb, att := o.att, vep := o.vep, vea := o.vea, fea := o.fea, pop := s.pop, poa := s.poa,
    aux := { o.aux with poseMeasRot := s.aux.poseMeasRot, poseMeasLin := s.aux.poseMeasLin } }

/-- The rows of the odometry part. -/
def Ix.ofOdo : Ix n nCam 0 → Ix n nCam nPose
  | pos k => .pos k
  | vel k => .vel k
  | acb k => .acb k
  | gyb k => .gyb k
  | att k => .att k
  | vep c k => .vep c k
  | vea c k => .vea c k
  | nor i k => .nor i k
  | dep i => .dep i
  | pop j _ => j.elim0
  | poa j _ => j.elim0

/-- The covariance of the odometry part. -/
def Cov.odo (P : Cov n nCam nPose) : Cov n nCam 0 := P.submatrix Ix.ofOdo Ix.ofOdo

/-- A matrix given column by column (the Jacobians of the code are maps on increments in the model); `none` if a column is. -/
noncomputable def colMat {ρ : Type} (f : Ix n nCam nPose → Option (ρ → ℝ)) : Option (Matrix ρ (Ix n nCam nPose) ℝ) :=
  open Classical in if h : ∀ b, (f b).isSome then some (Matrix.of fun r b => (f b).get (h b) r) else none

/-- LWF `enforceSymmetry`. -/
noncomputable def symm (P : Cov n nCam nPose) : Cov n nCam nPose := (0.5 : ℝ) • (P + Pᵀ)

/-- The filter: estimate, covariance and the pose update's members. -/
structure FSt (n nCam nPose : ℕ) where
  s : State n nCam nPose
  P : Cov n nCam nPose
  u : PoseUpd nPose

/-- An outlier test (LWF): which rows of an innovation with a given covariance are rejected.  Arbitrary. -/
abbrev Gate (m : ℕ) := (Fin m → ℝ) → Matrix (Fin m) (Fin m) ℝ → Fin m → Bool

/-- LWF `performUpdateEKF`: the correction of the estimate and the new covariance for the innovation `y`, its Jacobian `H` and
its noise `R`. -/
noncomputable def correct {m : ℕ} (gate : Gate m) (y : Fin m → ℝ) (H : Matrix (Fin m) (Ix n nCam nPose) ℝ) (R : Matrix (Fin m) (Fin m) ℝ) (P : Cov n nCam nPose) :
    Option ((Ix n nCam nPose → ℝ) × Cov n nCam nPose) :=
  let S := H * P * Hᵀ + R
  let rej := gate y S
  let S := Matrix.of fun i j => if rej i || rej j then (if i = j then 1 else 0) else S i j
  let H := Matrix.of fun i b => if rej i then 0 else H i b
  open Classical in if S.det = 0 then none
  else
    let K := P * Hᵀ * S⁻¹
    some (-(K.mulVec y), P - K * S * Kᵀ)

/-- The configuration of the filter: prediction parameters, the diagonal of the prediction noise (include/rovio/FilterStates.hpp:474-520,
registered as a diagonal), the velocity update's rotation and noise, the zero velocity update's noise, and the functions of the libraries. -/
structure FCfg (n nCam nPose : ℕ) where
  pred : PredCfg
  q : Ix n nCam nPose → ℝ
  qAM : Quat
  velR : Matrix (Fin 3) (Fin 3) ℝ
  zeroR : Matrix (Fin 3) (Fin 3) ℝ
  sfv : V3 → Nor
  log : Quat → V3
  gateV : Gate 3
  gateZ : Gate 3
  gateP : Gate 6

/-- A correction computed by the image processing: the feature, the camera, the linearisation point, the innovation (of any
dimension), its derivative with respect to the feature's bearing, its noise and the outlier test.
include/rovio/ImgUpdate.hpp:546-568: the Jacobian is a matrix times the bearing rows of the feature output's Jacobian.  In the
iterated filter `y` includes the term for the linearisation point. -/
structure ImgCorr (n nCam : ℕ) where
  m : ℕ
  i : Fin n
  b : Fin nCam
  lin : State n nCam 0
  A : Matrix (Fin m) (Fin 2) ℝ
  y : Fin m → ℝ
  R : Matrix (Fin m) (Fin m) ℝ
  gate : Gate m

/-- What the feature management does between updates: new features, new auxiliary data and slots whose covariance is reset. -/
structure Manage (n nCam : ℕ) where
  fea : Fin n → Fea
  aux : Aux nCam
  reset : List (Fin n × Matrix (Fin 3) (Fin 3) ℝ)

/-- The steps of a run. -/
inductive Step (n nCam nPose : ℕ) where
  | predict (m : ImuMeas) (dt : ℝ)
  | velocity (meas : V3)
  | zeroVel (trigger : State n nCam 0 → Bool)
  | image (alg : State n nCam 0 → Cov n nCam 0 → Option (ImgCorr n nCam))
  | manage (alg : State n nCam 0 → Cov n nCam 0 → Manage n nCam)
  | pose (meas : PoseMeas)

namespace FSt

/-- LWF `performPrediction` (EKF mode). -/
noncomputable def predict (cfg : FCfg n nCam nPose) (m : ImuMeas) (dt : ℝ) (x : FSt n nCam nPose) : Option (FSt n nCam nPose) := do
  let F ← colMat fun b => (x.s.predJac m dt (DState.unit b)).map DState.get
  let G ← colMat fun b => (x.s.noiseJac m dt (DState.unit b)).map DState.get
  let s ← x.s.evalPrediction cfg.pred m true x.s (DState.ofFn 0) dt
  return { x with s := s, P := symm (F * x.P * Fᵀ + G * Matrix.diagonal cfg.q * Gᵀ) }

/-- The part of LWF's `performUpdate` after the innovation is known: correct, post-process, normalise. -/
noncomputable def finish {m : ℕ} (x : FSt n nCam nPose) (gate : Gate m) (y : Fin m → ℝ) (H : Matrix (Fin m) (Ix n nCam nPose) ℝ) (R : Matrix (Fin m) (Fin m) ℝ)
    (post : State n nCam nPose → State n nCam nPose) : Option (FSt n nCam nPose) := do
  let (δ, P) ← correct gate y H R x.P
  let s ← (post (x.s.boxPlus (DState.ofFn δ))).fix
  return { x with s := s, P := symm P }

/-- The velocity update, include/rovio/VelocityUpdate.hpp:166-192. -/
noncomputable def velocity (cfg : FCfg n nCam nPose) (meas : V3) (x : FSt n nCam nPose) : Option (FSt n nCam nPose) :=
  x.finish cfg.gateV (velInnov cfg.qAM meas x.s 0).at (Matrix.of fun k b => (velJac cfg.qAM (DState.unit b)).at k) cfg.velR id

/-- The zero velocity update, include/rovio/ZeroVelocityUpdate.hpp:144-170; when it is triggered is decided from the odometry
part (include/rovio/ImgUpdate.hpp:1074-1081). -/
noncomputable def zeroVel (cfg : FCfg n nCam nPose) (trigger : State n nCam 0 → Bool) (x : FSt n nCam nPose) : Option (FSt n nCam nPose) :=
  if trigger x.s.odo then
    x.finish cfg.gateZ (zeroVelInnov x.s 0).at (Matrix.of fun k b => (zeroVelJac (DState.unit b)).at k) cfg.zeroR id
  else some x

/-- One image correction, include/rovio/ImgUpdate.hpp:546-568. -/
noncomputable def image (cfg : FCfg n nCam nPose) (c : ImgCorr n nCam) (x : FSt n nCam nPose) : Option (FSt n nCam nPose) := do
  let J ← colMat fun b => ((x.s.withOdo c.lin).featureJac cfg.sfv true c.i c.b (DState.unit b)).map fun r => r.1.at
  x.finish c.gate c.y (c.A * J) c.R id

/-- Feature management between updates, include/rovio/ImgUpdate.hpp:845-1072. -/
def manage (r : Manage n nCam) (x : FSt n nCam nPose) : FSt n nCam nPose :=
  { x with
    s := { x.s with fea := r.fea, aux := { r.aux with poseMeasRot := x.s.aux.poseMeasRot, poseMeasLin := x.s.aux.poseMeasLin } }
    P := r.reset.foldl (fun P p => P.resetFeature p.1 p.2) x.P }

end FSt

/-- The index of a row of the pose innovation. -/
def poseRow : Fin 6 → PoseIx := fun k => if h : k.val < 3 then .inl ⟨k, h⟩ else .inr ⟨k - 3, by omega⟩

/-- A row of a pose error. -/
def DPose.row (d : DPose) (k : Fin 6) : ℝ := match poseRow k with | .inl i => d.pos.at i | .inr i => d.att.at i

namespace FSt

/-- The pose update: `preProcess`, innovation and Jacobian of the aligned state, correction, `postProcess`,
include/rovio/PoseUpdate.hpp:227-325. -/
noncomputable def pose (cfg : FCfg n (nCam + 1) nPose) (meas : PoseMeas) (x : FSt n (nCam + 1) nPose) : Option (FSt n (nCam + 1) nPose) :=
  let p := x.u.preProcess meas x.s
  let inn := p.1.innov meas p.2 ⟨0, 0⟩
  let y : Fin 6 → ℝ := DPose.row ⟨inn.pos, cfg.log inn.att⟩
  finish { x with s := p.2, u := p.1 } cfg.gateP y (Matrix.of fun k b => (p.1.jacState p.2 (DState.unit b)).row k)
    (Matrix.of fun k l => p.1.noise (poseRow k) (poseRow l)) (p.1.postProcess meas)

/-- One step. -/
noncomputable def step (cfg : FCfg n (nCam + 1) nPose) (x : FSt n (nCam + 1) nPose) : Step n (nCam + 1) nPose → Option (FSt n (nCam + 1) nPose)
  | .predict m dt => x.predict cfg m dt
  | .velocity meas => x.velocity cfg meas
  | .zeroVel trigger => x.zeroVel cfg trigger
  | .image alg => match alg x.s.odo x.P.odo with
    | some c => x.image cfg c
    | none => some x
  | .manage alg => some (x.manage (alg x.s.odo x.P.odo))
  | .pose meas => x.pose cfg meas

/-- A run. -/
noncomputable def run (cfg : FCfg n (nCam + 1) nPose) (x : FSt n (nCam + 1) nPose) (es : List (Step n (nCam + 1) nPose)) : Option (FSt n (nCam + 1) nPose) :=
  es.foldlM (step cfg) x

end FSt

end Rovio
