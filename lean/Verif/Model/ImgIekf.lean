import Verif.Model.ImgEkf

/-!
# The iterated image update

With the direct method (`useDirectMethod_`, the default) the image update runs LWF's iterated Kalman update with several starting points
(include/rovio/RovioFilter.hpp:170-182 sets `mode_`, include/rovio/ImgUpdate.hpp:442-475 generates the starting points, 477-537 judges the results).  LWF's
`performUpdateIEKF` is modelled as published (the submodule lightweight_filtering is not part of the repository); everything specific to the image update are the
callbacks of `Model/ImgFull.lean`.
-/

namespace Rovio.ImgFull

open Rovio.Img Matrix

variable {n nCam nPose : ℕ}

/-- Settings of the iterated update: LWF's `maxNumIteration_` and `updateVecNormTermination_` (registered in LWF, used by include/rovio/ImgUpdate.hpp through
`hasConverged_`), the starting points (`alignMaxUniSample_`, `alignConvergencePixelRange_`, `alignCoverageRatio_`, include/rovio/ImgUpdate.hpp:222-224), and the
logarithms of kindr and LWF for rotations and bearings (libraries: arbitrary functions). -/
structure IterCfg where
  maxIter : ℕ
  thr : ℝ
  uni : ℕ
  range : ℝ
  cover : ℝ
  log : Quat → V3
  norDiff : Nor → Nor → V2

/-- State difference (LWF `State::boxMinus`: every element by its own rule, include/rovio/FilterStates.hpp:87-120 has the elements; features
include/rovio/RobocentricFeatureElement.hpp:69-73).  (Simplification: for features whose bearing is already computed.) -/
noncomputable def IterCfg.diff (c : IterCfg) (x y : State n nCam nPose) : Ix n nCam nPose → ℝ :=
  DState.get
    { pos := x.pos - y.pos, vel := x.vel - y.vel, acb := x.acb - y.acb, gyb := x.gyb - y.gyb, att := c.log (x.att * y.att.inv),
      vep := fun i => x.vep i - y.vep i, vea := fun i => c.log (x.vea i * (y.vea i).inv),
      nor := fun i => c.norDiff (x.fea i).c.nor (y.fea i).c.nor, dep := fun i => (x.fea i).d.p - (y.fea i).d.p,
      pop := fun i => x.pop i - y.pop i, poa := fun i => c.log (x.poa i * (y.poa i).inv) }

/-- Eigen's `norm` of an increment (all rows, also those an image does not determine), LWF `performUpdateIEKF`. -/
noncomputable def vecNorm (d : Ix n nCam nPose → ℝ) : ℝ := Real.sqrt (d ⬝ᵥ d)

/-- One correction of LWF `performUpdateIEKF` for the innovation `y`, its Jacobian `H`, its noise `R` and the difference `d` of the prediction to the linearisation
point: the increment of the linearisation point, the new covariance and the score.  Undefined if the innovation covariance is singular. -/
noncomputable def correctIter (gate : Gate 2) (R : Matrix (Fin 2) (Fin 2) ℝ) (y : Fin 2 → ℝ) (H : Matrix (Fin 2) (Ix n nCam nPose) ℝ) (P : Cov n nCam nPose)
    (d : Ix n nCam nPose → ℝ) : Option ((Ix n nCam nPose → ℝ) × Cov n nCam nPose × ℝ) :=
  let S := H * P * Hᵀ + R
  let rej := gate y S
  let S := Matrix.of fun i j => if rej i || rej j then (if i = j then 1 else 0) else S i j
  let H := Matrix.of fun i b => if rej i then 0 else H i b
  open Classical in if S.det = 0 then none
  else
    let K := P * Hᵀ * S⁻¹
    some (-(K.mulVec (y + H.mulVec d)) + d, P - K * S * Kᵀ, y ⬝ᵥ S⁻¹.mulVec y)

/-- What LWF's iteration holds: the linearisation point, `hasConverged_`, `cancelIteration_`, the covariance and score of the last correction, and the scratch of the
callbacks. -/
structure Iter (n nCam nPose : ℕ) where
  lin : State n nCam nPose
  conv : Bool
  stop : Bool
  cov : Cov n nCam nPose
  score : ℝ
  scr : Scr

/-- One iteration of LWF `performUpdateIEKF`: Jacobian (include/rovio/ImgUpdate.hpp:546-568) and innovation (406-441) at the linearisation point, correction, and the
test of convergence.  `cancelIteration_` is only ever set (include/rovio/ImgUpdate.hpp:432, 561). -/
noncomputable def iterStep (c : IterCfg) (gate : Gate 2) (R : Matrix (Fin 2) (Fin 2) ℝ) (K : Callbacks n nCam nPose) (x : State n nCam nPose) (P : Cov n nCam nPose)
    (a : Iter n nCam nPose) : Option (Iter n nCam nPose) := do
  let (J, stop, r) ← K.jac a.lin a.scr
  let H ← colMat fun b => (J (DState.unit b)).map V2.at
  let (y, stop', r) ← K.innov a.lin 0 r
  let (δ, Q, sc) ← correctIter gate R y.at H P (c.diff x a.lin)
  return { lin := a.lin.boxPlus (DState.ofFn δ), conv := decide (vecNorm δ ≤ c.thr), stop := stop || stop', cov := Q, score := sc, scr := r }

/-- The iterations from a starting point: until convergence, cancellation or the maximal number, LWF `performUpdateIEKF`. -/
noncomputable def iterate (c : IterCfg) (gate : Gate 2) (R : Matrix (Fin 2) (Fin 2) ℝ) (K : Callbacks n nCam nPose) (x : State n nCam nPose) (P : Cov n nCam nPose) :
    ℕ → Iter n nCam nPose → Option (Iter n nCam nPose)
  | 0, a => some a
  | k + 1, a => if a.conv || a.stop then some a else (iterStep c gate R K x P a).bind (iterate c gate R K x P k)

/-- Where `generateCandidates` moves the estimate for a pixel offset, include/rovio/ImgUpdate.hpp:469-470: by `-P Hᵀ Py⁻¹ dy`. -/
noncomputable def candidate (x : State n nCam nPose) (P : Cov n nCam nPose) (H : Matrix (Fin 2) (Ix n nCam nPose) ℝ) (dy : V2) : State n nCam nPose :=
  x.boxPlus (DState.ofFn (-((P * Hᵀ * (H * P * Hᵀ)⁻¹).mulVec dy.at)))

/-- A 2x2 matrix in the form of the eigenvalue solver's argument. -/
def toM2 (S : Matrix (Fin 2) (Fin 2) ℝ) : M2 := ⟨S 0 0, S 0 1, S 1 0, S 1 1⟩

/-- The starting points, include/rovio/ImgUpdate.hpp:442-475: the grid offsets within the ellipse of the predicted pixel, along its axes, as far as the settings ask for.
Undefined if the pixel uncertainty is singular (division by zero in the code). -/
noncomputable def starts (c : IterCfg) (eigen : M2 → (ℝ × ℝ) × V2 × V2) (x : State n nCam nPose) (P : Cov n nCam nPose) (H : Matrix (Fin 2) (Ix n nCam nPose) ℝ) :
    Option (List (State n nCam nPose)) :=
  let Py := H * P * Hᵀ
  open Classical in if Py.det = 0 then none
  else
    let e := eigen (toM2 Py)
    (candidates c.uni (inEllipse c.range c.cover e.1.1 e.1.2) ((2 * c.uni + 1) * (2 * c.uni + 1) + 1) 0).map fun uv =>
      uv.map fun g => candidate x P H (((g.1 : ℝ) * c.range) • e.2.1 + ((g.2 : ℝ) * c.range) • e.2.2)

/-- A result that passed the outlier check: LWF's `scores`, `states` and the covariance. -/
structure Pass (n nCam nPose : ℕ) where
  score : ℝ
  z : State n nCam nPose
  cov : Cov n nCam nPose

/-- One starting point of LWF `performUpdateIEKF`: iterations and outlier check (include/rovio/ImgUpdate.hpp:477-537). -/
noncomputable def tryStart (c : IterCfg) (gate : Gate 2) (R : Matrix (Fin 2) (Fin 2) ℝ) (K : Callbacks n nCam nPose) (x : State n nCam nPose) (P : Cov n nCam nPose)
    (acc : List (Pass n nCam nPose) × Scr) (z : State n nCam nPose) : Option (List (Pass n nCam nPose) × Scr) := do
  let a ← iterate c gate R K x P c.maxIter { lin := z, conv := false, stop := false, cov := P, score := 0, scr := acc.2 }
  let (ok, r) ← K.check a.lin a.conv a.scr
  return (if ok then acc.1 ++ [⟨a.score, a.lin, a.cov⟩] else acc.1, r)

/-- The result with the lowest score, the first of them (LWF `bestScore`, `bestState`, `bestCov`). -/
noncomputable def bestOf : List (Pass n nCam nPose) → Option (Pass n nCam nPose)
  | [] => none
  | p :: ps => some (ps.foldl (fun b q => if q.score < b.score then q else b) p)

/-- LWF `performUpdateIEKF` with the callbacks of the image update: all starting points, and the best result, unless another one is too far from it; then normalisation and
symmetrisation (LWF `performUpdate`).  (Simplification as in `ekf`: a division by zero leaves everything as it is.) -/
noncomputable def iekf (c : IterCfg) (eigen : M2 → (ℝ × ℝ) × V2 × V2) (gate : Gate 2) (R : Matrix (Fin 2) (Fin 2) ℝ) (K : Callbacks n nCam nPose)
    (x : State n nCam nPose) (P : Cov n nCam nPose) (r : Scr) : State n nCam nPose × Cov n nCam nPose × M2 × Bool :=
  let res : Option (State n nCam nPose × Cov n nCam nPose × M2 × Bool) := do
    let (J, r) ← K.cand x r
    let H ← colMat fun b => (J (DState.unit b)).map V2.at
    let zs ← starts c eigen x P H
    let (ps, r) ← zs.foldlM (tryStart c gate R K x P) ([], r)
    match bestOf ps with
    | none => return (x, P, r.2, false)
    | some b =>
      if ps.any fun p => decide (2 * c.thr < vecNorm (c.diff b.z p.z)) then return (x, P, r.2, false)
      else
        let z ← b.z.fix
        return (z, symm b.cov, r.2, true)
  res.getD (x, P, r.2, false)

/-- The image processing with the iterated update, include/rovio/ImgUpdate.hpp:406-1082, include/rovio/RovioFilter.hpp:179; the eigenvalue solver is that of the image
processing. -/
noncomputable def Full.iterated (F : Full n nCam nPose) (c : IterCfg) (cfg : FCfg n nCam nPose) (gate : Gate 2) (R : Matrix (Fin 2) (Fin 2) ℝ) (u : PoseUpd nPose) :
    Full n nCam nPose := { F with lwf := iekf c F.eigen gate R, zvu := zeroUpdate cfg u }

/-- A filter's life from its inputs, with the iterated update. -/
noncomputable def lifeIter (I : USet) (order : Finset (Fin n) → List (Fin n)) (cfg : Cfg) (F : Full n nCam nPose) (c : IterCfg) (fcfg : FCfg n nCam nPose) (gate : Gate 2)
    (R : Matrix (Fin 2) (Fin 2) ℝ) (u : PoseUpd nPose) (mem : FSt n nCam nPose → Mem) (mem' : ℝ → Slot MLP → Mem) (fuel : ℕ) (es : List (Input n nCam nPose))
    (s : FSt n nCam nPose) : Option (FSt n nCam nPose) :=
  run I order cfg (F.iterated c fcfg gate R u) mem mem' fuel (es.map (Input.happening fcfg u)) s

end Rovio.ImgFull
