import Verif.Model.ImgFull
import Verif.Model.ImgIekf

/-!
# What an iterated Kalman update is

A prediction `x` with covariance `P`, measurements that depend non-linearly on the state.  Starting from several points, the measurement is linearised, the estimate that
best agrees with prediction and linearised measurement is computed, and the measurement is linearised again there, until the estimate does not move any more.
-/

namespace Rovio.Spec

open ImgFull Img Matrix

variable {n nCam nPose : ℕ}

/-- The correction for a linearised measurement: innovation `y`, Jacobian `H`, noise `R`, of which the rows `rej` are ignored; `d` is the difference of the prediction to the
linearisation point.  The increment `δ` of the linearisation point and the covariance `Q` are those of the Kalman filter that uses the other rows: they solve its
equations with the innovation covariance `H P Hᵀ + R`. -/
def Corrects (rej : Fin 2 → Bool) (y : Fin 2 → ℝ) (H : Matrix (Fin 2) (Ix n nCam nPose) ℝ) (R : Matrix (Fin 2) (Fin 2) ℝ) (P : Cov n nCam nPose)
    (d δ : Ix n nCam nPose → ℝ) (Q : Cov n nCam nPose) : Prop :=
  ∃ (w : Fin 2 → ℝ) (W : Matrix (Fin 2) (Ix n nCam nPose) ℝ),
    (∀ i, rej i = true → w i = 0 ∧ ∀ b, W i b = 0) ∧
    (∀ i, rej i = false → ((H * P * Hᵀ + R).mulVec w) i = y i + H.mulVec d i ∧ ∀ b, ((H * P * Hᵀ + R) * W) i b = (H * P) i b) ∧
    δ = d - (P * Hᵀ).mulVec w ∧ Q = P - P * Hᵀ * W

/-- One iteration at the linearisation point `l`: the measurement (as the callbacks give it for some contents of the scratch memory) and its correction `δ`, with covariance
`Q`. -/
def Iteration (c : IterCfg) (R : Matrix (Fin 2) (Fin 2) ℝ) (K : Callbacks n nCam nPose) (x : State n nCam nPose) (P : Cov n nCam nPose) (l : State n nCam nPose)
    (δ : Ix n nCam nPose → ℝ) (Q : Cov n nCam nPose) : Prop :=
  ∃ (r r' r'' : Scr) (J : DState n nCam nPose → Option V2) (stop stop' : Bool) (y : V2) (H : Matrix (Fin 2) (Ix n nCam nPose) ℝ) (rej : Fin 2 → Bool),
    K.jac l r = some (J, stop, r') ∧ K.innov l 0 r' = some (y, stop', r'') ∧ (∀ b, ∃ v, J (DState.unit b) = some v ∧ ∀ k, H k b = v.at k) ∧
    Corrects rej y.at H R P (c.diff x l) δ Q

/-- Linearisation points reached from a starting point in a number of iterations. -/
inductive Visited (c : IterCfg) (R : Matrix (Fin 2) (Fin 2) ℝ) (K : Callbacks n nCam nPose) (x : State n nCam nPose) (P : Cov n nCam nPose) (z : State n nCam nPose) :
    ℕ → State n nCam nPose → Prop where
  | start : Visited c R K x P z 0 z
  | next {k : ℕ} {l : State n nCam nPose} {δ : Ix n nCam nPose → ℝ} {Q : Cov n nCam nPose} : Visited c R K x P z k l → Iteration c R K x P l δ Q →
      Visited c R K x P z (k + 1) (l.boxPlus (DState.ofFn δ))

/-- A starting point: the estimate moved, along its correlations, so that the predicted pixel (with derivative `H`) is displaced by a grid offset along the axes of its
uncertainty, within its ellipse. -/
def StartingPoint (c : IterCfg) (eigen : M2 → (ℝ × ℝ) × V2 × V2) (x : State n nCam nPose) (P : Cov n nCam nPose) (H : Matrix (Fin 2) (Ix n nCam nPose) ℝ)
    (z : State n nCam nPose) : Prop :=
  ∃ (u v : ℤ) (w : Fin 2 → ℝ), |u| ≤ c.uni ∧ |v| ≤ c.uni ∧
    (u * c.range) ^ 2 / (eigen (toM2 (H * P * Hᵀ))).1.1 + (v * c.range) ^ 2 / (eigen (toM2 (H * P * Hᵀ))).1.2 < c.cover ^ 2 ∧
    (H * P * Hᵀ).mulVec w = (((u : ℝ) * c.range) • (eigen (toM2 (H * P * Hᵀ))).2.1 + ((v : ℝ) * c.range) • (eigen (toM2 (H * P * Hᵀ))).2.2 : V2).at ∧
    z = x.boxPlus (DState.ofFn (-((P * Hᵀ).mulVec w)))

/-- An outlier check that accepts nothing that has not converged. -/
def AsksConvergence (K : Callbacks n nCam nPose) : Prop := ∀ z r r', K.check z false r ≠ some (true, r')

/-- Logarithms of rotations that turn with their argument (a rotation seen from a turned frame has the turned rotation vector). -/
def LogTurns (log : Quat → V3) : Prop := ∀ q z : Quat, z.IsUnit → log (z * q * z.inv) = z.rotate (log q)

end Rovio.Spec
