import Verif.Spec.Gauge

/-!
# Uncertainty the filter can never reduce

Position and heading are not observable: nothing the filter measures depends on them.
-/

namespace Rovio.Spec

variable {n nCam nPose : ℕ}

/-- An error the filter cannot see: a shift of the position and a turn about the vertical (attitude errors are vectors of the world frame). -/
def Unseen (v : Ix n nCam nPose → ℝ) : Prop :=
  v (.att 0) = 0 ∧ v (.att 1) = 0 ∧ ∀ a, (∀ k, a ≠ .pos k ∧ a ≠ .att k) → v a = 0

/-- The filter `y` is the filter `x` with additional uncertainty: independent errors, the columns of `L`, none of which can be seen. -/
structure Widened {m : ℕ} (L : Matrix (Ix n nCam nPose) (Fin m) ℝ) (x y : FSt n nCam nPose) : Prop where
  s : y.s = x.s
  P : y.P = x.P + L * L.transpose
  u : y.u = x.u
  unseen : ∀ j, Unseen fun a => L a j

/-- Steps that do not use an external pose, and whose decisions do not look at the variances and correlations of position and attitude. -/
def BlindStep : Step n nCam nPose → Prop
  | .predict _ _ => True
  | .velocity _ => True
  | .zeroVel _ => True
  | .image alg => ∀ o P P', covNoWorld P = covNoWorld P' → alg o P = alg o P'
  | .manage alg => ∀ o P P', covNoWorld P = covNoWorld P' → alg o P = alg o P'
  | .pose _ => False

end Rovio.Spec
