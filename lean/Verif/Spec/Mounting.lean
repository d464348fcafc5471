import Verif.Spec.ImgSees

/-!
# The camera mounting in the filter state

The filter state holds estimates of the camera mounting with a covariance and process noise (include/rovio/FilterStates.hpp), whether or not online calibration is on;
the mounting that was configured is kept in the auxiliary data.
-/

namespace Rovio

variable {n nCam nPose : ℕ}

/-- Rows of the covariance that belong to the estimated mounting of the cameras. -/
def Ix.isMounting : Ix n nCam nPose → Bool
  | .vep _ _ => true
  | .vea _ _ => true
  | _ => false

namespace Spec

open ImgFull Img

/-- Two estimates, without online calibration, that differ at most in the estimated mounting of the cameras; the configured mounting is the same. -/
structure IdleX (x y : State n nCam nPose) : Prop where
  off : y.aux.doVE = false
  rest : { x with vep := y.vep, vea := y.vea } = y

/-- Two covariances that differ at most in the rows and columns of the mounting. -/
def IdleP (P Q : Cov n nCam nPose) : Prop := ∀ a b : Ix n nCam nPose, a.isMounting = false → b.isMounting = false → P a b = Q a b

/-- Two configurations that differ at most in the process noise of the mounting. -/
structure IdleCfg (c d : FCfg n nCam nPose) : Prop where
  rest : { c with q := d.q } = d
  q : ∀ a : Ix n nCam nPose, a.isMounting = false → c.q a = d.q a

/-- Two filters, without online calibration, that differ at most in the estimated mounting, in its covariance and correlations and in never written parts of patches. -/
structure IdleApart (p l : ℕ) (a b : ImgFull.FSt n nCam nPose) : Prop where
  x : IdleX a.w.x b.w.x
  cov : IdleP a.cov b.cov
  rest : SameBy (SameMLP p l) { a with w := { a.w with x := b.w.x }, cov := b.cov } b

/-- The same inputs; the states of resets (which have no features) may differ in the estimated mounting. -/
inductive IdleInput (p l : ℕ) : Input n nCam nPose → Input n nCam nPose → Prop
  | imu (m : ImuMeas) (dt : ℝ) : IdleInput p l (.imu m dt) (.imu m dt)
  | velocity (v : V3) : IdleInput p l (.velocity v) (.velocity v)
  | image (t : ℝ) : IdleInput p l (.image t) (.image t)
  | reset (i j : ImgFull.FSt n nCam nPose) (t : ℝ) (h : IdleApart p l i j) (he : ∀ k, i.valid k = false) : IdleInput p l (.reset i t) (.reset j t)

end Spec

end Rovio
