import Verif.Model.Filter

/-!
# Changing the world frame

The filter only knows the direction of gravity: origin and heading of the world frame are arbitrary.  A change of the world frame turns it about the
vertical axis and shifts its origin.
-/

namespace Rovio

variable {n nCam nPose : ℕ}

/-- Rows of the covariance that refer to the world frame: position and attitude. -/
def Ix.isWorld : Ix n nCam nPose → Bool
  | .pos _ => true
  | .att _ => true
  | _ => false

namespace Spec

/-- A change of the world frame: coordinates are turned by `z`, then shifted by `t`. -/
structure Shift where
  z : Quat
  t : V3

namespace Shift

/-- The axis of the rotation is vertical. -/
structure Upright (g : Shift) : Prop where
  unit : g.z.IsUnit
  x : g.z.x = 0
  y : g.z.y = 0

/-- The same physical state in the new world frame. -/
def state (g : Shift) (s : State n nCam nPose) : State n nCam nPose := { s with pos := g.z.rotate s.pos + g.t, att := g.z * s.att }

/-- Entry `(k, l)` of the rotation matrix. -/
def rot (g : Shift) (k l : Fin 3) : ℝ := (g.z.rotate ⟨if l = 0 then 1 else 0, if l = 1 then 1 else 0, if l = 2 then 1 else 0⟩).at k

/-- Error vectors in the new world frame: position and attitude errors are turned (attitude increments are vectors of the world frame). -/
def mat (g : Shift) : Cov n nCam nPose := Matrix.of fun
  | .pos k, .pos l => g.rot k l
  | .att k, .att l => g.rot k l
  | a, b => if a = b then 1 else 0

/-- The same covariance in the new world frame. -/
def cov (g : Shift) (P : Cov n nCam nPose) : Cov n nCam nPose := g.mat * P * g.mat.transpose

/-- Two filters that differ by a change of the world frame only. -/
structure Moved (g : Shift) (x y : FSt n nCam nPose) : Prop where
  s : y.s = g.state x.s
  P : y.P = g.cov x.P
  u : y.u = x.u

end Shift

/-- A state without position and attitude. -/
def noWorld (s : State n nCam nPose) : State n nCam nPose := { s with pos := 0, att := Quat.one }

/-- A covariance without the rows and columns of position and attitude. -/
def covNoWorld (P : Cov n nCam nPose) : Cov n nCam nPose := Matrix.of fun a b => if a.isWorld || b.isWorld then 0 else P a b

/-- A correction without position and attitude of its linearisation point. -/
def corrNoWorld (c : ImgCorr n nCam) : ImgCorr n nCam := { c with lin := noWorld c.lin }

/-- Steps that do not look at position and attitude: all but external pose measurements; image processing, feature management and the decision about
zero velocity updates do not look at the pose (they get robocentric features, extrinsics and timers). -/
def LocalStep : Step n nCam nPose → Prop
  | .predict _ _ => True
  | .velocity _ => True
  | .zeroVel trigger => ∀ o o', noWorld o = noWorld o' → trigger o = trigger o'
  | .image alg => ∀ o o' P P', noWorld o = noWorld o' → covNoWorld P = covNoWorld P' → (alg o P).map corrNoWorld = (alg o' P').map corrNoWorld
  | .manage alg => ∀ o o' P P', noWorld o = noWorld o' → covNoWorld P = covNoWorld P' → alg o P = alg o' P'
  | .pose _ => False

end Spec

end Rovio
