import Verif.Spec.ExtFrame
import Verif.Spec.ImgMoves

/-!
# How far a measurement moves the estimate

An independent description of a change of the estimate, coordinate by coordinate, and of the outlier test of a measurement.
-/

namespace Rovio.Spec

open Rovio Matrix

variable {n nCam nPose : ℕ}

/-- Three entries as a vector. -/
def three (f : Fin 3 → ℝ) : V3 := ⟨f 0, f 1, f 2⟩

/-- The estimate `s'` is `s` changed by the error vector `δ`: positions, velocity, biases and distance parameters are increased by their entries, rotations are turned by the
rotation vector of their entries, bearings are moved in their tangent plane. -/
structure ChangedBy (s : State n nCam nPose) (δ : Ix n nCam nPose → ℝ) (s' : State n nCam nPose) : Prop where
  pos : s'.pos = s.pos + three fun k => δ (.pos k)
  vel : s'.vel = s.vel + three fun k => δ (.vel k)
  acb : s'.acb = s.acb + three fun k => δ (.acb k)
  gyb : s'.gyb = s.gyb + three fun k => δ (.gyb k)
  att : s'.att = Quat.exp (three fun k => δ (.att k)) * s.att
  vep : ∀ c, s'.vep c = s.vep c + three fun k => δ (.vep c k)
  vea : ∀ c, s'.vea c = Quat.exp (three fun k => δ (.vea c k)) * s.vea c
  nor : ∀ i, (s'.fea i).c.nor = (s.fea i).c.nor.boxPlus ⟨δ (.nor i 0), δ (.nor i 1)⟩
  dep : ∀ i, (s'.fea i).d.p = (s.fea i).d.p + δ (.dep i)
  pop : ∀ j, s'.pop j = s.pop j + three fun k => δ (.pop j k)
  poa : ∀ j, s'.poa j = Quat.exp (three fun k => δ (.poa j k)) * s.poa j

/-- The value of a coordinate of the platform that is a number: of the position, the velocity, a bias, the position of a camera or of an additional frame. -/
def value (s : State n nCam nPose) : Ix n nCam nPose → Option ℝ
  | .pos k => some (s.pos.at k)
  | .vel k => some (s.vel.at k)
  | .acb k => some (s.acb.at k)
  | .gyb k => some (s.gyb.at k)
  | .vep c k => some ((s.vep c).at k)
  | .pop j k => some ((s.pop j).at k)
  | _ => none

/-- A measurement that is tested with the threshold `th`: it is rejected as a whole if its Mahalanobis distance is larger. -/
def TestedWith (cfg : FCfg n nCam nPose) (th : ℝ) : Step n nCam nPose → Prop
  | .velocity _ => cfg.gateV = mahalanobis th
  | .zeroVel _ => cfg.gateZ = mahalanobis th
  | .image alg => ∀ o P c, alg o P = some c → c.gate = mahalanobis th
  | .pose _ => cfg.gateP = mahalanobis th
  | _ => False

/-- No alignment with the first external pose is pending: for external poses the alignment is off or done. -/
def NotPending (u : PoseUpd nPose) : Step n nCam nPose → Prop
  | .pose _ => ¬ (u.didAlign = false ∧ u.doAlign = true)
  | _ => True

end Rovio.Spec
