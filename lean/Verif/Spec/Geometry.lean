import Verif.Model.Geom

/-!
# Specification vocabulary for the geometry

Independent of the code: positions of landmarks, what the external vector routines are assumed to do, angular velocity.
-/

namespace Rovio.Spec

/-- Position in the body frame of a point seen by a camera (position `r`, attitude `q` body to camera) in direction `n` at
distance `d`. -/
def bodyPoint (r : V3) (q : Quat) (d : ℝ) (n : V3) : V3 := r + q.inv.rotate (d • n)

/-- Assumption on LWF's `NormalVectorElement::setFromVector`: it stores a rotation whose image of the z axis is the normalised
argument, unless the argument is (nearly) zero. -/
structure SetFromVector (f : V3 → Nor) : Prop where
  unit : ∀ v, (f v).q.IsUnit
  vec : ∀ v, 1e-6 < v.norm → (f v).vec = v.normalized

/-- Assumption on kindr's `setFromVectors(a, b)`: a rotation taking the direction of `a` to that of `b` (non-zero vectors). -/
structure SetFromVectors (f : V3 → V3 → Quat) : Prop where
  unit : ∀ a b, a ≠ 0 → b ≠ 0 → (f a b).IsUnit
  maps : ∀ a b, a ≠ 0 → b ≠ 0 → (f a b).rotate a.normalized = b.normalized

/-- A curve of attitudes has angular velocity `ω` (in the target frame) at `t`: `q' = ½ ω q`.  Equivalently every rotated vector
moves with velocity `ω × ·`, and the left increment taking `q t` to `q (t + h)` is `h ω` to first order. -/
structure HasAngVel (q : ℝ → Quat) (ω : V3) (t : ℝ) : Prop where
  w : HasDerivAt (fun s => (q s).w) ((⟨0, ω.x / 2, ω.y / 2, ω.z / 2⟩ : Quat) * q t).w t
  x : HasDerivAt (fun s => (q s).x) ((⟨0, ω.x / 2, ω.y / 2, ω.z / 2⟩ : Quat) * q t).x t
  y : HasDerivAt (fun s => (q s).y) ((⟨0, ω.x / 2, ω.y / 2, ω.z / 2⟩ : Quat) * q t).y t
  z : HasDerivAt (fun s => (q s).z) ((⟨0, ω.x / 2, ω.y / 2, ω.z / 2⟩ : Quat) * q t).z t

end Rovio.Spec
