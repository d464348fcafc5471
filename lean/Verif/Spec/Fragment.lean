import Verif.Model.Fragment
import Mathlib.Algebra.BigOperators.Group.Finset.Basic

/-!
# What lies between the corners of a line or a triangle
-/

namespace Rovio.Scene3D.Spec

/-- `w` are the weights of a place between `m` corners. -/
def Weights {m : ℕ} (w : Fin m → ℝ) : Prop := (∀ i, 0 ≤ w i) ∧ ∑ i, w i = 1

/-- The mean of colours. -/
def meanColor {m : ℕ} (w : Fin m → ℝ) (c : Fin m → V4) : V4 :=
  ⟨∑ i, w i * (c i).x, ∑ i, w i * (c i).y, ∑ i, w i * (c i).z, ∑ i, w i * (c i).w⟩

/-- The mean of normals. -/
def meanNormal {m : ℕ} (w : Fin m → ℝ) (c : Fin m → V3) : V3 := ⟨∑ i, w i * (c i).x, ∑ i, w i * (c i).y, ∑ i, w i * (c i).z⟩

end Rovio.Scene3D.Spec
