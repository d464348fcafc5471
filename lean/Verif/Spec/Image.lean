import Mathlib.Data.Real.Basic
import Mathlib.Algebra.BigOperators.Group.Finset.Basic
import Mathlib.Algebra.Order.Floor.Ring
import Mathlib.Algebra.Order.Archimedean.Real.Basic

/-!
# Specification vocabulary for images (C21–C28)

Independent of the model: blocks of pixels, and bilinear interpolation of a function on the integer
grid.
-/

namespace Rovio.Spec

open Finset

/-- Sum of the values of the `2^l × 2^l` block whose block row is `y` and block column `x`. -/
def blockSum (f : ℕ → ℕ → ℕ) (l y x : ℕ) : ℕ :=
  ∑ j ∈ range (2 ^ l), ∑ k ∈ range (2 ^ l), f (2 ^ l * y + j) (2 ^ l * x + k)

/-- Mean of that block. -/
noncomputable def blockMean (f : ℕ → ℕ → ℕ) (l y x : ℕ) : ℝ := (blockSum f l y x : ℝ) / 4 ^ l

end Rovio.Spec

namespace Rovio.Spec

open Finset

/-- Pixel `(y,x)` of a row-major array of width `w`. -/
def cell (w : ℕ) (arr : ℕ → ℝ) (y x : ℕ) : ℝ := arr (y * w + x)

/-- Horizontal central difference at pixel `(y,x)` of a `p × p` patch inside its expanded
`(p+2) × (p+2)` patch. -/
noncomputable def gx (p : ℕ) (expanded : ℕ → ℝ) (y x : ℕ) : ℝ :=
  (cell (p + 2) expanded (y + 1) (x + 2) - cell (p + 2) expanded (y + 1) x) / 2

/-- Vertical central difference. -/
noncomputable def gy (p : ℕ) (expanded : ℕ → ℝ) (y x : ℕ) : ℝ :=
  (cell (p + 2) expanded (y + 2) (x + 1) - cell (p + 2) expanded y (x + 1)) / 2

/-- Sum over all pixels of a `p × p` patch. -/
noncomputable def patchSum (p : ℕ) (f : ℕ → ℕ → ℝ) : ℝ := ∑ y ∈ range p, ∑ x ∈ range p, f y x

/-- `e0 ≤ e1` are the two eigenvalues of the symmetric matrix `(a c; c b)`, which is positive
semi-definite. -/
structure Eigenvalues (a b c e0 e1 : ℝ) : Prop where
  nonneg : 0 ≤ e0
  ordered : e0 ≤ e1
  trace : e0 + e1 = a + b
  det : e0 * e1 = a * b - c * c

end Rovio.Spec
