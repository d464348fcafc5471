import Verif.Model.Alignment
import Verif.Spec.Image

/-!
# Specification vocabulary for the alignment of a patch with the image it shows (C104)

What a linear least-squares solver with a rank check answers, and what it means for a patch to have texture.
-/

namespace Rovio.Spec

/-- Sum of the squared errors of the equations `A x = b` at `x`. -/
def squaredError (rows : List Row) (x : V2) : ℝ := (rows.map fun r => (r.a0 * x.x + r.a1 * x.y - r.b) ^ 2).sum

/-- The two columns of `A` are linearly independent: no direction is invisible to all equations. -/
def FullRank (rows : List Row) : Prop := ∀ x : V2, (∀ r ∈ rows, r.a0 * x.x + r.a1 * x.y = 0) → x = ⟨0, 0⟩

/-- The contract of the singular value decomposition used at include/rovio/MultilevelPatchAlignment.hpp:529-535 in exact arithmetic: with
independent columns the answer is a minimiser of the squared error, otherwise fewer than two singular values are non-zero. -/
structure SolvesLeastSquares (solve : Option (List Row) → Align.SolveRes) : Prop where
  full : ∀ rows, FullRank rows → ∃ x, solve (some rows) = .ok x ∧ ∀ y, squaredError rows x ≤ squaredError rows y
  deficient : ∀ rows, ¬ FullRank rows → solve (some rows) = .lowRank

/-- Texture in two directions on the levels `lo, …, hi` (`inner l` is the `p × p` patch, `expanded l` the one with border): there is no
direction `(a, b)` in which the intensity changes nowhere except as an affine change of brightness would change it.  Gradients on level
`l` are per pixel of that level, hence the factor `1 / 2^l`. -/
def Textured (p lo hi : ℕ) (inner expanded : ℕ → ℕ → ℝ) : Prop :=
  ∀ a b k0 k1 : ℝ, (∀ l, lo ≤ l → l ≤ hi → ∀ y < p, ∀ x < p,
    (gx p (expanded l) y x * a + gy p (expanded l) y x * b) / 2 ^ l = k0 + k1 * cell p (inner l) y x) → a = 0 ∧ b = 0

/-- Not all pixels of the levels `lo, …, hi` have the same intensity. -/
def NotFlat (p lo hi : ℕ) (inner : ℕ → ℕ → ℝ) : Prop :=
  ¬ ∃ k : ℝ, ∀ l, lo ≤ l → l ≤ hi → ∀ y < p, ∀ x < p, cell p (inner l) y x = k

end Rovio.Spec
