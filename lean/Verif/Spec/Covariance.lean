import Mathlib.Data.Matrix.Mul
import Mathlib.Data.Matrix.Block
import Mathlib.Data.Real.Basic

/-! # What a covariance matrix is -/

namespace Rovio.Spec

open Matrix

/-- A symmetric, positive semi-definite real matrix. -/
structure IsCov {ι : Type*} [Fintype ι] (P : Matrix ι ι ℝ) : Prop where
  symm : Pᵀ = P
  nonneg : ∀ x : ι → ℝ, 0 ≤ x ⬝ᵥ P.mulVec x

end Rovio.Spec
