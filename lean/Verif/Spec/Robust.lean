import Mathlib.Data.Real.Basic

/-! # Specification vocabulary: Huber loss (C29) -/

namespace Rovio.Spec

/-- Twice the Huber loss with threshold `k`: quadratic up to `k`, linear beyond. -/
noncomputable def huberLoss2 (k e : ℝ) : ℝ := if |e| ≤ k then e ^ 2 else 2 * k * |e| - k ^ 2

end Rovio.Spec
