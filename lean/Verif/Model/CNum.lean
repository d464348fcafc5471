import Mathlib.Data.Real.Basic
import Mathlib.Algebra.Order.Floor.Ring
import Mathlib.Algebra.Order.Archimedean.Real.Basic

/-!
# C++ numeric conversions used by several files of /repo

A conversion of a floating point value to an integer type whose truncated value does not fit is
undefined behaviour: `none`.  Floating point numbers themselves are modelled by exact reals.
-/

namespace Rovio

/-- Truncation towards zero, the first half of `(int)x` (e.g. include/rovio/FeatureManager.hpp:333). -/
noncomputable def truncZ (x : ℝ) : ℤ := if 0 ≤ x then ⌊x⌋ else ⌈x⌉

/-- `(int)x` with a 32 bit `int` (e.g. include/rovio/FeatureManager.hpp:333). -/
noncomputable def cInt (x : ℝ) : Option ℤ :=
  if -2147483648 ≤ truncZ x ∧ truncZ x ≤ 2147483647 then some (truncZ x) else none

/-- Conversion to a 32 bit `unsigned int` (e.g. include/rovio/FeatureManager.hpp:314). -/
noncomputable def cUInt (x : ℝ) : Option ℕ :=
  if 0 ≤ truncZ x ∧ truncZ x ≤ 4294967295 then some (truncZ x).toNat else none

end Rovio
