import Mathlib.Analysis.SpecialFunctions.Arsinh
import Mathlib.Analysis.SpecialFunctions.Pow.Real

/-!
# Model of `src/FeatureDistance.cpp` / `include/rovio/FeatureDistance.hpp`

`double` is modelled by `ℝ` (no rounding, no overflow, no NaN).  `std::log` of a non-positive
number is NaN / -inf in C++; the model returns `none` for it (see `setParameter`).
-/

namespace Rovio.Distance

/-- `FeatureDistance::Type`, include/rovio/FeatureDistance.hpp:42-47. -/
inductive DType where
  | regular
  | inverse
  | log
  | hyperbolic
deriving DecidableEq, Repr

/-- The data members `p_` and `type_`, include/rovio/FeatureDistance.hpp:38,47. -/
structure FeatureDistance where
  type : DType
  p : ℝ

/-- Constructor, src/FeatureDistance.cpp:7-10. -/
noncomputable def mk' (t : DType := .regular) : FeatureDistance := ⟨t, 1⟩

/-- `setType(int)`, src/FeatureDistance.cpp:22-41 (any unknown integer selects REGULAR);
only `type_` is written, `p_` is kept. -/
def setTypeInt (f : FeatureDistance) (t : ℤ) : FeatureDistance :=
  if t = 0 then { f with type := .regular }
  else if t = 1 then { f with type := .inverse }
  else if t = 2 then { f with type := .log }
  else if t = 3 then { f with type := .hyperbolic }
  else { f with type := .regular }

/-- `makeNonZero`, src/FeatureDistance.cpp:151-160. -/
noncomputable def makeNonZero (p : ℝ) : ℝ :=
  if p < 1e-6 then
    if p ≥ 0 then 1e-6
    else if p > -1e-6 then -1e-6
    else p
  else p

/-- `setParameter`, src/FeatureDistance.cpp:43-61 with the four cases at lines 129-131 (regular),
162-164 (inverse), 188-190 (log), 210-212 (hyperbolic).  `none` models the NaN / -inf produced by
`std::log(d)` for `d ≤ 0`. -/
noncomputable def setParameter (f : FeatureDistance) (d : ℝ) : Option FeatureDistance :=
  match f.type with
  | .regular => some { f with p := d }
  | .inverse => some { f with p := 1 / makeNonZero d }
  | .log => if 0 < d then some { f with p := Real.log d } else none
  | .hyperbolic => some { f with p := Real.arsinh d }

/-- `getDistance`, src/FeatureDistance.cpp:63-76 with the cases at 133-135, 166-169, 192-194, 214-216. -/
noncomputable def getDistance (f : FeatureDistance) : ℝ :=
  match f.type with
  | .regular => f.p
  | .inverse => 1 / makeNonZero f.p
  | .log => Real.exp f.p
  | .hyperbolic => Real.sinh f.p

/-- `getDistanceDerivative`, src/FeatureDistance.cpp:78-91 with 137-139, 171-174, 196-198, 218-220. -/
noncomputable def getDistanceDerivative (f : FeatureDistance) : ℝ :=
  match f.type with
  | .regular => 1
  | .inverse => -1 / (makeNonZero f.p * makeNonZero f.p)
  | .log => Real.exp f.p
  | .hyperbolic => Real.cosh f.p

/-- `getParameterDerivative`, src/FeatureDistance.cpp:93-106 with 141-143, 176-179, 200-202, 222-224. -/
noncomputable def getParameterDerivative (f : FeatureDistance) : ℝ :=
  match f.type with
  | .regular => 1
  | .inverse => -makeNonZero f.p * makeNonZero f.p
  | .log => Real.exp (-f.p)
  | .hyperbolic => 1 / Real.sqrt (Real.sinh f.p ^ 2 + 1)

/-- `getParameterDerivativeCombined()`, src/FeatureDistance.cpp:108-121 with 145-147, 181-184,
204-206, 226-228. -/
noncomputable def getParameterDerivativeCombined (f : FeatureDistance) : ℝ :=
  match f.type with
  | .regular => 0
  | .inverse => -2 * makeNonZero f.p
  | .log => -Real.exp (-f.p)
  | .hyperbolic =>
      -Real.sinh f.p / (Real.sinh f.p ^ 2 + 1) ^ (1.5 : ℝ) * Real.cosh f.p

/-- `getParameterDerivativeCombined(FeatureDistance other)`, src/FeatureDistance.cpp:123-125: in
spite of its name this overload is the converting setter. -/
noncomputable def setFromOther (f other : FeatureDistance) : Option FeatureDistance :=
  setParameter f (getDistance other)

end Rovio.Distance
