import Verif.Model.FeatureDistance
import Verif.Model.FilterState

/-!
# Model of the uncertainty rays of `include/rovio/RovioNode.hpp`

Reals for doubles; the cast to `float` is not modelled.  The square root of a negative variance is NaN (`none`).
-/

namespace Rovio

namespace Rays

open Distance

/-- The limits of a ray end, include/rovio/RovioNode.hpp:889-890 and 893-894. -/
noncomputable def clampRange (d : ℝ) : ℝ :=
  let d := if d > 1000 then 1000 else d
  if d < 0 then 0 else d

/-- `d_minus` and `d_plus`: the distances at three standard deviations below and above the parameter,
include/rovio/RovioNode.hpp:884-894; `var` is the variance of the distance parameter. -/
noncomputable def ends (f : FeatureDistance) (var : ℝ) : Option (ℝ × ℝ) :=
  if var < 0 then none
  else
    let sigma := Real.sqrt var
    let f₁ : FeatureDistance := { f with p := f.p - 3 * sigma }
    let f₂ : FeatureDistance := { f₁ with p := f₁.p + 2 * 3 * sigma }
    some (clampRange (getDistance f₁), clampRange (getDistance f₂))

/-- The two points appended to the marker message (the first one, called near, is at `d_plus`), include/rovio/RovioNode.hpp:895-897
and 952-961. -/
noncomputable def points (bearing : V3) (f : FeatureDistance) (var : ℝ) : Option (V3 × V3) :=
  (ends f var).map fun e => (e.2 • bearing, e.1 • bearing)

end Rays

end Rovio
