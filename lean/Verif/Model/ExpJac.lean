import Verif.Model.Geom

/-!
# The matrix `Lmat`

LWF (`lightweight_filtering/common.hpp`, not part of the repository; used in include/rovio/ImuPrediction.hpp:126,183,204,...).
-/

namespace Rovio

/-- `Lmat(a)`: the Jacobian of the exponential map for left increments, documented as such by kindr.  The closed form is
`I + (1 - cos‖a‖)/‖a‖² [a] + (‖a‖ - sin‖a‖)/‖a‖³ [a]²`; the series the library uses for tiny arguments is replaced by it (at
`a = 0` both are the identity). -/
noncomputable def Lmat (a : V3) : M3 :=
  M3.one + ((1 - Real.cos a.norm) / a.norm ^ 2) • M3.skew a + ((a.norm - Real.sin a.norm) / a.norm ^ 3) • (M3.skew a).mul (M3.skew a)

end Rovio
