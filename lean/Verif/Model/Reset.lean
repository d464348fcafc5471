import Verif.Model.ImgUpdate

/-!
# Model of the assignment of filter states and of the reset of the filter

`FilterState` (include/rovio/FilterStates.hpp:529-700) has no assignment of its own: all members are assigned one by one.  Its feature slots are
`FeatureManager`s, whose assignment is written by hand.  The pointers of a slot (coordinates, distance, statistics, patch) are those of the
assigned object throughout, so an object is modelled by the values behind them.
-/

namespace Rovio

variable {P W K : Type} {n nCam : ℕ}

/-- `FeatureManager::operator=`, include/rovio/FeatureManager.hpp:94-100, with the assignment of the coordinates (part of `state_`,
include/rovio/FilterStates.hpp:174-190) and of `isValid_`: the patch `*mpMultilevelPatch_` stays. -/
def Slot.assign (dst src : Slot P) : Slot P := { src with patch := dst.patch }

/-- Implicit assignment of `FeatureSetManager`, include/rovio/FeatureManager.hpp:129-135. -/
def FeatSet.assign (dst src : FeatSet P n) : FeatSet P n :=
  { slots := fun i => (dst.slots i).assign (src.slots i), maxIdx := src.maxIdx }

namespace Img

/-- Implicit assignment of `FilterState`, include/rovio/FilterStates.hpp:529-552: state, covariance, statistics, time, image counter and previous
images are those of the source. -/
def St.assign (dst src : St P W K n nCam) : St P W K n nCam := { src with fsm := dst.fsm.assign src.fsm }

/-- `reset(t)` (LWF, called at include/rovio/RovioFilter.hpp:172, 208 and 219): the time of the initial filter state is set and it is assigned to
the current one. -/
def St.reset (init s : St P W K n nCam) (t : ℝ) : St P W K n nCam := s.assign { init with t := t }

/-- What happens to a filter: an IMU measurement or an image (`Event`), or a reset to an initial filter state at some time
(`resetWithPose`, `resetWithAccelerometer`, include/rovio/RovioFilter.hpp:206-220: they prepare the initial filter state and reset). -/
inductive Life (P W K : Type) (n nCam : ℕ) where
  | event (e : Event W K n)
  | reset (init : St P W K n nCam) (t : ℝ)

/-- A filter's life; `none` is undefined behaviour on the way.  The result is the current filter state. -/
noncomputable def life (I : USet) (order : Finset (Fin n) → List (Fin n)) (cfg : Cfg) (env : Env P W K n nCam) (fuel : ℕ) :
    List (Life P W K n nCam) → St P W K n nCam → Option (St P W K n nCam)
  | [], s => some s
  | .event e :: es, s => do
    let (s, _) ← history I order cfg env fuel [e] s
    life I order cfg env fuel es s
  | .reset init t :: es, s => life I order cfg env fuel es (init.reset s t)

end Img

end Rovio
