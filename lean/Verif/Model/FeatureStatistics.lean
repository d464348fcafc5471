import Mathlib.Data.Real.Basic
import Mathlib.Algebra.Order.BigOperators.Group.Finset
import Mathlib.Data.Fintype.BigOperators
import Mathlib.Data.List.FinRange

/-!
# Model of `include/rovio/FeatureStatistics.hpp`

`double` is `ℝ`, `int` counters are `ℕ` (no overflow), the per-camera arrays of length `nCam` are
functions on `Fin nCam`.  The configured ranges are integers as in the code; the code divides by
them (`1.0/range`), so nothing is claimed about a range of 0 (division by zero): theorems that
mention qualities assume ranges of at least 1 or give a witness with a negative range.
-/

namespace Rovio.Stat

/-- `enum TrackingStatus`, FeatureStatistics.hpp:38-44. -/
inductive Status where
  | unknown
  | notInFrame
  | failedAlignment
  | failedTracking
  | tracked
deriving DecidableEq, Repr

/-- The enumerators of `TrackingStatus` (FeatureStatistics.hpp:38-44) are finitely many. -/
instance : Fintype Status :=
  ⟨{.unknown, .notInFrame, .failedAlignment, .failedTracking, .tracked}, by intro x; cases x <;> decide⟩

/-- `std::map<double,TrackingStatus>` (FeatureStatistics.hpp:73) as an association list in
*descending* key order, i.e. in `rbegin()` iteration order. -/
abbrev TimeMap := List (ℝ × Status)

/-- `map[k] = v` of `std::map` (used at FeatureStatistics.hpp:145): insert or overwrite. -/
noncomputable def TimeMap.set : TimeMap → ℝ → Status → TimeMap
  | [], k, v => [(k, v)]
  | (k', v') :: t, k, v =>
    if k' < k then (k, v) :: (k', v') :: t
    else if k' = k then (k, v) :: t
    else (k', v') :: TimeMap.set t k v

/-- Data members, FeatureStatistics.hpp:49-73 (`lastPatchUpdate_` is only written by users of the
class and is left out). -/
structure FeatureStatistics (nCam : ℕ) where
  initTime : ℝ
  currentTime : ℝ
  totCount : ℕ
  trackedCount : ℕ
  localQualityRange : ℤ
  localQuality : Fin nCam → ℝ
  averageLocalQuality : ℝ
  localVisibilityRange : ℤ
  localVisibility : Fin nCam → ℝ
  jointLocalVisibility : ℝ
  minGlobalQualityRange : ℤ
  status : Fin nCam → Status
  cumulative : Fin nCam → Status → ℕ
  statistics : Fin nCam → TimeMap

variable {nCam : ℕ}

/-- `resetStatistics`, FeatureStatistics.hpp:89-107. -/
noncomputable def resetStatistics (f : FeatureStatistics nCam) (currentTime : ℝ) : FeatureStatistics nCam :=
  { f with
    cumulative := fun _ _ => 0
    statistics := fun _ => []
    status := fun _ => .unknown
    localQuality := fun _ => 1
    localVisibility := fun _ => 1
    totCount := 0
    trackedCount := 0
    initTime := currentTime
    currentTime := currentTime
    jointLocalVisibility := 1
    averageLocalQuality := 1 }

/-- Constructor, FeatureStatistics.hpp:79-84, with the three ranges as they are after construction
or after having been overwritten from the configuration. -/
noncomputable def init (lq lv mg : ℤ) (currentTime : ℝ) : FeatureStatistics nCam :=
  resetStatistics
    { initTime := 0, currentTime := 0, totCount := 0, trackedCount := 0, localQualityRange := lq,
      localQuality := fun _ => 0, averageLocalQuality := 0, localVisibilityRange := lv,
      localVisibility := fun _ => 0, jointLocalVisibility := 0, minGlobalQualityRange := mg,
      status := fun _ => .unknown, cumulative := fun _ _ => 0, statistics := fun _ => [] }
    currentTime

/-- The test `FAILED_ALIGNEMENT || FAILED_TRACKING || TRACKED` used at FeatureStatistics.hpp:137,192,271. -/
def visible (s : Status) : Bool := s = .failedAlignment || s = .failedTracking || s = .tracked

/-- `inSomeFrame`, FeatureStatistics.hpp:190-197. -/
def inSomeFrame (f : FeatureStatistics nCam) : Bool :=
  (List.finRange nCam).any fun i => visible (f.status i)

/-- `trackedInSomeFrame`, FeatureStatistics.hpp:203-210. -/
def trackedInSomeFrame (f : FeatureStatistics nCam) : Bool :=
  (List.finRange nCam).any fun i => f.status i = .tracked

/-- The recursive filter `q*(1-1.0/range) + 1.0/range` (FeatureStatistics.hpp:121,129,130,138,258,272,287,313). -/
noncomputable def filtUp (range : ℤ) (q : ℝ) : ℝ := q * (1 - 1.0 / range) + 1.0 / range

/-- The recursive filter `q*(1-1.0/range)` (FeatureStatistics.hpp:123,132,133,140,260,274,289,315). -/
noncomputable def filtDown (range : ℤ) (q : ℝ) : ℝ := q * (1 - 1.0 / range)

/-- Local quality step, FeatureStatistics.hpp:128-134 (also 257-262, 286-290). -/
noncomputable def qualityStep (range : ℤ) (s : Status) (q : ℝ) : ℝ :=
  if s = .tracked then filtUp range q
  else if s = .failedAlignment || s = .failedTracking then filtDown range q
  else q

/-- Visibility step, FeatureStatistics.hpp:137-141 (also 271-275). -/
noncomputable def visibilityStep (range : ℤ) (vis : Bool) (q : ℝ) : ℝ :=
  if vis then filtUp range q else filtDown range q

/-- `increaseStatistics`, FeatureStatistics.hpp:113-150.  The warning at line 114 has no effect on
the state.  The camera loop (126-147) touches per-camera data independently, except
`averageLocalQuality_`, which is folded over the cameras in order. -/
noncomputable def increaseStatistics (f : FeatureStatistics nCam) (currentTime : ℝ) : FeatureStatistics nCam :=
  { f with
    trackedCount := if trackedInSomeFrame f then f.trackedCount + 1 else f.trackedCount
    jointLocalVisibility := visibilityStep f.localVisibilityRange (inSomeFrame f) f.jointLocalVisibility
    localQuality := fun i => qualityStep f.localQualityRange (f.status i) (f.localQuality i)
    averageLocalQuality := (List.finRange nCam).foldl
      (fun a i => qualityStep f.localQualityRange (f.status i) a) f.averageLocalQuality
    localVisibility := fun i =>
      visibilityStep f.localVisibilityRange (visible (f.status i)) (f.localVisibility i)
    cumulative := fun i s => if s = f.status i then f.cumulative i s + 1 else f.cumulative i s
    statistics := fun i => (f.statistics i).set f.currentTime (f.status i)
    status := fun _ => .unknown
    totCount := f.totCount + 1
    currentTime := currentTime }

/-- What one camera contributes in `countTrackingStatistics`, FeatureStatistics.hpp:172-181;
`n = 0` means the whole life, otherwise the last `n` frames (a negative `n` makes the loop at 176
empty, as `n-1` toNat does). -/
def countOne (f : FeatureStatistics nCam) (s : Status) (n : ℤ) (i : Fin nCam) : ℕ :=
  if n = 0 then f.cumulative i s + (if f.status i = s then 1 else 0)
  else (((f.statistics i).take (n - 1).toNat).filter (fun e => e.2 = s)).length
    + (if f.status i = s then 1 else 0)

/-- `countTrackingStatistics`, FeatureStatistics.hpp:159-184; camera -1 means all cameras, any other
camera index out of range yields 0. -/
def countTrackingStatistics (f : FeatureStatistics nCam) (s : Status) (camID : ℤ) (n : ℤ) : ℕ :=
  if camID ≠ -1 then
    if h : camID < 0 ∨ camID ≥ nCam then 0
    else countOne f s n ⟨camID.toNat, by omega⟩
  else ((List.finRange nCam).map (countOne f s n)).sum

/-- `countTot`, FeatureStatistics.hpp:216-218. -/
def countTot (f : FeatureStatistics nCam) : ℕ := f.totCount + 1

/-- `countTracked`, FeatureStatistics.hpp:224-226. -/
def countTracked (f : FeatureStatistics nCam) : ℕ :=
  f.trackedCount + (if trackedInSomeFrame f then 1 else 0)

/-- `countInFrame`, FeatureStatistics.hpp:234-236. -/
def countInFrame (f : FeatureStatistics nCam) (camID n : ℤ) : ℕ :=
  countTrackingStatistics f .failedAlignment camID n + countTrackingStatistics f .failedTracking camID n
    + countTrackingStatistics f .tracked camID n

/-- `getGlobalQuality`, FeatureStatistics.hpp:246-249. -/
noncomputable def getGlobalQuality (f : FeatureStatistics nCam) : ℝ :=
  ((countTracked f : ℝ) / (countTot f : ℝ)) * min ((countTot f : ℝ) / f.minGlobalQualityRange) 1

/-- `getLocalQuality`, FeatureStatistics.hpp:256-263 (camera index in range; out of range is
undefined behaviour in C++ and not expressible here). -/
noncomputable def getLocalQuality (f : FeatureStatistics nCam) (camID : Fin nCam) : ℝ :=
  if f.status camID = .tracked then filtUp f.localQualityRange (f.localQuality camID)
  else if f.status camID = .failedAlignment || f.status camID = .failedTracking then
    filtDown f.localQualityRange (f.localQuality camID)
  else f.localQuality camID

/-- `getLocalVisibility`, FeatureStatistics.hpp:270-276. -/
noncomputable def getLocalVisibility (f : FeatureStatistics nCam) (camID : Fin nCam) : ℝ :=
  if f.status camID = .failedAlignment || f.status camID = .failedTracking || f.status camID = .tracked then
    filtUp f.localVisibilityRange (f.localVisibility camID)
  else filtDown f.localVisibilityRange (f.localVisibility camID)

/-- `getAverageLocalQuality`, FeatureStatistics.hpp:283-293. -/
noncomputable def getAverageLocalQuality (f : FeatureStatistics nCam) : ℝ :=
  (List.finRange nCam).foldl (fun a i =>
    if f.status i = .tracked then filtUp f.localQualityRange a
    else if f.status i = .failedAlignment || f.status i = .failedTracking then
      filtDown f.localQualityRange a
    else a) f.averageLocalQuality

/-- `getMaxLocalQuality`, FeatureStatistics.hpp:299-305. -/
noncomputable def getMaxLocalQuality (f : FeatureStatistics nCam) : ℝ :=
  (List.finRange nCam).foldl (fun q i => if q < getLocalQuality f i then getLocalQuality f i else q) 0

/-- `getJointLocalVisibility`, FeatureStatistics.hpp:311-317. -/
noncomputable def getJointLocalVisibility (f : FeatureStatistics nCam) : ℝ :=
  if inSomeFrame f then filtUp f.localVisibilityRange f.jointLocalVisibility
  else filtDown f.localVisibilityRange f.jointLocalVisibility

open Classical in
/-- `isGoodFeature`, FeatureStatistics.hpp:330-336 (`>` binds tighter than `|` at line 333). -/
noncomputable def isGoodFeature (f : FeatureStatistics nCam) (upper lower : ℝ) : Bool :=
  (List.finRange nCam).foldl (fun g i =>
    g || decide (getLocalQuality f i * getLocalVisibility f i > upper - (upper - lower) * getGlobalQuality f))
    false

/-- The operations a client performs: writing `status_[i]` (as ImgUpdate.hpp and featureTracker.hpp
do), `increaseStatistics` and `resetStatistics`. -/
inductive Op (nCam : ℕ) where
  | setStatus (cam : Fin nCam) (s : Status)
  | increase (t : ℝ)
  | reset (t : ℝ)

/-- Effect of one operation. -/
noncomputable def step (f : FeatureStatistics nCam) : Op nCam → FeatureStatistics nCam
  | .setStatus i s => { f with status := Function.update f.status i s }
  | .increase t => increaseStatistics f t
  | .reset t => resetStatistics f t

/-- Effect of a history of operations. -/
noncomputable def run (f : FeatureStatistics nCam) (ops : List (Op nCam)) : FeatureStatistics nCam :=
  ops.foldl step f

end Rovio.Stat
