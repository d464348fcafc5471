import Verif.Model.FeatureManager
import Verif.Model.FeatureStatistics
import Mathlib.LinearAlgebra.Matrix.NonsingularInverse

/-!
# Model of the control flow of `include/rovio/ImgUpdate.hpp`

One image is processed by the update loop of the filter library (LWF, not in the repository):
`preProcess`, filter update, `postProcess`, until `preProcess` reports that it is finished (documented
protocol of `LWF::Update::performUpdate`).  The image processing functions called on the way are
modelled elsewhere (Patch, MultilevelPatch, Alignment); here their results are parameters (`Env`) that
may depend on the whole state, so nothing is assumed about them.  `none` is undefined behaviour (a
camera index outside the status array) or exhausted loop fuel (proved not to happen).  Drawing and
verbose output are dropped.
-/

namespace Rovio.Img

open Stat

/-- The settings used by the control flow, include/rovio/ImgUpdate.hpp:187-232. -/
structure Cfg where
  cross : Bool
  direct : Bool
  removeNegative : Bool
  patchRejectionTh : ℝ
  upper : ℝ
  lower : ℝ
  minTrackedAndFree : ℝ
  removalFactor : ℝ
  startDetectionTh : ℝ
  minTimePatch : ℝ
  minAbsST : ℝ
  minRelST : ℝ
  visualMotion : Bool
  zeroVelocity : Bool
  minTimeZeroVelocity : ℝ
  rateMoving : ℝ
  minCountNoMotion : ℤ

/-- Statistics of a slot including `lastPatchUpdate_` (include/rovio/FeatureStatistics.hpp:49-73). -/
structure Ext (nCam : ℕ) where
  stat : FeatureStatistics nCam
  lastPatch : ℝ

/-- Record of one visit of a feature in one camera: the status written to `status_[cam]`, if any. -/
structure Visit (n nCam : ℕ) where
  i : Fin n
  c : Fin nCam
  result : Option Status

/-- The part of the filter state the image update works on: the estimate `w` (`state_`), the covariance `cov`
(`cov_`), the feature set, the statistics of the slots, the matched coordinates `feaCoorMeas_`,
`activeFeature_`, `activeCameraCounter_` (include/rovio/FilterStates.hpp:52-98), the time and the
timers.  `log` records the visits; nothing reads it. -/
structure St (P W K : Type) (n nCam : ℕ) where
  w : W
  cov : K
  fsm : FeatSet P n
  ext : Fin n → Ext nCam
  meas : Fin n → Option FC
  id : ℕ
  cam : ℕ
  t : ℝ
  imageCounter : ℕ
  sinceImage : ℝ
  sinceInertial : ℝ
  log : List (Visit n nCam)

/-- Results of the image processing and filter functions used by the control flow:
* `inPrev s i c`: `isMultilevelPatchInFrame(prevPyr_[camID], featureOutput_.c(), ...)`, ImgUpdate.hpp:692;
* `align s i c`: `align2DAdaptive(alignedCoordinates_, ...)`, 729-730;
* `inNew s c x`: `isMultilevelPatchInFrame(meas.aux().pyr_[activeCamID], x, ...)`, 732;
* `err s i c x`: average difference at `x`, 735-736;
* `update s i c`: the filter update (LWF): new estimate, covariance, coordinates and whether it counts as
  successful (`successfulUpdate_` resp. not an outlier, 826);
* `dist w i`: `state_.dep(i).getDistance()`, 796;
* `resetCov cov i`: `resetFeatureCovariance(i, Identity)`, 799, 947, 962;
* `inPost s i c`: in-frame test after the update, 827;
* `moving s i`: motion detection in slot `i`, 612-622: `none` if not in frame, else whether it moved;
* `repatch t f`: patch extracted with identity warp from the image at time `t` at the feature in slot `f`, if in frame with
  border, 909-913;
* `score`: `s_` of a multilevel patch;
* `detect s camID`: candidates and their evaluation for `addBestCandidates`, 983-994;
* `median s camID`: `medianDepthParameters[camID]`, 975-981;
* `initFeature med s i camID`: depth and covariance of a new feature including stereo initialisation, 1002-1047 (detailed in `Model/NewFeature.lean`);
* `finish t`, `zvu`: copying the pyramids of the image at time `t` 1071-1073 and the zero-velocity filter update 1080, which moves the coordinates as
  well. -/
structure Env (P W K : Type) (n nCam : ℕ) where
  inPrev : St P W K n nCam → Fin n → Fin nCam → Bool
  align : St P W K n nCam → Fin n → Fin nCam → Option FC
  inNew : St P W K n nCam → Fin nCam → FC → Bool
  err : St P W K n nCam → Fin n → Fin nCam → FC → ℝ
  update : St P W K n nCam → Fin n → Fin nCam → W × K × (Fin n → FC) × Bool
  dist : W → Fin n → ℝ
  resetCov : K → Fin n → K
  inPost : St P W K n nCam → Fin n → Fin nCam → Bool
  moving : St P W K n nCam → Fin n → Option Bool
  repatch : ℝ → Slot P → Option P
  score : P → ℝ
  detect : St P W K n nCam → Fin nCam → AddArgs P
  median : St P W K n nCam → Fin nCam → ℝ
  initFeature : ℝ → St P W K n nCam → Fin n → Fin nCam → W × K
  finish : ℝ → W → W
  zvu : W → K → (Fin n → FC) → W × K × (Fin n → FC)

variable {P W K : Type} {n nCam : ℕ}

namespace St

/-- `camID_` of the coordinates of a slot. -/
def camID (s : St P W K n nCam) (i : Fin n) : ℤ := (s.fsm.slots i).coord.camID

/-- `isValid_[i]`. -/
def valid (s : St P W K n nCam) (i : Fin n) : Bool := (s.fsm.slots i).valid

/-- `f.mpStatistics_->increaseStatistics(filterState.t_)`, include/rovio/ImgUpdate.hpp:667. -/
noncomputable def increase (s : St P W K n nCam) (i : Fin n) : St P W K n nCam :=
  { s with ext := Function.update s.ext i { s.ext i with stat := increaseStatistics (s.ext i).stat s.t } }

/-- Start of the work on a feature: its statistics advance at the first camera, include/rovio/ImgUpdate.hpp:666-667. -/
noncomputable def enter (s : St P W K n nCam) (i : Fin n) : St P W K n nCam :=
  if s.cam = 0 then s.increase i else s

/-- `f.mpStatistics_->status_[c] = st`, e.g. include/rovio/ImgUpdate.hpp:693, together with the record of the
visit. -/
def setStatus (s : St P W K n nCam) (i : Fin n) (c : Fin nCam) (st : Status) : St P W K n nCam :=
  { s with
    ext := Function.update s.ext i
      { s.ext i with stat := { (s.ext i).stat with status := Function.update (s.ext i).stat.status c st } }
    log := s.log ++ [⟨i, c, some st⟩] }

/-- `fsm_.isValid_[i] = false; resetFeatureCovariance(i, Identity)`, include/rovio/ImgUpdate.hpp:798-799, 946-947,
961-962. -/
def remove (env : Env P W K n nCam) (s : St P W K n nCam) (i : Fin n) : St P W K n nCam :=
  { s with fsm := s.fsm.removeFeature i, cov := env.resetCov s.cov i }

end St

/-- `activeCamID = (activeCamCounter + camID) % nCam`, include/rovio/ImgUpdate.hpp:664-665, with the C++
remainder; a result outside the camera range indexes the arrays out of bounds (`none`). -/
def activeCam (nCam : ℕ) (counter : ℕ) (camID : ℤ) : Option (Fin nCam) :=
  let r := ((counter : ℤ) + camID).tmod nCam
  if h : 0 ≤ r ∧ r < nCam then some ⟨r.toNat, by omega⟩ else none

/-- Advancing to the next camera or feature, include/rovio/ImgUpdate.hpp:757-763 and 874-878. -/
def advance (cfg : Cfg) (s : St P W K n nCam) : St P W K n nCam :=
  if s.cam + 1 = nCam ∨ cfg.cross = false then { s with cam := 0, id := s.id + 1 }
  else { s with cam := s.cam + 1 }

/-- Matching one feature in one camera, include/rovio/ImgUpdate.hpp:692-755: `inl` is a found measurement
(possibly with the matched coordinates stored), `inr` the status of the failure. -/
noncomputable def probe (cfg : Cfg) (env : Env P W K n nCam) (s : St P W K n nCam) (i : Fin n) (c : Fin nCam) :
    St P W K n nCam ⊕ Status :=
  if env.inPrev s i c = false then .inr .notInFrame
  else if cfg.direct then .inl s
  else match env.align s i c with
    | some x =>
      if env.inNew s c x then
        if cfg.patchRejectionTh ≥ 0 ∧ env.err s i c x > cfg.patchRejectionTh then .inr .failedAlignment
        else .inl { s with meas := Function.update s.meas i (some x) }
      else .inr .failedAlignment
    | none => .inr .failedAlignment

/-- The search loop of `preProcess`, include/rovio/ImgUpdate.hpp:659-764; the Boolean is
`foundValidMeasurement`. -/
noncomputable def scan (cfg : Cfg) (env : Env P W K n nCam) : ℕ → St P W K n nCam → Option (St P W K n nCam × Bool)
  | 0, _ => none
  | fuel + 1, s =>
    if h : s.id < n then
      if s.valid ⟨s.id, h⟩ then
        match activeCam nCam s.cam (s.camID ⟨s.id, h⟩) with
        | none => none
        | some c =>
          match probe cfg env (s.enter ⟨s.id, h⟩) ⟨s.id, h⟩ c with
          | .inl s => some (s, true)
          | .inr st => scan cfg env fuel (advance cfg ((s.enter ⟨s.id, h⟩).setStatus ⟨s.id, h⟩ c st))
      else scan cfg env fuel (advance cfg s)
    else some (s, false)

/-- Removal of features with a distance below 1e-8 (also negative ones), include/rovio/ImgUpdate.hpp:792-803. -/
noncomputable def removeNegative (cfg : Cfg) (env : Env P W K n nCam) (s : St P W K n nCam) : St P W K n nCam :=
  if cfg.removeNegative then
    (List.finRange n).foldl (fun s i => if s.valid i then (if env.dist s.w i < 1e-8 then s.remove env i else s) else s) s
  else s

/-- The filter update between `preProcess` and `postProcess` (LWF).  It moves the state, so the coordinates of all
features may change, but not their camera (include/rovio/RobocentricFeatureElement.hpp:60-68 copies it). -/
def applyUpdate (env : Env P W K n nCam) (s : St P W K n nCam) (i : Fin n) (c : Fin nCam) : St P W K n nCam × Bool :=
  let r := env.update s i c
  ({ s with
     w := r.1
     cov := r.2.1
     fsm := { s.fsm with slots := fun j => { s.fsm.slots j with
       coord := { r.2.2.1 j with camID := (s.fsm.slots j).coord.camID } } } }, r.2.2.2)

/-- The status after a filter update, include/rovio/ImgUpdate.hpp:826-839. -/
def verdict (env : Env P W K n nCam) (s : St P W K n nCam) (ok : Bool) (i : Fin n) (c : Fin nCam) : Status :=
  if ok then (if env.inPost s i c then .tracked else .failedTracking) else .failedTracking

/-- `postProcess` while not finished, include/rovio/ImgUpdate.hpp:787-878. -/
noncomputable def postVisit (cfg : Cfg) (env : Env P W K n nCam) (s : St P W K n nCam) (ok : Bool) (i : Fin n) (c : Fin nCam) :
    St P W K n nCam :=
  let s := removeNegative cfg env s
  let s := if s.valid i then s.setStatus i c (verdict env s ok i c) else { s with log := s.log ++ [⟨i, c, none⟩] }
  advance cfg s

/-- The update loop for one image (LWF protocol: `preProcess`, update, `postProcess` until finished). -/
noncomputable def loop (cfg : Cfg) (env : Env P W K n nCam) : ℕ → St P W K n nCam → Option (St P W K n nCam)
  | 0, _ => none
  | fuel + 1, s =>
    match scan cfg env (n * nCam + 1) s with
    | none => none
    | some (s, false) => some s
    | some (s, true) =>
      if h : s.id < n then
        match activeCam nCam s.cam (s.camID ⟨s.id, h⟩) with
        | none => none
        | some c =>
          let r := applyUpdate env s ⟨s.id, h⟩ c
          loop cfg env fuel (postVisit cfg env r.1 r.2 ⟨s.id, h⟩ c)
      else none

/-! ### Motion detection and `commonPreProcess` -/

/-- The comparison `rateOfMovingFeaturesTh_/totCountInMotion*totCountInFrame < 1.0`, include/rovio/ImgUpdate.hpp:625, in IEEE
arithmetic: with no moving feature the quotient is infinite or NaN. -/
noncomputable def rateExceeded (rate : ℝ) (inMotion inFrame : ℕ) : Bool :=
  if inMotion = 0 then decide (rate < 0 ∧ 0 < inFrame)
  else decide (rate / inMotion * inFrame < 1)

/-- Counting moving and visible features, include/rovio/ImgUpdate.hpp:608-624. -/
def motionCounts (env : Env P W K n nCam) (s : St P W K n nCam) : ℕ × ℕ :=
  (List.finRange n).foldl (fun (acc : ℕ × ℕ) i =>
    if s.valid i then
      match env.moving s i with
      | none => acc
      | some m => (acc.1 + (if m then 1 else 0), acc.2 + 1)
    else acc) (0, 0)

/-- Motion detection, include/rovio/ImgUpdate.hpp:608-627. -/
noncomputable def imageMotion (cfg : Cfg) (env : Env P W K n nCam) (s : St P W K n nCam) : Bool :=
  rateExceeded cfg.rateMoving (motionCounts env s).1 (motionCounts env s).2 || decide (((motionCounts env s).2 : ℤ) < cfg.minCountNoMotion)

/-- `commonPreProcess`, include/rovio/ImgUpdate.hpp:586-629. -/
noncomputable def commonPre (cfg : Cfg) (env : Env P W K n nCam) (s : St P W K n nCam) : St P W K n nCam :=
  let s := { s with imageCounter := s.imageCounter + 1, id := 0, cam := 0 }
  if cfg.visualMotion && decide (s.imageCounter > 1) then
    if imageMotion cfg env s then { s with sinceImage := 0.0 } else s
  else s

/-! ### `commonPostProcess` -/

/-- Number of features tracked in some camera, include/rovio/ImgUpdate.hpp:899-907. -/
def countTracked (s : St P W K n nCam) : ℕ :=
  (List.finRange n).foldl (fun k i => if s.valid i then (if trackedInSomeFrame (s.ext i).stat then k + 1 else k) else k) 0

/-- `mpCoordinates_->set_warp_identity()` and `*mpMultilevelPatch_ = mlpTemp1_`, `lastPatchUpdate_ = t`,
include/rovio/ImgUpdate.hpp:915-917. -/
def installPatch (s : St P W K n nCam) (i : Fin n) (p : P) : St P W K n nCam :=
  { s with
    fsm := { s.fsm with
      slots := Function.update s.fsm.slots i { s.fsm.slots i with patch := p, coord := (s.fsm.slots i).coord.setWarpIdentity } }
    ext := Function.update s.ext i { s.ext i with lastPatch := s.t } }

/-- Patch refresh of one feature, include/rovio/ImgUpdate.hpp:908-920 (`status_[camID]` with a camera index out
of range is undefined). -/
noncomputable def refreshPatch (cfg : Cfg) (env : Env P W K n nCam) (s : St P W K n nCam) (i : Fin n) : Option (St P W K n nCam) :=
  if s.valid i then
    if h : 0 ≤ s.camID i ∧ s.camID i < nCam then
      if (s.ext i).stat.status ⟨(s.camID i).toNat, by omega⟩ = .tracked ∧ s.t - (s.ext i).lastPatch > cfg.minTimePatch then
        match env.repatch s.t (s.fsm.slots i) with
        | none => some s
        | some p =>
          if env.score p ≥ cfg.minAbsST ∧ env.score p ≥ cfg.minRelST * env.score (s.fsm.slots i).patch then
            some (installPatch s i p)
          else some s
      else some s
    else none
  else some s

/-- First loop of `commonPostProcess`, include/rovio/ImgUpdate.hpp:901-936, apart from counting and drawing. -/
noncomputable def refreshAll (cfg : Cfg) (env : Env P W K n nCam) (s : St P W K n nCam) : Option (St P W K n nCam) :=
  (List.finRange n).foldlM (refreshPatch cfg env) s

/-- Removal of bad features, include/rovio/ImgUpdate.hpp:941-950. -/
noncomputable def removeBad (cfg : Cfg) (env : Env P W K n nCam) (s : St P W K n nCam) : St P W K n nCam :=
  (List.finRange n).foldl (fun s i =>
    if s.valid i then (if isGoodFeature (s.ext i).stat cfg.upper cfg.lower = false then s.remove env i else s) else s) s

/-- `requiredFreeFeature`, include/rovio/ImgUpdate.hpp:953 (conversion to `int`). -/
noncomputable def requiredFree (n : ℕ) (cfg : Cfg) (tracked : ℕ) : Option ℤ :=
  cInt ((n : ℝ) * cfg.minTrackedAndFree - tracked)

/-- One iteration of the body of the forced-removal loop for slot `k`, include/rovio/ImgUpdate.hpp:957-964. -/
noncomputable def forceOne (cfg : Cfg) (env : Env P W K n nCam) (factor : ℝ) (s : St P W K n nCam) (i : Fin n) : St P W K n nCam :=
  if s.valid i then
    if trackedInSomeFrame (s.ext i).stat = false ∧
        isGoodFeature (s.ext i).stat (cfg.upper * factor) (cfg.lower * factor) = false then s.remove env i
    else s
  else s

/-- The forced-removal loop, include/rovio/ImgUpdate.hpp:954-970; `none` when the fuel does not suffice (the real
loop then keeps running) or when the slot index leaves the array (no slots at all). -/
noncomputable def forced (cfg : Cfg) (env : Env P W K n nCam) (required : ℤ) :
    ℕ → ℝ → ℕ → St P W K n nCam → Option (St P W K n nCam)
  | fuel, factor, k, s =>
    if (n : ℤ) - (s.fsm.getValidCount : ℤ) < required then
      match fuel with
      | 0 => none
      | fuel + 1 =>
        if h : k < n then
          let s := forceOne cfg env factor s ⟨k, h⟩
          if k + 1 = n then forced cfg env required fuel (factor * cfg.removalFactor) 0 s
          else forced cfg env required fuel factor (k + 1) s
        else none
    else some s

/-- Initialisation of a new feature, include/rovio/ImgUpdate.hpp:998-1047. -/
noncomputable def initNew (env : Env P W K n nCam) (med : ℝ) (c : Fin nCam) (s : St P W K n nCam) (i : Fin n) : St P W K n nCam :=
  let st := resetStatistics (s.ext i).stat s.t
  let e : Ext nCam := { stat := { st with status := Function.update st.status c .tracked }, lastPatch := s.t }
  let s := { s with ext := Function.update s.ext i e }
  let r := env.initFeature med s i c
  { s with w := r.1, cov := r.2 }

/-- Budget of one camera, include/rovio/ImgUpdate.hpp:993. -/
def budget (n nCam : ℕ) (validCount c : ℕ) : ℤ := ((n : ℤ) - validCount).tdiv ((nCam : ℤ) - c)

/-- Detection in one camera, include/rovio/ImgUpdate.hpp:983-1048: `addBestCandidates` with the camera's budget
and without `requireMax`, then initialisation of the new features in the iteration order `order` of the returned
hash set. -/
noncomputable def detectCam (I : USet) (order : Finset (Fin n) → List (Fin n)) (cfg : Cfg) (env : Env P W K n nCam)
    (med : Fin nCam → ℝ) (s : St P W K n nCam) (c : Fin nCam) : Option (St P W K n nCam) :=
  let A : AddArgs P := { env.detect s c with
    camID := c.val, maxAdded := budget n nCam s.fsm.getValidCount c.val, requireMax := false, minScore := cfg.minAbsST }
  match A.addBestCandidates I s.fsm with
  | none => none
  | some (fsm, ids) => some ((order ids).foldl (initNew env (med c) c) { s with fsm := fsm })

/-- Detection in all cameras, include/rovio/ImgUpdate.hpp:974-1050. -/
noncomputable def detectAll (I : USet) (order : Finset (Fin n) → List (Fin n)) (cfg : Cfg) (env : Env P W K n nCam)
    (s : St P W K n nCam) : Option (St P W K n nCam) :=
  if (s.fsm.getValidCount : ℝ) < cfg.startDetectionTh * n then (List.finRange nCam).foldlM (detectCam I order cfg env (env.median s)) s
  else some s

/-- Zero-velocity update after the image, include/rovio/ImgUpdate.hpp:1075-1081 (like every filter update it does not change the camera of a
feature). -/
noncomputable def zeroVelocity (cfg : Cfg) (env : Env P W K n nCam) (s : St P W K n nCam) : St P W K n nCam :=
  if cfg.zeroVelocity && cfg.visualMotion && decide (s.sinceImage > cfg.minTimeZeroVelocity)
      && decide (s.sinceInertial > cfg.minTimeZeroVelocity) then
    let r := env.zvu s.w s.cov fun j => (s.fsm.slots j).coord
    { s with
      w := r.1
      cov := r.2.1
      fsm := { s.fsm with slots := fun j => { s.fsm.slots j with coord := { r.2.2 j with camID := (s.fsm.slots j).coord.camID } } } }
  else s

/-- `commonPostProcess`, include/rovio/ImgUpdate.hpp:892-1082; `fuel` bounds the forced-removal loop. -/
noncomputable def commonPost (I : USet) (order : Finset (Fin n) → List (Fin n)) (cfg : Cfg) (env : Env P W K n nCam)
    (fuel : ℕ) (s : St P W K n nCam) : Option (St P W K n nCam) := do
  let tracked := countTracked s
  let s ← refreshAll cfg env s
  let s := removeBad cfg env s
  let required ← requiredFree n cfg tracked
  let s ← forced cfg env required fuel cfg.removalFactor 0 s
  let s ← detectAll I order cfg env s
  return zeroVelocity cfg env { s with w := env.finish s.t s.w }

/-- Everything done for one image: `commonPreProcess`, the update loop, `commonPostProcess`,
include/rovio/ImgUpdate.hpp:645-1082.  The record of visits is per image. -/
noncomputable def imageUpdate (I : USet) (order : Finset (Fin n) → List (Fin n)) (cfg : Cfg) (env : Env P W K n nCam)
    (fuel : ℕ) (s : St P W K n nCam) : Option (St P W K n nCam) := do
  let s ← loop cfg env (n * nCam + 1) (commonPre cfg env { s with log := [] })
  commonPost I order cfg env fuel s

/-! ### Histories: predictions and images -/

/-- An event of the filter's life, as far as the motion timers are concerned. -/
inductive Event (W K : Type) (n : ℕ) where
  /-- An IMU prediction over `dt`, whether inertial motion was detected, and what it makes of the rest of the state. -/
  | predict (dt : ℝ) (motion : Bool) (w : W) (cov : K) (coord : Fin n → FC)
  /-- An image at time `t`. -/
  | image (t : ℝ)

/-- Timers in the prediction, include/rovio/ImuPrediction.hpp:150-155 (in-place evaluation). -/
def predict (s : St P W K n nCam) (dt : ℝ) (motion : Bool) (w : W) (cov : K) (coord : Fin n → FC) : St P W K n nCam :=
  { s with
    w := w
    cov := cov
    fsm := { s.fsm with slots := fun j => { s.fsm.slots j with coord := { coord j with camID := (s.fsm.slots j).coord.camID } } }
    t := s.t + dt
    sinceInertial := if motion then 0 else s.sinceInertial + dt
    sinceImage := s.sinceImage + dt }

/-- Whether this image resets the image timer, include/rovio/ImgUpdate.hpp:607 and 625. -/
noncomputable def imageFires (cfg : Cfg) (env : Env P W K n nCam) (s : St P W K n nCam) : Bool :=
  cfg.visualMotion && decide (s.imageCounter + 1 > 1) &&
    imageMotion cfg env { s with imageCounter := s.imageCounter + 1, id := 0, cam := 0, log := [] }

/-- A history; besides the final state it returns what the two motion detectors saw: elapsed time and detection per
event, inertial and image. -/
noncomputable def history (I : USet) (order : Finset (Fin n) → List (Fin n)) (cfg : Cfg) (env : Env P W K n nCam) (fuel : ℕ) :
    List (Event W K n) → St P W K n nCam → Option (St P W K n nCam × List (ℝ × Bool) × List (ℝ × Bool))
  | [], s => some (s, [], [])
  | .predict dt m w cov coord :: es, s =>
    (history I order cfg env fuel es (predict s dt m w cov coord)).map fun r => (r.1, (dt, m) :: r.2.1, (dt, false) :: r.2.2)
  | .image t :: es, s =>
    let s := { s with t := t }
    match imageUpdate I order cfg env fuel s with
    | none => none
    | some s' => (history I order cfg env fuel es s').map fun r => (r.1, (0, false) :: r.2.1, (0, imageFires cfg env s) :: r.2.2)

/-! ### `extraOutlierCheck` -/

/-- Offsets of the four comparison samples, include/rovio/ImgUpdate.hpp:511-514: component `i%2` is
`(i/2*2-1)*d`. -/
def samples (d : ℝ) : List V2 :=
  (List.range 4).map fun i => if i % 2 = 0 then ⟨((i / 2 * 2 : ℕ) - 1 : ℝ) * d, 0⟩ else ⟨0, ((i / 2 * 2 : ℕ) - 1 : ℝ) * d⟩

/-- `isAboveThreshold`, include/rovio/ImgUpdate.hpp:518-519. -/
noncomputable def sampleAbove (th gain avgError sampleError : ℝ) : Bool :=
  (decide (gain ≤ 1) && decide (sampleError > th)) || (decide (gain > 1) && decide (sampleError > gain * avgError))

/-- `extraOutlierCheck`, include/rovio/ImgUpdate.hpp:477-537: `inFrame`/`err` are the in-frame test and the average
patch difference at the estimated coordinates moved by an offset. -/
noncomputable def extraOutlierCheck (hasConverged : Bool) (th samplingDistance gain : ℝ) (inFrame : V2 → Bool) (err : V2 → ℝ) : Bool :=
  if hasConverged = false then false
  else if th ≥ 0 then
    if inFrame 0 = false then false
    else if err 0 > th then false
    else if samplingDistance > 0 then
      let count := ((samples samplingDistance).map fun d =>
        if inFrame d then (if sampleAbove th gain (err 0) (err d) then 1 else 0) else 0).sum
      if count < 2 then false else true
    else true
  else true

/-! ### `generateCandidates` -/

/-- Grid offsets of counter value `k ≥ 1`, include/rovio/ImgUpdate.hpp:461-464 (`m = alignMaxUniSample_`, non-negative:
C++ integer division is then the usual one). -/
def gridU (m k : ℕ) : ℤ := ((k - 1) / (2 * m + 1) : ℕ) - (m : ℤ)

/-- Second grid offset, include/rovio/ImgUpdate.hpp:464. -/
def gridV (m k : ℕ) : ℤ := ((k - 1) % (2 * m + 1) : ℕ) - (m : ℤ)

/-- The search loop of `generateCandidates`, include/rovio/ImgUpdate.hpp:460-473, from counter value `k` on: the new
counter and the accepted grid offset, if any.  `acc` is the ellipse test.  The fuel only bounds the search and is proved
sufficient. -/
def nextCandidate (m : ℕ) (acc : ℤ → ℤ → Bool) : ℕ → ℕ → Option (ℕ × Option (ℤ × ℤ))
  | 0, _ => none
  | fuel + 1, k =>
    let k := k + 1
    if gridU m k > m then some (k, none)
    else if acc (gridU m k) (gridV m k) then some (k, some (gridU m k, gridV m k))
    else nextCandidate m acc fuel k

/-- Successive calls of `generateCandidates` until it reports exhaustion (as the filter does), at most `calls` of
them. -/
def candidates (m : ℕ) (acc : ℤ → ℤ → Bool) : ℕ → ℕ → Option (List (ℤ × ℤ))
  | 0, _ => none
  | calls + 1, k =>
    match nextCandidate m acc ((2 * m + 1) * (2 * m + 1) + 1) k with
    | none => none
    | some (_, none) => some []
    | some (k, some uv) => (candidates m acc calls k).map (uv :: ·)

/-- The state increment of a candidate, include/rovio/ImgUpdate.hpp:456 and 469: `-P Hᵀ (H P Hᵀ)⁻¹ dy`. -/
noncomputable def candidateDelta {N : ℕ} (Pm : Matrix (Fin N) (Fin N) ℝ) (H : Matrix (Fin 2) (Fin N) ℝ) (dy : Fin 2 → ℝ) : Fin N → ℝ :=
  (-(Pm * H.transpose * (H * Pm * H.transpose)⁻¹)).mulVec dy

/-- The ellipse test, include/rovio/ImgUpdate.hpp:465-466 (`e0`, `e1` the eigenvalues; zero eigenvalues divide by
zero and are excluded by the theorems). -/
noncomputable def inEllipse (range ratio e0 e1 : ℝ) (u v : ℤ) : Bool :=
  decide ((u * range) ^ 2 / e0 + (v * range) ^ 2 / e1 < ratio ^ 2)

/-- The pixel offset of a grid point, include/rovio/ImgUpdate.hpp:467-468 (`w0`, `w1` the eigenvectors). -/
noncomputable def candidateDy (range : ℝ) (w0 w1 : Fin 2 → ℝ) (u v : ℤ) : Fin 2 → ℝ := (u * range) • w0 + (v * range) • w1

end Rovio.Img
