import Verif.Model.FeatureManager
import Verif.Model.FeatureStatistics
import Verif.Model.Alignment

/-!
# Model of the feature tracker node, `include/rovio/featureTracker.hpp`

One image callback is modelled from the converted image on (`cv_bridge` and its exception, the windows, the drawing in lines 127-130,
159-170, 174 and 178-200 and the log messages are not modelled; the drawing code reads the state and does not write it, except for
`log_prediction_`, which nothing else reads).  The number of slots is a parameter, the other constants are those of the node.
`cv::pyrDown` (`down`) and the corners found by the FAST detector (`corners`, per level) come from OpenCV and are arbitrary.
-/

namespace Rovio

/-! ### Candidates -/

namespace MLP

/-- Evaluation of one candidate of `addBestCandidates`, include/rovio/FeatureManager.hpp:292-301: a newly constructed patch (`junk`
memory), filled and scored if the candidate is in frame.  The result is the patch and the in-frame flag. -/
noncomputable def candidate (p : ℕ) (jc : FC) (junk : MLP) (pyr : List Level) (c : FC) (l1 l2 : ℕ) : Option (MLP × Bool) := do
  let (c, b) ← isMultilevelPatchInFrame p jc pyr c l2 true
  if b then
    let (_, m) ← extractMultilevelPatchFromImage p jc junk.reset pyr c l2 true
    return (m.computeMultilevelShiTomasiScore p l1 l2, true)
  else return ({ junk.reset with s := -1 }, false)

end MLP

namespace Tracker

open Stat

/-- Edge length of the patches `patchSize_`, include/rovio/featureTracker.hpp:51. -/
def patchSize : ℕ := 8
/-- Number of pyramid levels `nLevels_`, include/rovio/featureTracker.hpp:52. -/
def nLevels : ℕ := 4
/-- Finest level used `l1`, include/rovio/featureTracker.hpp:66. -/
def l1 : ℕ := 1
/-- Coarsest level used `l2`, include/rovio/featureTracker.hpp:67. -/
def l2 : ℕ := 3
/-- `min_feature_count_`, include/rovio/featureTracker.hpp:78. -/
def minFeatureCount : ℕ := 50
/-- `max_feature_count_`, include/rovio/featureTracker.hpp:79. -/
def maxFeatureCount : ℤ := 20

/-- One slot of the node: the slot of the feature set and the members of `FeatureManager` that only the tracker uses,
include/rovio/FeatureManager.hpp:51-68 (`log_previous_`, `mpStatistics_`). -/
structure TSlot where
  sl : Slot MLP
  prev : FC
  stat : FeatureStatistics 1

/-- The node's feature set `fsm_`, include/rovio/featureTracker.hpp:60. -/
structure TSt (n : ℕ) where
  slots : Fin n → TSlot
  maxIdx : ℕ

/-- What is outside the code or fixed at start: the alignment settings and the solver, uninitialised memory, and the camera. -/
structure Env where
  cfg : AlignCfg
  junk : FC
  mjunk : MLP
  ex : ℕ → Patch
  solve : Option (List Row) → Align.SolveRes
  cam : CamI

/-- One image message: image, time stamp, and what OpenCV computes from it. -/
structure Frame where
  img : Img
  time : ℝ
  down : Img → ℕ → ℕ → ℕ
  corners : ℕ → List V2

variable {n : ℕ}

/-- The feature set part of the node's state. -/
def TSt.fsm (s : TSt n) : FeatSet MLP n := ⟨fun i => (s.slots i).sl, s.maxIdx⟩

/-- A loop `for i < nMax_: if(isValid_[i]) …` whose body only touches slot `i` (include/rovio/featureTracker.hpp:134-147, 152-177,
207-214, 220-227). -/
def forValid (f : TSlot → Option TSlot) (s : TSt n) : Option (TSt n) :=
  (List.finRange n).foldlM (fun s i =>
    if (s.slots i).sl.valid then (f (s.slots i)).map fun x => { s with slots := Function.update s.slots i x } else some s) s

/-- Body of the prediction loop, include/rovio/featureTracker.hpp:136-145. -/
noncomputable def predictSlot (env : Env) (pyr : List Level) (time : ℝ) (x : TSlot) : Option TSlot := do
  let (c, cur) ← x.sl.coord.getC
  let (_, old) ← x.prev.getC
  let dc := (0.75 : ℝ) • (cur - old)
  let prev := c
  let (c, cur) ← c.getC
  let c := c.setC (cur + dc) true
  let (c, b) ← MLP.isMultilevelPatchInFrame patchSize env.junk pyr c (nLevels - 1) false
  let (prev, old) ← prev.getC
  let c := if !b then c.setC old true else c
  return { sl := { x.sl with coord := c }, prev := prev, stat := { increaseStatistics x.stat time with status := fun _ => .unknown } }

/-- Body of the tracking loop, include/rovio/featureTracker.hpp:154-175. -/
noncomputable def trackSlot (env : Env) (pyr : List Level) (x : TSlot) : Option TSlot := do
  let o ← Align.align2DComposed patchSize env.cfg env.junk env.ex env.solve pyr x.sl.patch x.sl.coord l2 l1 l1
  if o.ok then
    let (_, q) ← o.c.getC
    let c := x.sl.coord.setC q true
    return { sl := { x.sl with coord := c }, prev := c, stat := { x.stat with status := Function.update x.stat.status 0 .tracked } }
  else return { x with stat := { x.stat with status := Function.update x.stat.status 0 .failedAlignment } }

/-- Body of the pruning loop, include/rovio/featureTracker.hpp:209-212. -/
def pruneSlot (x : TSlot) : TSlot :=
  if x.stat.status 0 = .failedAlignment then { x with sl := { x.sl with valid := false } } else x

/-- Body of the patch extraction loop, include/rovio/featureTracker.hpp:222-225. -/
noncomputable def extractSlot (env : Env) (pyr : List Level) (x : TSlot) : Option TSlot :=
  if x.stat.status 0 = .tracked then do
    let (c, b) ← MLP.isMultilevelPatchInFrame patchSize env.junk pyr x.sl.coord (nLevels - 1) true
    if b then
      let (c, m) ← MLP.extractMultilevelPatchFromImage patchSize env.junk x.sl.patch pyr c (nLevels - 1) true
      return { x with sl := { x.sl with coord := c, patch := m } }
    else return { x with sl := { x.sl with coord := c } }
  else some x

/-- `std::numeric_limits<double>::max()`, the default radius limit of `detectFastCorners`, include/rovio/ImagePyramid.hpp:139. -/
noncomputable def maxDouble : ℝ := (2 - 2⁻¹ ^ 52) * 2 ^ 1023

/-- The candidates, include/rovio/featureTracker.hpp:231-236. -/
noncomputable def detect (env : Env) (pyr : List Level) (corners : ℕ → List V2) : Option (List FC) :=
  (List.range' l1 (l2 + 1 - l1)).foldlM (fun cands l => detectFastCorners env.junk pyr cands l (corners l) maxDouble) []

/-- The arguments of `addBestCandidates`, include/rovio/featureTracker.hpp:242-244: what is computed from the candidates `cands`
(evaluated to `evals`), and the settings of lines 62-65 and 79.  The pixel of an existing feature is the one in its only camera
(`transformFeature` copies the coordinates, include/rovio/FeatureManager.hpp:326-331). -/
noncomputable def addArgs (env : Env) (cands : List FC) (evals : List (MLP × Bool)) : AddArgs MLP where
  nc := cands.length
  cand := fun k => (cands.getD k env.junk).c
  inFrame := fun k => (evals.getD k (env.mjunk, false)).2
  shi := fun k => (evals.getD k (env.mjunk, false)).1.s
  patch := fun k => (evals.getD k (env.mjunk, false)).1
  view := fun sl => if sl.coord.isInFront then (sl.coord.getC).map Prod.snd else none
  cam := env.cam
  camID := 0
  maxAdded := maxFeatureCount
  nb := 100
  exponent := 0.25
  penaltyDistance := 20
  zeroPenalty := 100 * 100.0
  requireMax := true
  minScore := 0.0

/-- Adding features, include/rovio/featureTracker.hpp:230-253.  The statistics of a slot keep their counters. -/
noncomputable def addFeatures (I : USet) (env : Env) (pyr : List Level) (corners : ℕ → List V2) (s : TSt n) : Option (TSt n) :=
  if s.fsm.getValidCount < minFeatureCount then do
    let cands ← detect env pyr corners
    let evals ← cands.mapM fun c => MLP.candidate patchSize env.junk env.mjunk pyr c l1 l2
    let (fsm, ids) ← (addArgs env cands evals).addBestCandidates I s.fsm
    return { slots := fun i =>
               let x := { s.slots i with sl := fsm.slots i }
               if i ∈ ids then { x with prev := x.sl.coord, stat := { x.stat with status := fun _ => .tracked } } else x
             maxIdx := fsm.maxIdx }
  else some s

/-- `imgCallback`, include/rovio/featureTracker.hpp:109-259. -/
noncomputable def imgCallback (I : USet) (env : Env) (s : TSt n) (f : Frame) : Option (TSt n) := do
  let pyr ← computeFromImage nLevels f.img (some f.down)
  let s ← forValid (predictSlot env pyr f.time) s
  let s ← forValid (trackSlot env pyr) s
  let s ← forValid (fun x => some (pruneSlot x)) s
  let s ← forValid (extractSlot env pyr) s
  addFeatures I env pyr f.corners s

/-- The node after its constructor, include/rovio/featureTracker.hpp:74-83: no feature, coordinates, patches and statistics newly
allocated in uninitialised memory (`prev` is constructed as well); `ranges` are the statistics' configured ranges. -/
noncomputable def start (n : ℕ) (junk : Fin n → FC) (pjunk : Fin n → MLP) (stat : FeatureStatistics 1) : TSt n where
  slots := fun i => { sl := ⟨false, -1, FC.construct (junk i) none, (pjunk i).reset⟩, prev := FC.construct (junk i) none, stat := stat }
  maxIdx := 0

/-- The node over a sequence of images. -/
noncomputable def run (I : USet) (env : Env) (s : TSt n) (fs : List Frame) : Option (TSt n) := fs.foldlM (imgCallback I env) s

end Tracker

end Rovio
