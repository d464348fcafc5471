import Verif.Model.Tracker
import Verif.Model.ImgUpdate

/-!
# Model of the image accesses of `include/rovio/ImgUpdate.hpp`

Each place where the image update reads pixels, on the pyramids themselves: `prev` is a pyramid of `prevPyr_` (the previous images), `cur`
one of `meas.aux().pyr_` (the new images).  `none` is undefined behaviour: a read outside an image or a missing level, a null camera, a
conversion of a number that does not fit an `int`.  The coordinates passed in are those of the feature or of `featureOutput_`, the
feature transformed into a camera (`Model/Outputs.lean`); the caches they carry from one call to the next are kept where a later access uses
the same object.  The drawing code is not modelled.
-/

namespace Rovio.ImgPixel

open Align

/-- The settings that the image accesses depend on, include/rovio/ImgUpdate.hpp:187-232, with the patch size `p`, the uninitialised memory
of newly constructed coordinates `junk`, the temporary patches `mlpTemp1_`, `mlpTemp2_` (`tmp1`, `tmp2`) and those of the alignment object
(`ex`, `tmp`), and the SVD solver of the alignment.  `start` and `stop` are `startLevel_` and `endLevel_`. -/
structure Env where
  p : ℕ
  start : ℕ
  stop : ℕ
  junk : FC
  tmp1 : MLP
  tmp2 : MLP
  tmp : MLP
  ex : ℕ → Patch
  acfg : AlignCfg
  solve : Option (List Row) → SolveRes
  range : ℝ
  coverage : ℝ
  maxUni : ℤ
  direct : Bool
  rejectTh : ℝ
  motionTh : ℝ
  sampling : ℝ
  gain : ℝ

/-- Memory the image update uses as scratch space or never initialises, include/rovio/ImgUpdate.hpp:233-262,
include/rovio/MultilevelPatchAlignment.hpp:49-64: newly constructed coordinates, the temporary patches of the update and of the alignment, newly
allocated patches. -/
structure Mem where
  junk : FC
  tmp1 : MLP
  tmp2 : MLP
  tmp : MLP
  ex : ℕ → Patch
  mjunk : MLP

/-- The same settings (include/rovio/ImgUpdate.hpp:187-232) with other contents of the scratch memory. -/
def Env.withMem (env : Env) (m : Mem) : Env := { env with junk := m.junk, tmp1 := m.tmp1, tmp2 := m.tmp2, tmp := m.tmp, ex := m.ex }

variable (env : Env)

/-- `isMultilevelPatchInFrame` at the start level, e.g. include/rovio/ImgUpdate.hpp:692. -/
noncomputable def inFrame (pyr : List Level) (c : FC) (wb : Bool) : Option (FC × Bool) :=
  MLP.isMultilevelPatchInFrame env.p env.junk pyr c env.start wb

/-- `extractMultilevelPatchFromImage` up to the start level, e.g. include/rovio/ImgUpdate.hpp:735. -/
noncomputable def extract (tmp : MLP) (pyr : List Level) (c : FC) (wb : Bool) : Option (FC × MLP) :=
  MLP.extractMultilevelPatchFromImage env.p env.junk tmp pyr c env.start wb

/-- Motion detection at one feature, include/rovio/ImgUpdate.hpp:613-621: `none` inside if the feature is not in frame, else whether it
counts as moved.  `avgError/std::sqrt(e1_)` with `e1_ = 0` is infinite for a positive error and NaN for a zero error: moved exactly if the
error is positive (the threshold is finite). -/
noncomputable def moving (prev cur : List Level) (c : FC) : Option (Option Bool) := do
  let c := c.setWarpIdentity
  let (c, b) ← inFrame env prev c true
  if b then
    let (c, m1) ← extract env env.tmp1 prev c true
    let m1 := m1.computeMultilevelShiTomasiScore env.p env.stop env.start
    let (_, m2) ← extract env env.tmp2 cur c true
    let avg := MLP.computeAverageDifference env.p m1 m2 env.stop env.start
    return some (if m1.e1 = 0 then decide (0 < avg) else decide (avg / Real.sqrt m1.e1 > env.motionTh))
  else return none

/-- The alignment call, include/rovio/ImgUpdate.hpp:729-730 and 1015-1016; `cov` is the pixel uncertainty of the coordinates. -/
noncomputable def align (cur : List Level) (mp : MLP) (c : FC) (cov : FC.PixelCov) : Option Out :=
  align2DAdaptive env.p env.acfg env.junk env.ex env.tmp env.solve cur mp c cov.sigma1 cov.eigenVector1 env.start env.stop env.range env.coverage
    env.maxUni

/-- Acceptance of aligned coordinates, include/rovio/ImgUpdate.hpp:732-740 and 1017-1024: in frame and, if enabled, similar enough. -/
noncomputable def accept (cur : List Level) (mp : MLP) (c : FC) : Option (FC × Bool) := do
  let (c, b) ← inFrame env cur c false
  if b then
    if env.rejectTh ≥ 0 then
      let (c, m) ← extract env env.tmp1 cur c false
      return (c, !decide (MLP.computeAverageDifference env.p m mp env.stop env.start > env.rejectTh))
    else return (c, true)
  else return (c, false)

/-- What matching a feature in one camera yields, include/rovio/ImgUpdate.hpp:692-755. -/
inductive Match where
  | notInFrame
  | failed
  | direct (c : FC)
  | found (c : FC)

/-- Matching a feature in one camera, include/rovio/ImgUpdate.hpp:692-755: the in-frame test uses the previous image of the feature's own
camera, the alignment the new image of the camera in question. -/
noncomputable def search (prev cur : List Level) (mp : MLP) (c : FC) (cov : FC.PixelCov) : Option Match := do
  let (c, b) ← inFrame env prev c false
  if !b then return .notInFrame
  if env.direct then return .direct c
  let o ← align env cur mp c cov
  if o.ok then
    let (c, b) ← accept env cur mp o.c
    return if b then .found c else .failed
  else return .failed

/-- The alignment equations of the direct method, include/rovio/ImgUpdate.hpp:422 and 555 (`getLinearAlignEquationsReduced`, before the QR
decomposition). -/
noncomputable def innovation (cur : List Level) (mp : MLP) (c : FC) : Option (FC × EqRes) :=
  equations env.p env.acfg env.junk env.ex cur mp c env.stop env.start

/-- One sample of the discriminative test, include/rovio/ImgUpdate.hpp:511-520: whether it counts. -/
noncomputable def sample (cur : List Level) (mp : MLP) (avg : ℝ) (c : FC) (d : V2) : Option Bool := do
  let s ← c.boxPlus d
  let (s, b) ← inFrame env cur s false
  if b then
    let (_, m) ← extract env env.tmp1 cur s false
    return Img.sampleAbove env.rejectTh env.gain avg (MLP.computeAverageDifference env.p m mp env.stop env.start)
  else return false

/-- `extraOutlierCheck`, include/rovio/ImgUpdate.hpp:477-537.  (Without convergence only the drawing depends on the in-frame test of line
487, which is made all the same.) -/
noncomputable def outlierCheck (cur : List Level) (mp : MLP) (c : FC) (hasConverged : Bool) : Option Bool := do
  if !hasConverged then
    let _ ← inFrame env cur c false
    return false
  if env.rejectTh ≥ 0 then
    let (c, b) ← inFrame env cur c false
    if !b then return false
    let (c, m) ← extract env env.tmp1 cur c false
    let avg := MLP.computeAverageDifference env.p m mp env.stop env.start
    if avg > env.rejectTh then return false
    if env.sampling > 0 then
      let above ← (Img.samples env.sampling).mapM (sample env cur mp avg c)
      if above.count true < 2 then return false else return true
    else return true
  else return true

/-- The in-frame test after the update, include/rovio/ImgUpdate.hpp:827, in the new image of the feature's own camera. -/
noncomputable def verdict (cur : List Level) (c : FC) : Option Bool := (inFrame env cur c false).map Prod.snd

/-- Extracting a new patch of a tracked feature, include/rovio/ImgUpdate.hpp:909-913. -/
noncomputable def repatch (cur : List Level) (c : FC) : Option (Option MLP) := do
  let c := c.setWarpIdentity
  let (c, b) ← inFrame env cur c true
  if b then
    let (_, m) ← extract env env.tmp1 cur c true
    return some (m.computeMultilevelShiTomasiScore env.p env.stop env.start)
  else return none

/-- Corners in all levels in use, include/rovio/ImgUpdate.hpp:987-989, and their evaluation as candidates,
include/rovio/FeatureManager.hpp:292-301.  `corners` are those found by OpenCV, `radius` is the camera's `valid_radius_`, `mjunk` the memory of
the new patches. -/
noncomputable def detect (mjunk : MLP) (cur : List Level) (corners : ℕ → List V2) (radius : ℝ) : Option (List FC × List (MLP × Bool)) := do
  let cands ← (List.range' env.stop (env.start + 1 - env.stop)).foldlM (fun cands l => detectFastCorners env.junk cur cands l (corners l) radius) []
  let evals ← cands.mapM fun c => MLP.candidate env.p env.junk mjunk cur c env.stop env.start
  return (cands, evals)

/-- Matching a new feature in the next camera, include/rovio/ImgUpdate.hpp:1015-1024: the accepted coordinates, if any. -/
noncomputable def stereo (other : List Level) (mp : MLP) (c : FC) (cov : FC.PixelCov) : Option (Option FC) := do
  let o ← align env other mp c cov
  if o.ok then
    let (c, b) ← accept env other mp o.c
    return if b then some c else none
  else return none

end Rovio.ImgPixel
