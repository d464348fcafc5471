import Verif.Model.Reset
import Verif.Model.ImgPixel
import Verif.Model.ImgInnov
import Verif.Model.NewFeature
import Verif.Model.OutputCov

/-!
# The image update put together

`Model/ImgUpdate.lean` has the control flow of `include/rovio/ImgUpdate.hpp` with the image processing as a parameter (`Img.Env`),
`Model/ImgPixel.lean` the image accesses, `Model/ImgInnov.lean` and `Model/NewFeature.lean` the measurement equations and the initialisation of
features.  Here they are joined: `Full.env` is the image processing of the code on actual images.

Scratch memory is explicit: `Mem` is what the temporary objects and newly allocated memory contain when a function starts, an arbitrary function of
the state.  Members that carry information from one call of the code to the next on purpose or by accident are threaded instead: the feature output
`featureOutput_` during a filter update, and the projection Jacobian `c_J_` (never recomputed when the projection fails) for ever.  Undefined accesses (a
missing image, a camera that does not exist; the subject of C88) are replaced by a fixed answer, except that the predicate of this file never needs
them: both runs compared have them at the same places.  The filter update of LWF is an arbitrary function of the callbacks the code gives it; Eigen's
solvers and OpenCV's corners are arbitrary functions of their arguments.
-/

namespace Rovio.ImgFull

open Rovio.Img Distance Matrix

variable {n nCam nPose : ℕ}

/-- What the image update keeps of the filter state besides features, statistics and covariance: the estimate, the previous images `prevPyr_`
(include/rovio/FilterStates.hpp:552) and `c_J_` (include/rovio/ImgUpdate.hpp:254).  The coordinates of the features are those of the slots. -/
structure World (n nCam nPose : ℕ) where
  x : State n nCam nPose
  prev : Fin nCam → List Level
  cJ : M2

/-- The filter state of the assembled model. -/
abbrev FSt (n nCam nPose : ℕ) := St MLP (World n nCam nPose) (Cov n nCam nPose) n nCam

/-- Contents of the scratch memory: that of the image accesses (`ImgPixel.Mem`) and the coordinates of the feature output members of the update and
of the filter state (`out`, `outMed`), include/rovio/ImgUpdate.hpp:239, include/rovio/FilterStates.hpp:539. -/
structure Mem extends ImgPixel.Mem where
  out : FC
  outMed : FC

/-- The scratch the callbacks of a filter update share: the coordinates of `featureOutput_` and `c_J_`, include/rovio/ImgUpdate.hpp:239, 254. -/
abbrev Scr := FC × M2

/-- The functions the filter library calls during an update, include/rovio/ImgUpdate.hpp:406-573: innovation (with the flag `cancelIteration_`),
Jacobian, the Jacobian for the candidates, and the outlier check. -/
structure Callbacks (n nCam nPose : ℕ) where
  innov : State n nCam nPose → V2 → Scr → Option (V2 × Bool × Scr)
  jac : State n nCam nPose → Scr → Option ((DState n nCam nPose → Option V2) × Bool × Scr)
  cand : State n nCam nPose → Scr → Option ((DState n nCam nPose → Option V2) × Scr)
  check : State n nCam nPose → Bool → Scr → Option (Bool × Scr)

/-- Settings, calibration and inputs: the settings of the image accesses (their scratch fields are overridden by `Mem`), the cameras, `setFromVector`,
the encoding `ty` of the distance the feature output members hold (a simplification: in the code it is REGULAR until a feature has been copied within its
own camera), the images by time, Eigen's eigenvalue solver and QR reduction, OpenCV's corners, `valid_radius_`, the settings of new features
(include/rovio/ImgUpdate.hpp:185-232), the filter update and the zero-velocity update of LWF. -/
structure Full (n nCam nPose : ℕ) where
  base : ImgPixel.Env
  mc : MultiCamera nCam
  sfv : V3 → Nor
  ty : DType
  imgs : ℝ → Fin nCam → List Level
  eigen : M2 → (ℝ × ℝ) × V2 × V2
  reduce : EqRes → Option (M2 × V2)
  corners : ℝ → Fin nCam → ℕ → List V2
  radius : Fin nCam → ℝ
  C : Matrix (Fin 3) (Fin 3) ℝ
  stereo : Bool
  nb : ℕ
  exponent : ℝ
  penaltyDistance : ℝ
  zeroPenalty : ℝ
  initDepth : ℝ
  ratio : ℝ
  lwf : Callbacks n nCam nPose → State n nCam nPose → Cov n nCam nPose → Scr → State n nCam nPose × Cov n nCam nPose × M2 × Bool
  zvu : State n nCam nPose → Cov n nCam nPose → State n nCam nPose × Cov n nCam nPose

/-- Coordinates after their bearing was asked for, `com_nor`, src/FeatureCoordinates.cpp:58-66: a feature just detected has a pixel only
(include/rovio/FeatureManager.hpp:358), its bearing is computed when it is first needed, for example by the increment of the state
(include/rovio/RobocentricFeatureElement.hpp:60-68).  (Simplification: without a camera they are left alone; the code stops there.) -/
def known (c : FC) : FC := ((c.comNor).map Prod.fst).getD c

/-- The estimate with the coordinates of the slots (the coordinates of a slot are those of the state, include/rovio/FilterStates.hpp:174-190), their bearings
computed.  (Simplification: all bearings at once; asking for a bearing has no other effect.) -/
def here (s : FSt n nCam nPose) : State n nCam nPose :=
  { s.w.x with fea := fun i => { s.w.x.fea i with c := known (s.fsm.slots i).coord } }

namespace Full

variable (F : Full n nCam nPose)

/-- The settings of the image accesses with given scratch memory. -/
def pix (m : Mem) : ImgPixel.Env := F.base.withMem m.toMem

/-- A feature output object with given coordinates. -/
def outOf (c : FC) : Fea := ⟨c, ⟨F.ty, 0⟩⟩

/-- `evalInnovation`, include/rovio/ImgUpdate.hpp:406-441, for feature `i`, its patch and the matched coordinates. -/
noncomputable def innov (m : Mem) (cur : Fin nCam → List Level) (mp : MLP) (meas : Option FC) (i : Fin n) (counter : ℕ)
    (x : State n nCam nPose) (noise : V2) (r : Scr) : Option (V2 × Bool × Scr) := do
  let (b, f) ← x.imgFeature F.mc F.sfv i counter (F.outOf r.1)
  if F.base.direct then
    let (c, e) ← ImgPixel.innovation (F.pix m) (cur b) mp f.c
    match F.reduce e with
    | some (_, v) => return (v + noise, false, (c, r.2))
    | none => return (noise, true, (c, r.2))
  else
    let z ← meas
    let (_, q) ← z.getC
    let (c, v) ← f.c.getC
    return (⟨q.x - v.x, q.y - v.y⟩ + noise, false, (c, r.2))

/-- The Jacobian with the reprojection error, include/rovio/ImgUpdate.hpp:563-567, and the Jacobian for the candidates, 446-456. -/
noncomputable def cand (i : Fin n) (counter : ℕ) (x : State n nCam nPose) (r : Scr) : Option ((DState n nCam nPose → Option V2) × Scr) := do
  let (b, f) ← x.imgFeature F.mc F.sfv i counter (F.outOf r.1)
  let (c, nor) ← f.c.getNor
  let J := State.pixJ r.2 (F.mc.cams b) nor
  return (fun δ => (x.featureJac F.sfv true i b δ).map fun d => J.neg.mulVec d.1, (c, J))

/-- `jacState`, include/rovio/ImgUpdate.hpp:546-568. -/
noncomputable def jac (m : Mem) (cur : Fin nCam → List Level) (mp : MLP) (i : Fin n) (counter : ℕ) (x : State n nCam nPose) (r : Scr) :
    Option ((DState n nCam nPose → Option V2) × Bool × Scr) :=
  if F.base.direct then do
    let (b, f) ← x.imgFeature F.mc F.sfv i counter (F.outOf r.1)
    let (c, e) ← ImgPixel.innovation (F.pix m) (cur b) mp f.c
    match F.reduce e with
    | some (A, _) =>
      let (c, nor) ← c.getNor
      let J := State.pixJ r.2 (F.mc.cams b) nor
      return (fun δ => (x.featureJac F.sfv true i b δ).map fun d => (A.neg.mul J).mulVec d.1, false, (c, J))
    | none => return (fun _ => some 0, true, (c, r.2))
  else do
    let (H, r) ← F.cand i counter x r
    return (H, false, r)

/-- `extraOutlierCheck`, include/rovio/ImgUpdate.hpp:477-537; the in-frame test fills the caches of the feature output. -/
noncomputable def check (m : Mem) (cur : Fin nCam → List Level) (mp : MLP) (i : Fin n) (counter : ℕ) (x : State n nCam nPose) (conv : Bool) (r : Scr) :
    Option (Bool × Scr) := do
  let (b, f) ← x.imgFeature F.mc F.sfv i counter (F.outOf r.1)
  let ok ← ImgPixel.outlierCheck (F.pix m) (cur b) mp f.c conv
  let c ← if conv && decide (F.base.rejectTh < 0) then some f.c else (ImgPixel.inFrame (F.pix m) (cur b) f.c false).map Prod.fst
  return (ok, c, r.2)

/-- The callbacks of one update. -/
noncomputable def callbacks (m : Mem) (cur : Fin nCam → List Level) (mp : MLP) (meas : Option FC) (i : Fin n) (counter : ℕ) : Callbacks n nCam nPose where
  innov := F.innov m cur mp meas i counter
  jac := F.jac m cur mp i counter
  cand := F.cand i counter
  check := F.check m cur mp i counter

/-- The feature in a camera and the in-frame test before the update, include/rovio/ImgUpdate.hpp:685-692: in the previous image of the feature's own
camera. -/
noncomputable def tested (m : Mem) (s : FSt n nCam nPose) (i : Fin n) (c : Fin nCam) : Option (FC × Bool) := do
  let a ← camIdx nCam (s.camID i)
  let f ← (here s).featureOut F.mc F.sfv i c (F.outOf m.out)
  ImgPixel.inFrame (F.pix m) (s.w.prev a) f.c false

/-- Pixel uncertainty of a feature in a camera, include/rovio/ImgUpdate.hpp:688, 696-698 (`transformCovMat` of LWF is `J*cov*Jᵀ`; the pixel depends on the
bearing rows only, include/rovio/CoordinateTransform/PixelOutput.hpp:61-64).  Computing the Jacobian writes the pixel of the coordinates. -/
noncomputable def pixelCov (s : FSt n nCam nPose) (i : Fin n) (c : Fin nCam) (f : FC) : Option (FC × FC.PixelCov) := do
  let J ← (here s).featureMat F.sfv i c
  let S := J * s.cov * Jᵀ
  let (f, G) ← f.getJ
  let q := (G.mul ⟨S 0 0, S 0 1, S 1 0, S 1 1⟩).mul G.tr
  let e := F.eigen q
  return (f, FC.setPixelCov e.1.1 e.1.2 e.2.1 e.2.2)

/-- The feature output after the in-frame test and the computation of the pixel uncertainty, include/rovio/ImgUpdate.hpp:692-698. -/
noncomputable def started (s : FSt n nCam nPose) (i : Fin n) (c : Fin nCam) (f : FC) : FC := ((F.pixelCov s i c f).map Prod.fst).getD f

/-- Alignment, include/rovio/ImgUpdate.hpp:729-730. -/
noncomputable def align (m : Mem) (s : FSt n nCam nPose) (i : Fin n) (c : Fin nCam) : Option (Option FC) := do
  let (f, ok) ← F.tested m s i c
  if ok then
    let (f, q) ← F.pixelCov s i c f
    let o ← ImgPixel.align (F.pix m) (F.imgs s.t c) (s.fsm.slots i).patch f q
    return if o.ok then some o.c else none
  else return none

/-- Average difference at aligned coordinates, include/rovio/ImgUpdate.hpp:732-736. -/
noncomputable def err (m : Mem) (s : FSt n nCam nPose) (i : Fin n) (c : Fin nCam) (x : FC) : Option ℝ := do
  let (x, ok) ← ImgPixel.inFrame (F.pix m) (F.imgs s.t c) x false
  if ok then
    let (_, q) ← ImgPixel.extract (F.pix m) m.tmp1 (F.imgs s.t c) x false
    return MLP.computeAverageDifference F.base.p q (s.fsm.slots i).patch F.base.stop F.base.start
  else return 0

/-- The filter update with the callbacks above, started with the feature output after line 698 (LWF; called between `preProcess` and
`postProcess`): new estimate, covariance, coordinates and success (826). -/
noncomputable def update (m : Mem) (s : FSt n nCam nPose) (i : Fin n) (c : Fin nCam) : World n nCam nPose × Cov n nCam nPose × (Fin n → FC) × Bool :=
  match F.tested m s i c with
  | some (f, true) =>
    let r := F.lwf (F.callbacks m (F.imgs s.t) (s.fsm.slots i).patch (s.meas i) i s.cam) (here s) s.cov (F.started s i c f, s.w.cJ)
    ({ s.w with x := r.1, cJ := r.2.2.1 }, r.2.1, fun j => (r.1.fea j).c, r.2.2.2)
  | _ => (s.w, s.cov, fun j => (s.fsm.slots j).coord, false)

/-- In-frame test after the update, include/rovio/ImgUpdate.hpp:806-808, 827: in the new image of the feature's own camera. -/
noncomputable def inPost (m : Mem) (s : FSt n nCam nPose) (i : Fin n) (c : Fin nCam) : Option Bool := do
  let a ← camIdx nCam (s.camID i)
  let f ← (here s).featureOut F.mc F.sfv i c (F.outOf m.out)
  ImgPixel.verdict (F.pix m) (F.imgs s.t a) f.c

/-- Motion detection, include/rovio/ImgUpdate.hpp:611-621. -/
noncomputable def moving (m : Mem) (s : FSt n nCam nPose) (i : Fin n) : Option (Option Bool) := do
  let a ← camIdx nCam (s.camID i)
  ImgPixel.moving (F.pix m) (s.w.prev a) (F.imgs s.t a) (s.fsm.slots i).coord

/-- New patch, include/rovio/ImgUpdate.hpp:909-914. -/
noncomputable def repatch (m : Mem) (t : ℝ) (x : Slot MLP) : Option (Option MLP) := do
  let a ← camIdx nCam x.coord.camID
  ImgPixel.repatch (F.pix m) (F.imgs t a) x.coord

/-- Pixel of an existing feature in the camera new features are looked for, include/rovio/FeatureManager.hpp:324-331: the output objects are new. -/
noncomputable def view (m : Mem) (s : FSt n nCam nPose) (c : Fin nCam) (x : Slot MLP) : Option V2 := do
  let j ← (List.finRange n).find? fun j => (s.fsm.slots j).valid && decide ((s.fsm.slots j).idx = x.idx)
  let (f, _) ← ((here s).updateMultiCamera F.mc).transformFeature F.sfv c x.coord (s.w.x.fea j).d (FC.construct m.junk none) (mk' .regular)
  if f.isInFront then
    let (_, q) ← f.getC
    return q
  else none

/-- Candidates for new features and their evaluation, include/rovio/ImgUpdate.hpp:983-994. -/
noncomputable def detect (m : Mem) (s : FSt n nCam nPose) (c : Fin nCam) : AddArgs MLP :=
  let r := (ImgPixel.detect (F.pix m) m.mjunk (F.imgs s.t c) (F.corners s.t c) (F.radius c)).getD ([], [])
  { nc := r.1.length
    cand := fun k => ((r.1[k]?).map fun x => x.c).getD 0
    inFrame := fun k => ((r.2[k]?).map Prod.snd).getD false
    shi := fun k => ((r.2[k]?).map fun x => x.1.s).getD 0
    patch := fun k => ((r.2[k]?).map Prod.fst).getD m.mjunk
    view := F.view m s c
    cam := F.mc.cams c
    camID := c.val
    maxAdded := 0
    nb := F.nb
    exponent := F.exponent
    penaltyDistance := F.penaltyDistance
    zeroPenalty := F.zeroPenalty
    requireMax := false
    minScore := 0 }

/-- Initial distance parameters, include/rovio/ImgUpdate.hpp:976-981. -/
noncomputable def median (m : Mem) (s : FSt n nCam nPose) : Option (Fin nCam → ℝ) :=
  if F.ratio > 0 then (here s).medianDepth s.cov F.mc F.sfv s.valid F.initDepth F.ratio (F.outOf m.outMed) else some fun _ => F.initDepth

/-- Coordinates with given bearing and warp in another camera, as `transformFeature` leaves them (include/rovio/MultiCamera.hpp:98-121): the pixel is not
known, and what is not known is what was in memory.  (Simplification: if only the pixel warp is known, the bearing warp is an outdated copy of the
feature's own, here zero.) -/
def ofView (m : Mem) (c : Fin nCam) (v : FCView) : FC :=
  { m.out with
    cam := some (F.mc.cams c), nor := v.nor, validC := false, validNor := true, camID := c.val
    warpC := v.warpC.getD m.out.warpC, validWarpC := v.warpC.isSome
    warpNor := v.warpNor.getD (if v.warpC.isSome then M2.zero else m.out.warpNor), validWarpNor := v.warpNor.isSome
    isWarpIdentity := v.identity, trackWarping := v.track }

/-- The pixel uncertainty of coordinates in another camera, include/rovio/MultiCamera.hpp:104-109. -/
def noCov : FC.PixelCov := ⟨0, 0, 0, 0, 0⟩

/-- The settings of new features; the match in the other camera is looked for in its image, include/rovio/ImgUpdate.hpp:1012-1024. -/
noncomputable def newCfg (m : Mem) (s : FSt n nCam nPose) (c : Fin nCam) : NewCfg n where
  C := F.C
  stereo := F.stereo
  found := fun i v =>
    (ImgPixel.stereo (F.pix m) (F.imgs s.t (otherCam c)) (s.fsm.slots i).patch (F.ofView m (otherCam c) v) noCov).getD none

/-- Initialisation of a new feature, include/rovio/ImgUpdate.hpp:1002-1046. -/
noncomputable def initFeature (m : Mem) (med : ℝ) (s : FSt n nCam nPose) (i : Fin n) (c : Fin nCam) : World n nCam nPose × Cov n nCam nPose :=
  match initNewFeature (F.newCfg m s c) F.mc F.sfv c med (F.outOf m.out, here s, s.cov) i with
  | some (_, x, P) => ({ s.w with x := x }, P)
  | none => (s.w, s.cov)

/-- The image processing of the code, with `mem` the contents of the scratch memory. -/
noncomputable def env (mem : FSt n nCam nPose → Mem) (mem' : ℝ → Slot MLP → Mem) : Env MLP (World n nCam nPose) (Cov n nCam nPose) n nCam where
  inPrev := fun s i c => ((F.tested (mem s) s i c).map Prod.snd).getD false
  align := fun s i c => (F.align (mem s) s i c).getD none
  inNew := fun s c x => ((ImgPixel.inFrame (F.pix (mem s)) (F.imgs s.t c) x false).map Prod.snd).getD false
  err := fun s i c x => (F.err (mem s) s i c x).getD 0
  update := fun s i c => F.update (mem s) s i c
  dist := fun w i => getDistance (w.x.fea i).d
  resetCov := fun P i => P.resetFeature i 1
  inPost := fun s i c => (F.inPost (mem s) s i c).getD false
  moving := fun s i => (F.moving (mem s) s i).getD none
  repatch := fun t x => (F.repatch (mem' t x) t x).getD none
  score := fun q => q.s
  detect := fun s c => F.detect (mem s) s c
  median := fun s => (F.median (mem s) s).getD fun _ => 0
  initFeature := fun med s i c => F.initFeature (mem s) med s i c
  finish := fun t w => { w with prev := F.imgs t }
  zvu := fun w P co =>
    let r := F.zvu { w.x with fea := fun i => { w.x.fea i with c := known (co i) } } P
    ({ w with x := r.1 }, r.2, fun j => (r.1.fea j).c)

end Full

/-- What happens to a filter: a step that works on estimate and covariance alone (an IMU measurement, include/rovio/ImuPrediction.hpp:93-160, or a pose or
velocity update) with the time it covers and whether it shows inertial motion, an image, or a reset. -/
inductive Happening (n nCam nPose : ℕ) where
  | filter (g : State n nCam nPose → Cov n nCam nPose → State n nCam nPose × Cov n nCam nPose) (dt : ℝ) (motion : State n nCam nPose → Bool)
  | image (t : ℝ)
  | reset (init : FSt n nCam nPose) (t : ℝ)

/-- One step. -/
noncomputable def step (I : USet) (order : Finset (Fin n) → List (Fin n)) (cfg : Cfg) (F : Full n nCam nPose) (mem : FSt n nCam nPose → Mem)
    (mem' : ℝ → Slot MLP → Mem) (fuel : ℕ) (s : FSt n nCam nPose) : Happening n nCam nPose → Option (FSt n nCam nPose)
  | .filter g dt motion =>
    let r := g (here s) s.cov
    some (predict s dt (motion (here s)) { s.w with x := r.1 } r.2 fun j => (r.1.fea j).c)
  | .image t => imageUpdate I order cfg (F.env mem mem') fuel { s with t := t }
  | .reset init t => some (init.reset s t)

/-- A filter's life. -/
noncomputable def run (I : USet) (order : Finset (Fin n) → List (Fin n)) (cfg : Cfg) (F : Full n nCam nPose) (mem : FSt n nCam nPose → Mem)
    (mem' : ℝ → Slot MLP → Mem) (fuel : ℕ) (es : List (Happening n nCam nPose)) (s : FSt n nCam nPose) : Option (FSt n nCam nPose) :=
  es.foldlM (step I order cfg F mem mem' fuel) s

end Rovio.ImgFull
