import Verif.Spec.ImgMoves
import Verif.Spec.Unmoved

/-!
# An image that shows what the estimate predicts
-/

namespace Rovio.Spec

open Rovio ImgFull Img

variable {n nCam nPose : ℕ}

/-- The same coordinates, except that the bearing may have been computed since and the pixel may have to be computed anew from it. -/
def SameUpToPixel (a b : FC) : Prop := b = a ∨ b = known a ∨ b = { known a with validC := false, validNor := true }

/-- The same bearing, for whoever asks for it. -/
def SameBearing (a b : FC) : Prop := ∀ r nor, a.getNor = some (r, nor) → ∃ r', b.getNor = some (r', nor)

/-- Two moments within the processing of one image between which the estimate has not changed: same time, previous image, platform, features (in the same
slots, with the same patches); features may have been removed. -/
structure Undisturbed (s s' : ImgFull.FSt n nCam nPose) : Prop where
  time : s'.t = s.t
  previous : s'.w.prev = s.w.prev
  platform : SamePlatformEstimate s.w.x s'.w.x
  maxIdx : s'.fsm.maxIdx = s.fsm.maxIdx
  valid : ∀ i, s'.valid i = true → s.valid i = true
  idx : ∀ i, (s'.fsm.slots i).idx = (s.fsm.slots i).idx
  patch : ∀ i, (s'.fsm.slots i).patch = (s.fsm.slots i).patch
  coord : ∀ i, SameUpToPixel (s.fsm.slots i).coord (s'.fsm.slots i).coord
  dist : ∀ i, (s'.w.x.fea i).d = (s.w.x.fea i).d

/-- The coordinates of feature `i` in camera `c` as the estimate predicts them. -/
def PredictedIn (F : Full n nCam nPose) (s : ImgFull.FSt n nCam nPose) (i : Fin n) (c : Fin nCam) (x : FC) : Prop :=
  ∃ out f, (here s).featureOut F.mc F.sfv i c out = some f ∧ f.c = x

/-- The image shows feature `i` in camera `c` where the estimate predicts it.  With matched coordinates (`useDirectMethod` off): if the feature is found, then
at the predicted pixel.  Direct method: if the feature is in frame in the previous image and the
brightness errors at the predicted coordinates can be reduced to two equations, their error is zero. -/
def ShownAsPredicted (F : Full n nCam nPose) (s : ImgFull.FSt n nCam nPose) (i : Fin n) (c : Fin nCam) : Prop :=
  ∀ (m : Mem) (f : FC), PredictedIn F s i c f →
    (F.base.direct = false → ∀ x r q r' q', F.align m s i c = some (some x) → x.getC = some (r, q) → f.getC = some (r', q') → q = q') ∧
    (F.base.direct = true → ∀ y, F.tested m s i c = some (y, true) → ∀ r e A v, ImgPixel.innovation (F.pix m) (F.imgs s.t c) (s.fsm.slots i).patch f = some (r, e) → F.reduce e = some (A, v) → v = 0)

/-- The whole image agrees with the estimate `s`. -/
def ImageAgrees (F : Full n nCam nPose) (s : ImgFull.FSt n nCam nPose) : Prop :=
  ∀ s' : ImgFull.FSt n nCam nPose, Undisturbed s s' → ∀ i c, s'.valid i = true → ShownAsPredicted F s' i c

/-- The camera image shows the feature's patch at the coordinates `f` (with pixel and warp computed: `g`), on all levels in use and up to a change of brightness the alignment
estimates; the patch has texture in two directions. -/
structure SeesPatch (F : Full n nCam nPose) (s : ImgFull.FSt n nCam nPose) (i : Fin n) (c : Fin nCam) (f : FC) : Prop where
  image : ∃ (N : ℕ) (img : Rovio.Img) (cv : Option (Rovio.Img → ℕ → ℕ → ℕ)), computeFromImage N img cv = some (F.imgs s.t c) ∧ img.cols ≤ 2147483647 ∧ img.rows ≤ 2147483647 ∧
    ∃ f1 g : FC, f.comC = some (f1, true) ∧ f1.comWarpC = some (g, true) ∧ g.validC = true ∧ g.validWarpC = true ∧
      (cv = none ∨ (2 ^ (N - 1) ∣ img.rows ∧ 2 ^ (N - 1) ∣ img.cols) ∨ g.cam = none ∨ g.warpC.distOne < 1e-6) ∧ (g.isWarpIdentity = true ∨ g.warpC.distOne < 1e-6 ∨ g.warpC.det ≠ 0) ∧
      ∀ junk, MLP.isMultilevelPatchInFrame F.base.p junk (F.imgs s.t c) g F.base.start false = some (g, true) ∧
        ∃ (m0 vis : MLP) (α β : ℝ), MLP.extractMultilevelPatchFromImage F.base.p junk m0 (F.imgs s.t c) g F.base.start false = some (g, vis) ∧
          (∀ l, F.base.stop ≤ l → l ≤ F.base.start → ∀ k < F.base.p * F.base.p, (vis.patches l).patch k = α * ((s.fsm.slots i).patch.patches l).patch k + β) ∧
          (if F.base.acfg.useSqew then 1 / 2 ≤ α else α = 1) ∧ (F.base.acfg.useOffset = true ∨ β = 0)
  levels : ∀ l, F.base.stop ≤ l → l ≤ F.base.start → (s.fsm.slots i).patch.isValidPatch l = true
  texture : Textured F.base.p F.base.stop F.base.start (fun l => ((s.fsm.slots i).patch.patches l).patch) (fun l => ((s.fsm.slots i).patch.patches l).border)
  notFlat : F.base.acfg.useSqew = true → NotFlat F.base.p F.base.stop F.base.start (fun l => ((s.fsm.slots i).patch.patches l).patch)

/-- Contract of the reduction to two equations (Eigen's QR decomposition): without errors there is no error left. -/
def ReducesZero (F : Full n nCam nPose) : Prop := ∀ rows A v, F.reduce (.ok rows) = some (A, v) → (∀ r ∈ rows, r.b = 0) → v = 0

/-- Coordinates with a direction: it is stored or can be computed from the pixel. -/
def HasDirection (a : FC) : Prop := ∃ r, a.comNor = some (r, true) ∧ r.nor.q.IsUnit

/-- A filter that runs: rotations are rotations, every slot has a direction (and a camera, if its patch is warped), identifiers have been given out before. -/
structure Sound (s : ImgFull.FSt n nCam nPose) : Prop where
  att : s.w.x.att.IsUnit
  vea : ∀ c, (s.w.x.vea c).IsUnit
  aux : ∀ c, (s.w.x.aux.qCM c).IsUnit
  poa : ∀ k, (s.w.x.poa k).IsUnit
  direction : ∀ i, HasDirection (s.fsm.slots i).coord
  camera : ∀ i, (s.fsm.slots i).coord.trackWarping = true → (s.fsm.slots i).coord.cam.isSome = true
  ids : ∀ i, s.valid i = true → (s.fsm.slots i).idx < s.fsm.maxIdx

/-- The cameras see every pixel in a direction. -/
def Backprojects (F : Full n nCam nPose) : Prop := ∀ c p, ((F.mc.cams c).p2b p).2 = true ∧ ((F.mc.cams c).p2b p).1.q.IsUnit

/-- An input that says what a platform with estimate `x` at rest expects: IMU measurements of biases and gravity, velocity zero; images are judged elsewhere, resets are excluded. -/
def ExpectedAtRest (x : State n nCam nPose) : ImgFull.Input n nCam nPose → Prop
  | .imu m dt => 0 < dt ∧ m.gyr = x.gyb ∧ x.att.rotate (m.acc - x.acb) = ⟨0, 0, 9.81⟩
  | .velocity v => v = 0
  | .image _ => True
  | .reset _ _ => False

end Rovio.Spec
