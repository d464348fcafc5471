import Verif.Model.FeatureCoordinates
import Verif.Model.CNum

/-!
# Model of `include/rovio/ImagePyramid.hpp`

An image is a `cv::Mat` of type `CV_8UC1`: number of rows and columns and the grey values.  Pointer
arithmetic `data + v*step + u` is modelled as access to row `v`, column `u`; an access outside the
rows and columns is an out-of-bounds read (`none`), also where the memory of a neighbouring row would
be hit.  `cv::copyTo` is the identity.  Not modelled: `float` rounding of the coordinates.
-/

namespace Rovio

/-- `cv::Mat` (8 bit, one channel) as used in include/rovio/ImagePyramid.hpp:44-60 and
include/rovio/Patch.hpp:200-304: `px row column`; only `row < rows`, `column < cols` are stored. -/
structure Img where
  rows : ℕ
  cols : ℕ
  px : ℕ → ℕ → ℕ

/-- Reading row `v`, column `u` of an image: the address computations of
include/rovio/ImagePyramid.hpp:52-57 and include/rovio/Patch.hpp:266, 292. -/
def Img.read (img : Img) (v u : ℤ) : Option ℕ :=
  if 0 ≤ v ∧ v < img.rows ∧ 0 ≤ u ∧ u < img.cols then some (img.px v.toNat u.toNat) else none

/-- A double loop `for y<h, for x<w` writing one cell per iteration (e.g.
include/rovio/ImagePyramid.hpp:51-59): undefined as soon as one cell is.  The values of cells outside
the loop are irrelevant (`dflt`). -/
def fill {α : Type} (dflt : α) (h w : ℕ) (f : ℕ → ℕ → Option α) : Option (ℕ → ℕ → α) :=
  if ∀ y < h, ∀ x < w, (f y x).isSome then some (fun y x => (f y x).getD dflt) else none

/-- One pixel of `halfSample`, include/rovio/ImagePyramid.hpp:52-57, including the conversion back
to `uint8_t`. -/
def halfPixel (img : Img) (y x : ℕ) : Option ℕ := do
  let tl ← img.read (2 * y) (2 * x)
  let tr ← img.read (2 * y) (2 * x + 1)
  let bl ← img.read (2 * y + 1) (2 * x)
  let br ← img.read (2 * y + 1) (2 * x + 1)
  return (tl + tr + bl + br) / 4 % 256

/-- `halfSample`, include/rovio/ImagePyramid.hpp:44-60. -/
def halfSample (img : Img) : Option Img := do
  let px ← fill 0 (img.rows / 2) (img.cols / 2) (halfPixel img)
  return ⟨img.rows / 2, img.cols / 2, px⟩

/-- One pyramid level: `imgs_[i]` and `centers_[i]`, include/rovio/ImagePyramid.hpp:72-74. -/
structure Level where
  img : Img
  center : V2

/-- Body of the loop of `computeFromImage` for level `i ≥ 1`, include/rovio/ImagePyramid.hpp:84-94.
`useCv = some down` stands for `useCv = true`, where `down` gives the grey values computed by
`cv::pyrDown` (OpenCV, not part of the repository); the size is fixed by the `cv::Size` argument.
`pow(0.5, 2-i)` has a possibly negative exponent. -/
noncomputable def nextLevel (useCv : Option (Img → ℕ → ℕ → ℕ)) (i : ℕ) (prev : Level) : Option Level :=
  match useCv with
  | none => do
    let img ← halfSample prev.img
    return { img := img
             center := ⟨prev.center.x - (0.5 : ℝ) ^ (2 - (i : ℤ)) * ((prev.img.rows % 2 : ℕ) : ℝ),
                        prev.center.y - (0.5 : ℝ) ^ (2 - (i : ℤ)) * ((prev.img.cols % 2 : ℕ) : ℝ)⟩ }
  | some down =>
    some { img := ⟨prev.img.rows / 2, prev.img.cols / 2, down prev.img⟩
           center := ⟨prev.center.x - (0.5 : ℝ) ^ (2 - (i : ℤ)) * ((prev.img.rows % 2 + 1 : ℕ) : ℝ),
                      prev.center.y - (0.5 : ℝ) ^ (2 - (i : ℤ)) * ((prev.img.cols % 2 + 1 : ℕ) : ℝ)⟩ }

/-- Levels `i-1, i, …` of the loop in `computeFromImage`, include/rovio/ImagePyramid.hpp:84-94, given
level `i-1`; `n` levels in total. -/
noncomputable def levelsFrom (useCv : Option (Img → ℕ → ℕ → ℕ)) : ℕ → ℕ → Level → Option (List Level)
  | 0, _, _ => some []
  | 1, _, cur => some [cur]
  | n + 2, i, cur => do
    let nxt ← nextLevel useCv i cur
    let rest ← levelsFrom useCv (n + 1) (i + 1) nxt
    return cur :: rest

/-- `ImagePyramid<n_levels>::computeFromImage`, include/rovio/ImagePyramid.hpp:81-95. -/
noncomputable def computeFromImage (nLevels : ℕ) (img : Img) (useCv : Option (Img → ℕ → ℕ → ℕ)) :
    Option (List Level) :=
  levelsFrom useCv nLevels 1 ⟨img, 0⟩

/-- The pixel formula of `levelTranformCoordinates`, include/rovio/ImagePyramid.hpp:120, with
`c1 = centers_[l1]`, `c2 = centers_[l2]`. -/
noncomputable def levelPixel (c1 c2 : V2) (l1 l2 : ℕ) (c : V2) : V2 :=
  ((0.5 : ℝ) ^ l2) • (c1 - c2) + ((0.5 : ℝ) ^ ((l2 : ℤ) - (l1 : ℤ))) • c

/-- `levelTranformCoordinates`, include/rovio/ImagePyramid.hpp:116-129: the queried input object (its
`mutable` caches may change) and the returned object.  `junk` is the uninitialised memory of
`cOut`. -/
noncomputable def levelTransform (junk : FC) (pyr : List Level) (cIn : FC) (l1 l2 : ℕ) :
    Option (FC × FC) := do
  let p1 ← pyr[l1]?
  let p2 ← pyr[l2]?
  let (cIn, c) ← cIn.getC
  let cOut := (FC.construct junk none).setC (levelPixel p1.center p2.center l1 l2 c) true
  match cIn.cam with
  | none => return (cIn, { cOut with camID := -1, cam := none })
  | some _ =>
    let (cIn, b) ← cIn.comWarpC
    if b then
      let (cIn, w) ← cIn.getWarpC
      return (cIn, { cOut.setWarpC w with camID := -1, cam := none })
    else return (cIn, { cOut with camID := -1, cam := none })

/-- The radius test of `detectFastCorners`, include/rovio/ImagePyramid.hpp:152-158: `false` = skipped. -/
noncomputable def inValidRadius (img : Img) (validRadius : ℝ) (pt : V2) : Bool :=
  let x := pt.x - (img.cols : ℝ) / 2
  let y := pt.y - (img.rows : ℝ) / 2
  let m := validRadius * (min img.cols img.rows : ℕ)
  !decide (x * x + y * y > m * m)

/-- `detectFastCorners`, include/rovio/ImagePyramid.hpp:139-163.  `keypoints` is what the OpenCV FAST
detector returned on `imgs_[l]`. -/
noncomputable def detectFastCorners (junk : FC) (pyr : List Level) (candidates : List FC) (l : ℕ)
    (keypoints : List V2) (validRadius : ℝ) : Option (List FC) := do
  let lvl ← pyr[l]?
  let new ← (keypoints.filter (inValidRadius lvl.img validRadius)).mapM (fun pt => do
    let (_, cOut) ← levelTransform junk pyr (FC.constructPixel junk pt) l 0
    return cOut)
  return candidates ++ new

end Rovio
