import Verif.Model.ImgPixel

/-!
# Positions of image accesses

Vocabulary of the statements about image accesses (C88): which pixel and warp an access at given coordinates uses, and when these are of
moderate size.
-/

namespace Rovio.Spec

/-- Both components are at most `B` in absolute value. -/
def Small (B : ℝ) (q : V2) : Prop := |q.x| ≤ B ∧ |q.y| ≤ B

/-- The pixel `q` and the warp `W` used by an image access at the coordinates `c`: the object is asked for its warp, then for its pixel. -/
def Used (c : FC) (q : V2) (W : M2) : Prop :=
  ∃ c1 c2, c.comWarpC = some (c1, true) ∧ c1.getC = some (c2, q) ∧ W = c1.warpC

/-- A patch with `p` pixels per side and a border of one pixel, warped by `W`, reaches at most `R` pixels away from its centre. -/
def Reach (p : ℕ) (R : ℝ) (W : M2) : Prop :=
  (|W.a| + |W.b|) * ((p + 1) / 2) ≤ R ∧ (|W.c| + |W.d|) * ((p + 1) / 2) ≤ R

/-- The warp is (numerically) the identity, or it has reach `R`. -/
def Moderate (p : ℕ) (R : ℝ) (W : M2) : Prop := W.distOne < 1e-6 ∨ Reach p R W

/-- The warp is (numerically) the identity, or the pixel is at most `B` and the warp has reach `R`. -/
def Fit (p : ℕ) (B R : ℝ) (q : V2) (W : M2) : Prop := W.distOne < 1e-6 ∨ (Small B q ∧ Reach p R W)

/-- A pyramid with more than `start` levels, of an image whose sizes fit an `int`; it was built by averaging or (by OpenCV) from an image whose
sides can be halved exactly on all levels. -/
structure Images (start : ℕ) (pyr : List Level) where
  n : ℕ
  img : Img
  cv : Option (Img → ℕ → ℕ → ℕ)
  built : computeFromImage n img cv = some pyr
  cols : img.cols ≤ 2147483647
  rows : img.rows ≤ 2147483647
  levels : start < n
  exact : cv = none ∨ (2 ^ (n - 1) ∣ img.rows ∧ 2 ^ (n - 1) ∣ img.cols)

/-- Two pyramids of images of the same size, built in the same way. -/
def SameFormat {start : ℕ} {pyr pyr' : List Level} (I : Images start pyr) (J : Images start pyr') : Prop :=
  I.img.rows = J.img.rows ∧ I.img.cols = J.img.cols ∧ I.cv.isSome = J.cv.isSome

/-- The coordinates belong to a camera; the pixel used is at most `B`, the warp used has reach `R` (or is the identity). -/
structure Placed (p : ℕ) (B R : ℝ) (c : FC) : Prop where
  cam : c.cam ≠ none
  here : ∀ q W, Used c q W → Small B q ∧ Moderate p R W

/-- The coordinates from which an alignment starts without an in-frame test: they belong to a camera, the pixel is at most `B`, and wherever the
search may begin (pixels up to `2B`), the pixel and the warp used there are of moderate size. -/
structure Start (p : ℕ) (B R : ℝ) (c : FC) : Prop where
  cam : c.cam ≠ none
  pixel : ∀ c' q, c.getC = some (c', q) → Small B q
  here : ∀ q W, Used c q W → Fit p (3 * B) R q W
  moved : ∀ q0, Small (2 * B) q0 → ∀ q W, Used (c.setC q0 false) q W → Fit p (3 * B) R q W

/-- The search for a match: the number of seeds converts to an `int`, the direction of search is a unit vector, and the seeds are at most `B`
pixels away from the start. -/
structure Seeds (range coverage : ℝ) (maxUni : ℤ) (start : ℕ) (B : ℝ) (cov : FC.PixelCov) : Prop where
  rangePos : 0 < range
  count : |cov.sigma1 * coverage / (range * 2 ^ (start + 1))| ≤ 2147483647
  unit : |cov.eigenVector1.x| ≤ 1 ∧ |cov.eigenVector1.y| ≤ 1
  span : (maxUni : ℝ) * (range * 2 ^ (start + 1)) ≤ B

/-- The coordinates after an image access: asked for the warp, then for the pixel. -/
def Accessed (c c' : FC) : Prop := ∃ c1 q, c.comWarpC = some (c1, true) ∧ c1.getC = some (c', q)

end Rovio.Spec
