import Verif.Spec.Sim
import Verif.Model.ImgFull

/-!
# What it means for images to be the same up to brightness

The exposure of a camera changes from image to image: every grey value of an image is `β` higher (or lower), with its own `β` for each image.
-/

namespace Rovio.Spec

open Rovio.Img

/-- The same image, every stored grey value `β` higher (`β` may be negative; no grey value is cut off). -/
structure BrightImg (β : ℤ) (a b : Img) : Prop where
  rows : a.rows = b.rows
  cols : a.cols = b.cols
  px : ∀ v < a.rows, ∀ u < a.cols, (b.px v u : ℤ) = a.px v u + β

/-- The same pyramid, all levels `β` brighter. -/
def BrightPyr (β : ℤ) : List Level → List Level → Prop := List.Forall₂ fun a b => BrightImg β a.img b.img ∧ a.center = b.center

/-- The same patch, all pixels `β` brighter; gradients and scores, once computed, the same. -/
structure BrightPatch (p : ℕ) (β : ℝ) (a b : Patch) : Prop where
  patch : ∀ k < p * p, b.patch k = a.patch k + β
  border : ∀ k < (p + 2) * (p + 2), b.border k = a.border k + β
  validGradient : a.validGradient = b.validGradient
  dx : a.validGradient = true → ∀ k < p * p, a.dx k = b.dx k
  dy : a.validGradient = true → ∀ k < p * p, a.dy k = b.dy k
  H : a.validGradient = true → a.H = b.H
  s : a.validGradient = true → a.s = b.s
  e0 : a.validGradient = true → a.e0 = b.e0
  e1 : a.validGradient = true → a.e1 = b.e1

/-- The same multilevel patch on the levels up to `l`, all levels `β` brighter; the overall score the same. -/
structure BrightMLP (p l : ℕ) (β : ℝ) (a b : MLP) : Prop where
  valid : ∀ i ≤ l, a.isValidPatch i = b.isValidPatch i
  patches : ∀ i ≤ l, BrightPatch p β (a.patches i) (b.patches i)
  H : a.H = b.H
  e0 : a.e0 = b.e0
  e1 : a.e1 = b.e1
  s : a.s = b.s

/-- Two filters that see the same up to brightness: the patch of each feature and the last image of each camera may be brighter in one of them, everything
else is the same. -/
def brightRels (n nCam nPose p l : ℕ) : Rels MLP (ImgFull.World n nCam nPose) (Cov n nCam nPose) nCam where
  patch a b := ∃ β, BrightMLP p l β a b
  w a b := a.x = b.x ∧ a.cJ = b.cJ ∧ ∀ c, ∃ β, BrightPyr β (a.prev c) (b.prev c)
  cov := Eq
  time := Eq
  ext _ := Eq

end Rovio.Spec
