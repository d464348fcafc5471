import Verif.Model.Geom

/-!
# The place a multilevel patch takes in the image
-/

namespace Rovio.Spec

/-- The corners of a square of half side `h` about the origin, one after the other. -/
def squareCorner (h : ℝ) (k : Fin 4) : V2 := ![⟨h, h⟩, ⟨h, -h⟩, ⟨-h, -h⟩, ⟨-h, h⟩] k

/-- Half the side, in pixels of the camera image, of the part of the image that a patch of `p` pixels takes on the coarsest of `L` levels. -/
noncomputable def halfSideOf (p L : ℕ) : ℝ := 2 ^ (L - 1) * ((p : ℝ) / 2)

/-- The centre of pixel `(x, y)` of a patch of `p` by `p` pixels, relative to the centre of the patch. -/
noncomputable def patchPixel (p x y : ℕ) : V2 := ⟨(x : ℝ) + 0.5 - p / 2, (y : ℝ) + 0.5 - p / 2⟩

/-- `P` is a weighted mean of the four points, with positive weights: it is inside the quadrilateral, not on its border. -/
def Within (P : V2) (q : Fin 4 → V2) : Prop :=
  ∃ w : Fin 4 → ℝ, (∀ k, 0 < w k) ∧ w 0 + w 1 + w 2 + w 3 = 1 ∧ P = w 0 • q 0 + w 1 • q 1 + w 2 • q 2 + w 3 • q 3

end Rovio.Spec
