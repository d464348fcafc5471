import Verif.Model.FeatureCoordinates

/-!
# The outline drawn around a feature in the camera image

`drawMultilevelPatchBorder` and `drawPatchBorder` hand four segments to OpenCV, which clips them itself.  Colours are left out.
-/

namespace Rovio.Outline

/-- The pixel of a corner: `get_patchCorner(x,y).get_c()`, include/rovio/Patch.hpp:180-187.  `junk` is the memory of the temporary object that
`get_patchCorner` creates (src/FeatureCoordinates.cpp:144). -/
noncomputable def cornerPixel (junk c : FC) (x y : ℝ) : Option (FC × V2) := do
  let (c, k) ← c.getPatchCorner junk x y
  let (_, q) ← k.getC
  return (c, q)

/-- `drawPatchBorder`, include/rovio/Patch.hpp:177-190: the segments in the order in which they are drawn.  `junk k` is the memory of the `k`-th
temporary object. -/
noncomputable def drawPatchBorder (p : ℕ) (junk : ℕ → FC) (c : FC) (s : ℝ) : Option (FC × List (V2 × V2)) :=
  let half := s * p / 2
  if c.isInFront then do
    let (c, b) ← c.comWarpC
    if b then
      let (c, c1) ← cornerPixel (junk 0) c half half
      let (c, c2) ← cornerPixel (junk 1) c half (-half)
      let l1 := (c1, c2)
      let (c, c1) ← cornerPixel (junk 2) c (-half) (-half)
      let l2 := (c2, c1)
      let (c, c2) ← cornerPixel (junk 3) c (-half) half
      let l3 := (c1, c2)
      let (c, c1) ← cornerPixel (junk 4) c half half
      let l4 := (c2, c1)
      return (c, [l1, l2, l3, l4])
    else return (c, [])
  else some (c, [])

/-- `drawMultilevelPatchBorder`, include/rovio/MultilevelPatch.hpp:143-145; `L` is `nLevels`. -/
noncomputable def drawMultilevelPatchBorder (p L : ℕ) (junk : ℕ → FC) (c : FC) (s : ℝ) : Option (FC × List (V2 × V2)) :=
  drawPatchBorder p junk c (s * (2 : ℝ) ^ ((L : ℤ) - 1))

end Rovio.Outline
