import Verif.Model.Draw
import Verif.Model.FeatureStatistics

/-!
# What the debugging pictures say of a feature

After a visit of a feature `postProcess` sets its status, draws an outline and possibly a label into the camera image, and a frame into the sheet of
patches.  Of outline and label the colour and the content are modelled here, the place of the outline is in `Model/Outline.lean`.  What OpenCV makes of
`cv::rectangle` with thickness one is taken to be the rim of the rectangle.  The number of the feature, written into the first column of the sheet with
`cv::putText`, is left out.
-/

namespace Rovio.Annot

open Rovio.Draw Stat

/-- What the filter update of LWF leaves behind, as read in include/rovio/ImgUpdate.hpp:826-859: the mode (`iterated` for `ModeIEKF`, else `ModeEKF`; no other is
set, include/rovio/RovioFilter.hpp:176-182), `successfulUpdate_`, `hasConverged_`, `isOutlier(0)` and `getMahalDistance(0)`. -/
structure After where
  iterated : Bool
  successful : Bool
  converged : Bool
  outlier : Bool
  mahal : ℝ

/-- The labels, include/rovio/ImgUpdate.hpp:834, 843, 849 and 855. -/
inductive Label where
  | notInFrame
  | mahalanobis (d : ℝ)
  | notConverged
  | pixelError

/-- A `cv::Scalar` of three channels. -/
structure Colour where
  c0 : ℕ
  c1 : ℕ
  c2 : ℕ
deriving DecidableEq

/-- What is drawn into the camera image: the colour of the outline, and the label, in the same colour. -/
structure Note where
  colour : Colour
  label : Option Label

/-- Status and drawing after a visit, include/rovio/ImgUpdate.hpp:826-859.  `inFrame` is the answer of `isMultilevelPatchInFrame` (827), `own` is
`activeCamID == camID`. -/
def note (a : After) (inFrame own : Bool) : Status × Note :=
  let bright := 150 + (if own then 1 else 0) * 105
  if (a.iterated && a.successful) || (!a.iterated && !a.outlier) then
    if inFrame then (.tracked, ⟨⟨0, bright, 0⟩, none⟩)
    else (.failedTracking, ⟨⟨0, 0, bright⟩, some .notInFrame⟩)
  else
    (.failedTracking, ⟨⟨0, 0, bright⟩, some
      (if a.outlier then .mahalanobis a.mahal else if !a.converged then .notConverged else .pixelError)⟩)

/-- `cv::rectangle` with corners `(x0,y0)`, `(x1,y1)` and thickness one, include/rovio/ImgUpdate.hpp:868 and 870: the pixels of the rim that lie in the picture. -/
def rectangle (m : Canvas) (x0 y0 x1 y1 : ℤ) (c : Colour) : Canvas :=
  { m with data := fun o =>
      let k := o % m.ch
      let x := o / m.ch % m.cols
      let y := o / m.ch / m.cols
      if y < m.rows ∧ x0 ≤ x ∧ (x : ℤ) ≤ x1 ∧ y0 ≤ y ∧ (y : ℤ) ≤ y1 ∧ ((x : ℤ) = x0 ∨ (x : ℤ) = x1 ∨ (y : ℤ) = y0 ∨ (y : ℤ) = y1) then
        (if k = 0 then c.c0 else if k = 1 then c.c1 else c.c2)
      else m.data o }

/-- What is drawn into the sheet of patches: patches (`Draw.Call`) and the frame of feature `id` in camera `cam` with status `st`, include/rovio/ImgUpdate.hpp:867-871. -/
inductive Mark where
  | patch (c : Call)
  | frame (id cam : ℕ) (st : Status)

/-- One drawing into the sheet, include/rovio/ImgUpdate.hpp:673, 713, 865 and 867-871. -/
noncomputable def mark (p L : ℕ) (m : Canvas) : Mark → Option Canvas
  | .patch c => call p L m c
  | .frame id cam st =>
    let s : ℤ := drawPS p L
    some (rectangle m ((2 + 2 * cam) * s) (id * s) ((3 + 2 * cam) * s - 1) ((id + 1) * s - 1) (if st = .tracked then ⟨0, 255, 0⟩ else ⟨0, 0, 255⟩))

/-- The drawings of an image update, in the order in which they are made. -/
noncomputable def marks (p L : ℕ) (m : Canvas) (ms : List Mark) : Option Canvas := ms.foldlM (mark p L) m

/-- What `postProcess` draws into the sheet for a visit, include/rovio/ImgUpdate.hpp:862-872: the patch at the estimate if it lies in the image, then the frame. -/
def visitMarks (id cam : ℕ) (patch : Option MLP) (st : Status) : List Mark :=
  (patch.toList.map fun mp => .patch (.updated id cam mp)) ++ [.frame id cam st]

end Rovio.Annot
