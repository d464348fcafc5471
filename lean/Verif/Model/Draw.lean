import Verif.Model.MultilevelPatch

/-!
# Model of the drawing of patches

`drawPatch` and `drawMultilevelPatch` write through a byte pointer into the memory of a `cv::Mat`; a write outside that memory and the
conversion of an intensity that does not fit a byte are undefined (`none`).  All canvases in question are created by `cv::Mat::zeros`, so the
rows are contiguous: `step.p[0] = cols*channels`, `step.p[1] = channels`.  Text, rectangles and lines that OpenCV draws on top (and clips
itself) are not modelled.  `float` is real.
-/

namespace Rovio.Draw

/-- A `cv::Mat` of bytes with contiguous rows, as created at include/rovio/ImgUpdate.hpp:596, include/rovio/featureTracker.hpp:130 and
include/rovio/RovioScene.hpp:53. -/
structure Canvas where
  rows : ℕ
  cols : ℕ
  ch : ℕ
  data : ℕ → ℕ

/-- `cv::Mat::zeros`, see the places cited at `Canvas`. -/
def zeros (rows cols ch : ℕ) : Canvas := ⟨rows, cols, ch, fun _ => 0⟩

/-- `(uint8_t)(it_patch[x])`, include/rovio/Patch.hpp:160-163: truncation, undefined if the result does not fit. -/
noncomputable def toByte (v : ℝ) : Option ℕ := if -1 < v ∧ v < 256 then some ⌊v⌋.toNat else none

/-- The assignment `img_ptr[..] = (uint8_t)(..)` at byte `o` of the image memory, include/rovio/Patch.hpp:160-163. -/
noncomputable def Canvas.write (m : Canvas) (w : ℤ × ℝ) : Option Canvas :=
  if 0 ≤ w.1 ∧ w.1 < m.rows * m.cols * m.ch then
    (toByte w.2).map fun b => { m with data := Function.update m.data w.1.toNat b }
  else none

/-- The channels written per pixel, include/rovio/Patch.hpp:160-164. -/
def channels (ch : ℕ) : List ℕ := if ch = 3 then [0, 1, 2] else [0]

/-- The assignments of `drawPatch` in loop order, include/rovio/Patch.hpp:155-167: `n` is `patchSize+2*withBorder`, `f` the array drawn. -/
def writes (cols ch : ℕ) (cx cy : ℤ) (n s : ℕ) (f : ℕ → ℝ) : List (ℤ × ℝ) :=
  let stepY : ℤ := cols * ch
  let stepX : ℤ := ch
  (List.range n).flatMap fun (y : ℕ) => (List.range n).flatMap fun (x : ℕ) => (List.range s).flatMap fun (i : ℕ) =>
    (List.range s).flatMap fun (j : ℕ) => (channels ch).map fun (k : ℕ) =>
     ((cy + y * s) * stepY + cx * stepX + (x * s * stepX + i * stepY + j * stepX + k), f (y * n + x))

/-- `drawPatch`, include/rovio/Patch.hpp:145-168. -/
noncomputable def drawPatch (p : ℕ) (m : Canvas) (q : Patch) (cx cy : ℤ) (s : ℕ) (wb : Bool) : Option Canvas :=
  let n := p + 2 * (if wb then 1 else 0)
  (writes m.cols m.ch cx cy n s (if wb then q.border else q.patch)).foldlM Canvas.write m

/-- The offset of level `l`, include/rovio/MultilevelPatch.hpp:131 (`L = nLevels_`; the powers are whole numbers, the conversion to `int` is
exact). -/
def corner (p L l : ℕ) (wb : Bool) : ℕ := halfPatch p wb * (2 ^ (L - 1) - 2 ^ l)

/-- Body of the loop of `drawMultilevelPatch`, include/rovio/MultilevelPatch.hpp:130-133. -/
noncomputable def drawLevel (p L : ℕ) (mp : MLP) (cx cy : ℤ) (s : ℕ) (wb : Bool) (m : Canvas) (l : ℕ) : Option Canvas :=
  if mp.isValidPatch l then drawPatch p m (mp.patches l) (cx + corner p L l wb) (cy + corner p L l wb) (s * 2 ^ l) wb
  else some m

/-- `drawMultilevelPatch`, include/rovio/MultilevelPatch.hpp:128-135: from the coarsest level to the finest. -/
noncomputable def drawMultilevelPatch (p L : ℕ) (m : Canvas) (mp : MLP) (cx cy : ℤ) (s : ℕ) (wb : Bool) : Option Canvas :=
  (List.range L).reverse.foldlM (drawLevel p L mp cx cy s wb) m

/-- `drawPB_`, include/rovio/FilterStates.hpp:560. -/
def drawPB : ℕ := 1

/-- `drawPS_`, include/rovio/FilterStates.hpp:561. -/
def drawPS (p L : ℕ) : ℕ := p * 2 ^ (L - 1) + 2 * drawPB

/-- `patchDrawing_` at the start of an image update, include/rovio/ImgUpdate.hpp:596. -/
def sheet (p L nMax nCam : ℕ) : Canvas := zeros (nMax * drawPS p L) ((1 + 2 * nCam) * drawPS p L) 3

/-- The patch drawings of an image update: the reference patch of feature `id` (include/rovio/ImgUpdate.hpp:673), the patch extracted at its
prediction in camera `cam` (713) and at its estimate after the update (865). -/
inductive Call where
  | reference (id : ℕ) (mp : MLP)
  | predicted (id cam : ℕ) (mp : MLP)
  | updated (id cam : ℕ) (mp : MLP)

/-- One drawing, include/rovio/ImgUpdate.hpp:673, 713 and 865. -/
noncomputable def call (p L : ℕ) (m : Canvas) : Call → Option Canvas
  | .reference id mp => drawMultilevelPatch p L m mp 2 (drawPB + id * drawPS p L) 1 false
  | .predicted id cam mp => drawMultilevelPatch p L m mp (drawPB + (1 + 2 * cam) * drawPS p L) (drawPB + id * drawPS p L) 1 false
  | .updated id cam mp => drawMultilevelPatch p L m mp (drawPB + (2 + 2 * cam) * drawPS p L) (drawPB + id * drawPS p L) 1 false

/-- The drawings of an image update, in the order in which they are made. -/
noncomputable def calls (p L : ℕ) (m : Canvas) (cs : List Call) : Option Canvas := cs.foldlM (call p L) m

/-- `patch_` of the 3D view, include/rovio/RovioScene.hpp:53. -/
def texture (p L : ℕ) : Canvas := zeros (p * 2 ^ (L - 1)) (p * 2 ^ (L - 1)) 1

/-- Drawing a feature into the texture, include/rovio/RovioScene.hpp:200. -/
noncomputable def drawTexture (p L : ℕ) (m : Canvas) (mp : MLP) : Option Canvas := drawMultilevelPatch p L m mp 0 0 1 false

/-- Side of a cell of the tracker's canvas, include/rovio/featureTracker.hpp:130. -/
def trackerCell (p L : ℕ) : ℕ := p * 2 ^ (L - 1) + 4

/-- `draw_patches_` of the tracker for `n` patches, include/rovio/featureTracker.hpp:129-130. -/
def trackerSheet (p L n : ℕ) : Canvas := zeros (n * trackerCell p L) (3 * trackerCell p L) 1

/-- The three drawings of the tracker for its row `i`: reference, prediction and tracked patch (`k = 0, 1, 2`),
include/rovio/featureTracker.hpp:183, 186 and 191. -/
noncomputable def trackerDraw (p L : ℕ) (m : Canvas) (i : ℕ) (k : Fin 3) (mp : MLP) : Option Canvas :=
  let x : ℕ := match k with
    | 0 => 2
    | 1 => p * 2 ^ (L - 1) + 6
    | 2 => 2 * p * 2 ^ (L - 1) + 10
  drawMultilevelPatch p L m mp x (2 + i * trackerCell p L) 1 false

end Rovio.Draw
