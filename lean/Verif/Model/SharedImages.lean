import Verif.Model.Pyramid
import Mathlib.Logic.Function.Basic

/-!
# Image pyramids in memory

In `Model/Pyramid.lean` a pyramid is a value.  Here the pixels live in buffers and a `cv::Mat` is a header that refers to one, so
that two pyramids may share their pixels.  OpenCV's memory management is modelled as documented: `create` keeps the buffer when the
size is already right and allocates a new one otherwise, `copyTo` creates the destination and writes into it, copying a `cv::Mat`
copies the header only.  All images are of type `CV_8UC1`.  Buffers that are not referred to any more are not reused.
-/

namespace Rovio.SharedImages

/-- The header of a `cv::Mat` that is not empty: size and the buffer with its pixels (members of
include/rovio/ImagePyramid.hpp:72). -/
structure Header where
  rows : ℕ
  cols : ℕ
  id : ℕ

/-- The buffers: contents, and the first one not used so far. -/
structure Mem where
  buf : ℕ → ℕ → ℕ → ℕ
  next : ℕ

/-- The image a header refers to (a read access to a `cv::Mat`, e.g. include/rovio/ImagePyramid.hpp:52-57). -/
def Mem.img (m : Mem) (h : Header) : Img := ⟨h.rows, h.cols, m.buf h.id⟩

/-- Writing all pixels of a buffer (include/rovio/ImagePyramid.hpp:51-59). -/
def Mem.write (m : Mem) (b : ℕ) (px : ℕ → ℕ → ℕ) : Mem := { m with buf := Function.update m.buf b px }

/-- `cv::Mat::create`, used by `copyTo`, `cv::pyrDown` and include/rovio/ImagePyramid.hpp:45; `none` is an empty `cv::Mat`. -/
def Mem.create (m : Mem) (d : Option Header) (r c : ℕ) : Mem × Header :=
  match d with
  | some h => if h.rows = r ∧ h.cols = c then (m, h) else ({ m with next := m.next + 1 }, ⟨r, c, m.next⟩)
  | none => ({ m with next := m.next + 1 }, ⟨r, c, m.next⟩)

/-- `cv::Mat::copyTo` (include/rovio/ImagePyramid.hpp:82, 101): an empty source makes the destination empty. -/
def Mem.copyTo (m : Mem) (src dst : Option Header) : Mem × Option Header :=
  match src with
  | none => (m, none)
  | some s => let r := m.create dst s.rows s.cols; (r.1.write r.2.id (r.1.buf s.id), some r.2)

/-- The members of an `ImagePyramid`: images and centres of all levels, include/rovio/ImagePyramid.hpp:72-74. -/
abbrev Pyr := List (Option Header × V2)

/-- What can be read from a pyramid: the image of each level, if there is one, and its centre (include/rovio/ImagePyramid.hpp:72-74). -/
def view (m : Mem) (p : Pyr) : List (Option Img × V2) := p.map fun l => (l.1.map m.img, l.2)

/-- The loop of `computeFromImage` from level `i ≥ 1` on, include/rovio/ImagePyramid.hpp:84-94: `prev` is the level before, `ds` the images to
be written.  The pixels of a level are computed from those of the level before as in `Model/Pyramid.lean` and written at once. -/
noncomputable def computeFrom (useCv : Option (Img → ℕ → ℕ → ℕ)) : ℕ → Header × V2 → Pyr → Mem → Option (Mem × Pyr)
  | _, _, [], m => some (m, [])
  | i, prev, d :: ds, m => do
    let nxt ← nextLevel useCv i ⟨m.img prev.1, prev.2⟩
    let r := m.create d.1 nxt.img.rows nxt.img.cols
    let m := r.1.write r.2.id nxt.img.px
    let (m, rest) ← computeFrom useCv (i + 1) (r.2, nxt.center) ds m
    return (m, (some r.2, nxt.center) :: rest)

/-- `computeFromImage`, include/rovio/ImagePyramid.hpp:81-96, with an image that is not part of a pyramid (as at
include/rovio/RovioNode.hpp:507-519). -/
noncomputable def compute (useCv : Option (Img → ℕ → ℕ → ℕ)) (img : Img) (p : Pyr) (m : Mem) : Option (Mem × Pyr) :=
  match p with
  | [] => some (m, [])
  | d :: ds => do
    let r := m.create d.1 img.rows img.cols
    let m := r.1.write r.2.id img.px
    let (m, rest) ← computeFrom useCv 1 (r.2, 0) ds m
    return (m, (some r.2, 0) :: rest)

/-- `operator=`, include/rovio/ImagePyramid.hpp:99-105; both pyramids have the same number of levels. -/
def assign : Pyr → Pyr → Mem → Mem × Pyr
  | d :: ds, s :: ss, m =>
    let r := m.copyTo s.1 d.1
    let q := assign ds ss r.1
    (q.1, (r.2, s.2) :: q.2)
  | _, _, m => (m, [])

/-- The pyramids that exist, by name: those of the measurement being assembled (include/rovio/RovioNode.hpp:519), of measurements
that wait in queues, of filter states (include/rovio/FilterStates.hpp:547), of the tracker (include/rovio/featureTracker.hpp:59). -/
structure World where
  mem : Mem
  pyr : ℕ → Pyr

/-- What a program can do with pyramids: include/rovio/ImagePyramid.hpp:70 (default constructor), 81 (`computeFromImage`), 99
(assignment), and the copy constructor the compiler adds (68: "complete rule of three"). -/
inductive Op where
  | construct (i : ℕ)
  | compute (i : ℕ) (img : Img) (useCv : Option (Img → ℕ → ℕ → ℕ))
  | assign (i j : ℕ)
  | copyConstruct (i j : ℕ)

/-- Effect of an operation, include/rovio/ImagePyramid.hpp:70-105; `L` is `n_levels`. -/
noncomputable def step (L : ℕ) (w : World) : Op → Option World
  | .construct i => some { w with pyr := Function.update w.pyr i (List.replicate L (none, 0)) }
  | .compute i img useCv => do
    let (m, p) ← compute useCv img (w.pyr i) w.mem
    return ⟨m, Function.update w.pyr i p⟩
  | .assign i j =>
    let r := assign (w.pyr i) (w.pyr j) w.mem
    some ⟨r.1, Function.update w.pyr i r.2⟩
  | .copyConstruct i j => some { w with pyr := Function.update w.pyr i (w.pyr j) }

/-- A history of operations (include/rovio/ImagePyramid.hpp:70-105). -/
noncomputable def run (L : ℕ) : World → List Op → Option World
  | w, [] => some w
  | w, o :: os => do run L (← step L w o) os

/-- No pyramid holds an image yet (include/rovio/ImagePyramid.hpp:70). -/
def start (L : ℕ) : World := ⟨⟨fun _ _ _ => 0, 0⟩, fun _ => List.replicate L (none, 0)⟩

end Rovio.SharedImages
