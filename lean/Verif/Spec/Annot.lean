import Verif.Model.Annot
import Verif.Spec.Draw

/-! # Specification: what the debugging pictures say of a feature (C115) -/

namespace Rovio.Annot.Spec

open Stat

/-- Green, with brightness `b` (channels in the order of OpenCV: blue, green, red). -/
def green (b : ℕ) : Colour := ⟨0, b, 0⟩

/-- Red, with brightness `b`. -/
def red (b : ℕ) : Colour := ⟨0, 0, b⟩

/-- The pixel in row `y` and column `x` lies on the rim of the cell of feature `id` and its patch after the update in camera `cam`, for cells of side `s`. -/
def OnRim (s id cam y x : ℕ) : Prop :=
  y / s = id ∧ x / s = 2 + 2 * cam ∧ (y % s = 0 ∨ y % s = s - 1 ∨ x % s = 0 ∨ x % s = s - 1)

/-- The status a frame shows for the feature and camera, if the drawing is one. -/
def verdictOf (id cam : ℕ) : Mark → Option Status
  | .frame i c st => if i = id ∧ c = cam then some st else none
  | .patch _ => none

/-- The last status shown for a feature and camera. -/
def lastVerdict (ms : List Mark) (id cam : ℕ) : Option Status := (ms.filterMap (verdictOf id cam)).getLast?

/-- The patches among the drawings. -/
def patchOf? : Mark → Option Draw.Call
  | .patch c => some c
  | .frame _ _ _ => none

/-- The byte of channel `k` (blue, green, red) of the rim: green for a tracked feature, red for one that was not, black as long as nothing was drawn. -/
def rimByte : Option Status → ℕ → ℕ
  | none, _ => 0
  | some .tracked, k => if k = 1 then 255 else 0
  | some _, k => if k = 2 then 255 else 0

end Rovio.Annot.Spec
