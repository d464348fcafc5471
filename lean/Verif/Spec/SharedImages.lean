import Verif.Model.SharedImages

/-!
# Pyramids as values

What a user expects of pyramids: each is a value of its own.
-/

namespace Rovio.SharedImages.Spec

/-- The values of the pyramids, by name: image, if any, and centre of each level. -/
abbrev Values := ℕ → List (Option Img × V2)

/-- The effect of an operation when every pyramid is a value of its own. -/
noncomputable def step (L : ℕ) (v : Values) : Op → Option Values
  | .construct i => some (Function.update v i (List.replicate L (none, 0)))
  | .compute i img useCv => (computeFromImage L img useCv).map fun p => Function.update v i (p.map fun l => (some l.img, l.center))
  | .assign i j => some (Function.update v i (v j))
  | .copyConstruct i j => some (Function.update v i (v j))

/-- A history of operations on values. -/
noncomputable def run (L : ℕ) : Values → List Op → Option Values
  | v, [] => some v
  | v, o :: os => (step L v o).bind fun v => run L v os

/-- Is it a copy construction? -/
def IsCopyConstruction : Op → Prop
  | .copyConstruct _ _ => True
  | _ => False

end Rovio.SharedImages.Spec
