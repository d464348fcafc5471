import Verif.Model.SlotMemory

/-!
# Correct use of feature slots
-/

namespace Rovio.SlotMemory.Spec

/-- Is it a copy construction? -/
def IsCopyConstruction : Op → Prop
  | .copyConstruct _ _ => True
  | _ => False

/-- A state that a history without copy construction leads to. -/
def Reachable (w : World) : Prop := ∃ ops : List Op, (∀ o ∈ ops, ¬IsCopyConstruction o) ∧ run start ops = some w

/-- A slot without statistics: neither linked nor allocated so far. -/
def NoStatistics (w : World) (i : ℕ) : Prop := ∀ s, w.slot i = some s → s.mp .statistics = none

/-- What a program must not do: construct a slot where there is one, use one that does not exist, or assign when one of the two has no
statistics. -/
def Misuse (w : World) : Op → Prop
  | .construct i => w.slot i ≠ none
  | .link i _ _ => w.slot i = none
  | .allocateMissing i => w.slot i = none
  | .assign i j => NoStatistics w i ∨ NoStatistics w j
  | .destroy i => w.slot i = none
  | .copyConstruct _ _ => True

end Rovio.SlotMemory.Spec
