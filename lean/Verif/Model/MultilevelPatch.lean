import Verif.Model.Patch

/-!
# Model of `include/rovio/MultilevelPatch.hpp`

The drawing functions are modelled in `Verif/Model/Draw.lean`.  Arrays over levels are functions of the level; an access
beyond the last level is undefined (`none`) through the pyramid access.
-/

namespace Rovio

/-- Data members, include/rovio/MultilevelPatch.hpp:48-53. -/
structure MLP where
  patches : ℕ → Patch
  isValidPatch : ℕ → Bool
  H : M3
  e0 : ℝ
  e1 : ℝ
  s : ℝ

namespace MLP

/-- `reset` (also the constructor), include/rovio/MultilevelPatch.hpp:57-59, 70-78. -/
def reset (m : MLP) : MLP :=
  { m with H := M3.one, e0 := 0, e1 := 0, s := 0, isValidPatch := fun _ => false }

/-- The loop of `computeMultilevelShiTomasiScore`, include/rovio/MultilevelPatch.hpp:88-93, over the
given levels; carries the patches (whose gradient parameters are computed on the fly), `H_` and
`count`. -/
noncomputable def scoreLoop (p : ℕ) (valid : ℕ → Bool) :
    List ℕ → (ℕ → Patch) × M3 × ℕ → (ℕ → Patch) × M3 × ℕ
  | [], a => a
  | i :: is, (ps, H, count) =>
    if valid i then
      let (pi, Hi) := (ps i).getHessian p
      scoreLoop p valid is (Function.update ps i pi, H + ((0.25 : ℝ) ^ i) • Hi, count + 1)
    else scoreLoop p valid is (ps, H, count)

/-- `computeMultilevelShiTomasiScore(l1,l2)`, include/rovio/MultilevelPatch.hpp:85-106. -/
noncomputable def computeMultilevelShiTomasiScore (p : ℕ) (m : MLP) (l1 l2 : ℕ) : MLP :=
  let (ps, H, count) := scoreLoop p m.isValidPatch (List.range' l1 (l2 + 1 - l1)) (m.patches, 0, 0)
  if count > 0 then
    let dXX := H.r1.x / (count * p * p)
    let dYY := H.r2.y / (count * p * p)
    let dXY := H.r1.y / (count * p * p)
    let e0 := Patch.eig0 dXX dYY dXY
    let e1 := Patch.eig1 dXX dYY dXY
    { m with patches := ps, H := H, e0 := e0, e1 := e1, s := e0 + e1 }
  else { m with patches := ps, H := H, e0 := 0, e1 := 0, s := -1 }

/-- `getSpecificLevelScore`, include/rovio/MultilevelPatch.hpp:112-118. -/
noncomputable def getSpecificLevelScore (p : ℕ) (m : MLP) (l : ℕ) : MLP :=
  if m.isValidPatch l then
    let (pl, s) := (m.patches l).getScore p
    { m with patches := Function.update m.patches l pl, s := s }
  else { m with s := -1 }

/-- The differences visited by the loops of `computeAverageDifference`, in loop order,
include/rovio/MultilevelPatch.hpp:157-165. -/
def differences (p : ℕ) (m n : MLP) (l1 l2 : ℕ) : List ℝ :=
  (List.range' l1 (l2 + 1 - l1)).flatMap fun l =>
    (List.range (p * p)).map fun k => (m.patches l).patch k - (n.patches l).patch k

/-- `computeAverageDifference`, include/rovio/MultilevelPatch.hpp:155-179. -/
noncomputable def computeAverageDifference (p : ℕ) (m n : MLP) (l1 l2 : ℕ) : ℝ :=
  let ds := differences p m n l1 l2
  let cnt : ℝ := (p : ℝ) * p * ((l2 : ℝ) - l1 + 1)
  let offset := ds.foldl (fun o d => o + d) 0 / cnt
  let error := ds.foldl (fun e d => e + (d - offset) ^ 2) 0 / cnt
  Real.sqrt error

/-- `isMultilevelPatchInFrame`, include/rovio/MultilevelPatch.hpp:190-194. -/
noncomputable def isMultilevelPatchInFrame (p : ℕ) (junk : FC) (pyr : List Level) (c : FC) (l : ℕ)
    (wb : Bool) : Option (FC × Bool) :=
  if !c.isInFront then some (c, false)
  else do
    let (c, b) ← c.comWarpC
    if !b then return (c, false)
    let (c, coorTemp) ← levelTransform junk pyr c 0 l
    let lvl ← pyr[l]?
    let (_, r) ← Patch.isPatchInFrame p lvl.img coorTemp wb
    return (c, r)

/-- Body of the loop of `extractMultilevelPatchFromImage`, include/rovio/MultilevelPatch.hpp:206-208. -/
noncomputable def extractLevel (p : ℕ) (junk : FC) (pyr : List Level) (wb : Bool) (cm : FC × MLP)
    (i : ℕ) : Option (FC × MLP) := do
  let (c, m) := cm
  let (c, coorTemp) ← levelTransform junk pyr c 0 i
  let lvl ← pyr[i]?
  let (_, pi) ← Patch.extractPatchFromImage p (m.patches i) lvl.img coorTemp wb
  return (c, { m with isValidPatch := Function.update m.isValidPatch i true
                      patches := Function.update m.patches i pi })

/-- `extractMultilevelPatchFromImage`, include/rovio/MultilevelPatch.hpp:204-210. -/
noncomputable def extractMultilevelPatchFromImage (p : ℕ) (junk : FC) (m : MLP) (pyr : List Level)
    (c : FC) (l : ℕ) (wb : Bool) : Option (FC × MLP) :=
  (List.range (l + 1)).foldlM (extractLevel p junk pyr wb) (c, m)

end MLP

end Rovio
