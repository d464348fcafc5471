import Verif.Model.Camera
import Mathlib.Analysis.SpecialFunctions.Trigonometric.Inverse
import Mathlib.Analysis.SpecialFunctions.Complex.Arg

/-!
# Model of `src/FeatureCoordinates.cpp`, `include/rovio/FeatureCoordinates.hpp` and of the state
element operations of `include/rovio/RobocentricFeatureElement.hpp`

`mutable` members written by `const` functions are part of the state, so every query returns the new
state.  `none` is undefined behaviour / a failed `assert`: dereferencing a null camera pointer.
The `float` casts of the warp (`.cast<float>()`) are the identity.  Scratch members
(`matrix2dTemp_`, `fullPivLU2d_`, `norTemp_`) and the drawing functions are not modelled; the
uncertainty members set by `setPixelCov` are modelled separately below.  The error messages printed
by the getters are not observable results and are dropped.
`get_warp_c`/`get_warp_nor` hand out mutable references; writing through them is not modelled.
-/

namespace Rovio

/-- What the coordinates object uses of its camera (`mpCamera_`): the bearing overloads of
src/Camera.cpp:288-299 and 333-338.  `p2b` returns the bearing written into the output argument and
the success flag; on failure the bearing written is unspecified (it is computed from an uninitialised
vector, Camera.cpp:333-338). -/
structure CamI where
  b2p : Nor → Option V2
  b2pJ : Nor → Option (V2 × M2)
  p2b : V2 → Nor × Bool

/-- The real camera as such an interface.  `setFromVector` (LWF, not in the repository) and the
unspecified bearings written on failure / from non-finite vectors are parameters. -/
noncomputable def Camera.toI (C : Camera) (setFromVector : V3 → Nor) (garbage : V2 → Nor) : CamI where
  b2p := C.bearingToPixelN
  b2pJ := C.bearingToPixelNJ
  p2b := fun c => match C.pixelToBearing c with
    | .ok v => (setFromVector v, true)
    | .nonfinite => (garbage c, true)
    | .fail => (garbage c, false)

/-- Data members, include/rovio/FeatureCoordinates.hpp:69-91. -/
structure FC where
  cam : Option CamI
  c : V2
  validC : Bool
  nor : Nor
  validNor : Bool
  camID : ℤ
  warpC : M2
  validWarpC : Bool
  warpNor : M2
  validWarpNor : Bool
  isWarpIdentity : Bool
  trackWarping : Bool

namespace FC

/-- `set_warp_identity`, src/FeatureCoordinates.cpp:166-171. -/
def setWarpIdentity (s : FC) : FC :=
  { s with warpC := M2.one, validWarpC := true, validWarpNor := false, isWarpIdentity := true }

/-- `resetCoordinates`, src/FeatureCoordinates.cpp:34-39. -/
def resetCoordinates (s : FC) : FC :=
  { setWarpIdentity { s with validC := false, validNor := false } with camID := -1 }

/-- Constructors, src/FeatureCoordinates.cpp:5-9, 27-30: members not listed keep whatever the memory
contained (`junk`). -/
def construct (junk : FC) (cam : Option CamI) : FC :=
  resetCoordinates { junk with cam := cam, trackWarping := false }

/-- Constructor from a pixel, src/FeatureCoordinates.cpp:11-17. -/
def constructPixel (junk : FC) (pixel : V2) : FC :=
  { construct junk none with c := pixel, validC := true }

/-- Constructor from a bearing, src/FeatureCoordinates.cpp:19-25. -/
def constructNor (junk : FC) (nor : Nor) : FC :=
  { construct junk none with nor := nor, validNor := true }

/-- `com_c`, src/FeatureCoordinates.cpp:41-49. -/
def comC (s : FC) : Option (FC × Bool) :=
  if s.validC then some (s, true)
  else match s.cam with
    | none => none
    | some cam =>
      if s.validNor then
        match cam.b2p s.nor with
        | some c => some ({ s with c := c, validC := true }, true)
        | none => some (s, false)
      else some (s, false)

/-- `get_c`, src/FeatureCoordinates.cpp:51-56. -/
def getC (s : FC) : Option (FC × V2) := do
  let (s, _) ← s.comC
  return (s, s.c)

/-- `com_nor`, src/FeatureCoordinates.cpp:58-66.  A failing `pixelToBearing` still overwrites `nor_`. -/
def comNor (s : FC) : Option (FC × Bool) :=
  if s.validNor then some (s, true)
  else match s.cam with
    | none => none
    | some cam =>
      if s.validC then
        let r := cam.p2b s.c
        some ({ s with nor := r.1, validNor := r.2 }, r.2)
      else some (s, false)

/-- `get_nor`, src/FeatureCoordinates.cpp:68-73. -/
def getNor (s : FC) : Option (FC × Nor) := do
  let (s, _) ← s.comNor
  return (s, s.nor)

/-- `get_J`, src/FeatureCoordinates.cpp:75-82: projects the bearing *into `c_`*; the matrix is zero
if the projection fails. -/
def getJ (s : FC) : Option (FC × M2) :=
  match s.cam with
  | none => none
  | some cam => do
    let (s, n) ← s.getNor
    match cam.b2pJ n with
    | some (c, J) => return ({ s with c := c }, J)
    | none => return (s, M2.zero)

/-- `set_c`, src/FeatureCoordinates.cpp:84-92. -/
def setC (s : FC) (c : V2) (resetWarp : Bool) : FC :=
  let s := { s with c := c, validC := true, validNor := false }
  if s.trackWarping && resetWarp then { s with validWarpC := false, validWarpNor := false } else s

/-- `set_nor`, src/FeatureCoordinates.cpp:94-102. -/
def setNor (s : FC) (nor : Nor) (resetWarp : Bool) : FC :=
  let s := { s with nor := nor, validNor := true, validC := false }
  if s.trackWarping && resetWarp then { s with validWarpC := false, validWarpNor := false } else s

/-- `com_warp_c`, src/FeatureCoordinates.cpp:104-113. -/
def comWarpC (s : FC) : Option (FC × Bool) :=
  if s.validWarpC then some (s, true)
  else if s.validWarpNor then do
    let (s, b) ← s.comC
    if !b then return (s, s.validWarpC)
    let (s, b) ← s.comNor
    if !b then return (s, s.validWarpC)
    let (s, J) ← s.getJ
    return ({ s with warpC := J.mul s.warpNor, validWarpC := true }, true)
  else some (s, false)

/-- `get_warp_c`, src/FeatureCoordinates.cpp:115-120. -/
def getWarpC (s : FC) : Option (FC × M2) := do
  let (s, _) ← s.comWarpC
  return (s, s.warpC)

/-- `com_warp_nor`, src/FeatureCoordinates.cpp:122-134.  `rank() == 2` of the full-pivot LU is
modelled as a non-zero determinant (exact arithmetic). -/
noncomputable def comWarpNor (s : FC) : Option (FC × Bool) :=
  if s.validWarpNor then some (s, true)
  else if s.validWarpC then do
    let (s, b) ← s.comC
    if !b then return (s, s.validWarpNor)
    let (s, b) ← s.comNor
    if !b then return (s, s.validWarpNor)
    let (s, J) ← s.getJ
    if J.det ≠ 0 then
      return ({ s with warpNor := J.inv.mul s.warpC, validWarpNor := true }, true)
    else return (s, s.validWarpNor)
  else some (s, false)

/-- `get_warp_nor`, src/FeatureCoordinates.cpp:136-141. -/
noncomputable def getWarpNor (s : FC) : Option (FC × M2) := do
  let (s, _) ← s.comWarpNor
  return (s, s.warpNor)

/-- `set_warp_c`, src/FeatureCoordinates.cpp:152-157. -/
def setWarpC (s : FC) (w : M2) : FC :=
  { s with warpC := w, validWarpC := true, validWarpNor := false, isWarpIdentity := false }

/-- `set_warp_nor`, src/FeatureCoordinates.cpp:159-164. -/
def setWarpNor (s : FC) (w : M2) : FC :=
  { s with warpNor := w, validWarpNor := true, validWarpC := false, isWarpIdentity := false }

/-- `isInFront`, src/FeatureCoordinates.cpp:173-175. -/
noncomputable def isInFront (s : FC) : Bool :=
  s.validC || (s.validNor && decide (0 < s.nor.vec.z))

/-- `isNearIdentityWarping`, src/FeatureCoordinates.cpp:177-179. -/
noncomputable def isNearIdentityWarping (s : FC) : Option (FC × Bool) :=
  if s.isWarpIdentity then some (s, true)
  else do
    let (s, b) ← s.comWarpC
    if !b then return (s, false)
    let (s, w) ← s.getWarpC
    return (s, decide (w.distOne < 1e-6))

/-- `get_patchCorner`, src/FeatureCoordinates.cpp:143-150: coordinates of a corner of the patch in
the direction `(x, y)`. -/
noncomputable def getPatchCorner (s : FC) (junk : FC) (x y : ℝ) : Option (FC × FC) := do
  let (s, w) ← s.getWarpNor
  let (s, n) ← s.getNor
  let temp := (construct junk none).setNor (n.boxPlus (w.mulVec ⟨x, y⟩)) true
  return (s, { temp with cam := s.cam, camID := s.camID })

/-- The bearing part of the filter's state increment, `RobocentricFeatureElement::boxPlus`,
include/rovio/RobocentricFeatureElement.hpp:60-68 (`stateOut` a copy of `*this`). -/
noncomputable def boxPlus (s : FC) (d : V2) : Option FC := do
  let (s, n) ← s.getNor
  return s.setNor (n.boxPlus d) false

/-! ### Histories -/

/-- The public operations on a coordinates object. -/
inductive Op where
  | setC (c : V2) (resetWarp : Bool)
  | setNor (n : Nor) (resetWarp : Bool)
  | setWarpC (w : M2)
  | setWarpNor (w : M2)
  | setWarpIdentity
  | resetCoordinates
  | comC
  | getC
  | comNor
  | getNor
  | getJ
  | comWarpC
  | getWarpC
  | comWarpNor
  | getWarpNor
  | isNearIdentityWarping

/-- Effect of one operation on the object (`none` = undefined behaviour). -/
noncomputable def step (s : FC) : Op → Option FC
  | .setC c r => some (s.setC c r)
  | .setNor n r => some (s.setNor n r)
  | .setWarpC w => some (s.setWarpC w)
  | .setWarpNor w => some (s.setWarpNor w)
  | .setWarpIdentity => some s.setWarpIdentity
  | .resetCoordinates => some s.resetCoordinates
  | .comC => s.comC.map Prod.fst
  | .getC => s.getC.map Prod.fst
  | .comNor => s.comNor.map Prod.fst
  | .getNor => s.getNor.map Prod.fst
  | .getJ => s.getJ.map Prod.fst
  | .comWarpC => s.comWarpC.map Prod.fst
  | .getWarpC => s.getWarpC.map Prod.fst
  | .comWarpNor => s.comWarpNor.map Prod.fst
  | .getWarpNor => s.getWarpNor.map Prod.fst
  | .isNearIdentityWarping => s.isNearIdentityWarping.map Prod.fst

/-- A finite history of operations. -/
noncomputable def run (s : FC) : List Op → Option FC
  | [] => some s
  | op :: ops => (s.step op).bind (run · ops)

/-! ### Triangulation -/

/-- `getDepthFromTriangulation`, src/FeatureCoordinates.cpp:218-232, on the two bearing vectors;
`none` is the return value `false`, `some d` the distance passed to `d.setParameter`. -/
noncomputable def depthFromTriangulation (v1 v2 : V3) (C2rC2C1 : V3) (qC2C1 : Quat) (minDistance : ℝ) : Option ℝ :=
  let C2v1 := qC2C1.rotate v1
  let C2v2 := v2
  let a := 1.0 - (C2v1.dot C2v2) ^ 2
  if a < 1e-6 then none
  else
    let distance := -C2v1.dot ((M3.one - M3.outer C2v2 C2v2).mulVec C2rC2C1) / a
    if distance < minDistance then none else some distance

/-- `getDepthUncertaintyTau`, src/FeatureCoordinates.cpp:241-257 (floats as reals). -/
noncomputable def depthUncertaintyTau (f t : V3) (d pxErrorAngle : ℝ) : ℝ :=
  let a : V3 := ⟨f.x * d - t.x, f.y * d - t.y, f.z * d - t.z⟩
  let tNorm := Real.sqrt (t.x * t.x + t.y * t.y + t.z * t.z)
  let aNorm := Real.sqrt (a.x * a.x + a.y * a.y + a.z * a.z)
  let alpha := Real.arccos ((f.x * t.x + f.y * t.y + f.z * t.z) / tNorm)
  let beta := Real.arccos ((a.x * (-t.x) + a.y * (-t.y) + a.z * (-t.z)) / (tNorm * aNorm))
  let betaPlus := beta + pxErrorAngle
  let gammaPlus := Real.pi - alpha - betaPlus
  let dPlus := tNorm * Real.sin betaPlus / Real.sin gammaPlus
  dPlus - d

/-! ### Pixel uncertainty -/

/-- The members written by `setPixelCov`, include/rovio/FeatureCoordinates.hpp:75-79. -/
structure PixelCov where
  sigma1 : ℝ
  sigma2 : ℝ
  sigmaAngle : ℝ
  eigenVector1 : V2
  eigenVector2 : V2

/-- `setPixelCov`, src/FeatureCoordinates.cpp:181-198.  The Eigen solver is a parameter: `l0,l1` are
its (real) eigenvalues and `e0,e1` its eigenvectors.  `std::atan2(y,x)` is the argument of `x+iy`. -/
noncomputable def setPixelCov (l0 l1 : ℝ) (e0 e1 : V2) : PixelCov :=
  let sigmaAngle := Complex.arg ⟨e0.x, e0.y⟩
  let sigma1 := Real.sqrt l0
  let sigma2 := Real.sqrt l1
  if sigma1 < sigma2 then
    { sigma1 := sigma2, sigma2 := sigma1, sigmaAngle := sigmaAngle + 0.5 * Real.pi, eigenVector1 := e1, eigenVector2 := e0 }
  else
    { sigma1 := sigma1, sigma2 := sigma2, sigmaAngle := sigmaAngle, eigenVector1 := e0, eigenVector2 := e1 }

end FC

end Rovio
