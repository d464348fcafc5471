import Verif.Model.Scene3D
import Verif.Model.FilterState
import Verif.Model.FeatureStatistics

/-!
# Model of `include/rovio/RovioScene.hpp`: the filter's contents in the 3D view

Follows the conventions of `Verif/Model/Scene3D.lean` (graphics library), `Verif/Model/Draw.lean` (drawing of patches) and
`Verif/Model/FeatureCoordinates.lean` (caches of coordinates, `junk` the uninitialised members of a temporary object).  `float` and `double` are
real.  `fsm_.features_[i].mpCoordinates_` and `state_.CfP(i)` are the same object (src of this: include/rovio/FilterStates.hpp:174-180).
-/

namespace Rovio.RovioScene

open Rovio.Scene3D Rovio.Distance Rovio.Stat
open Rovio.Draw (Canvas texture drawTexture)

/-- What `drawScene` reads of a filter state, include/rovio/RovioScene.hpp:114-228: the state, the variance of the distance parameter of each
feature (`cov(getId<_fea>(i)+2, getId<_fea>(i)+2)`, 143), the feature slots and `plotPoseMeas_`. -/
structure Snapshot (n nCam nPose : ℕ) where
  state : State n nCam nPose
  var : Fin n → ℝ
  valid : Fin n → Bool
  stat : Fin n → FeatureStatistics nCam
  mlp : Fin n → MLP
  plotPoseMeas : Bool

variable {n nCam nPose : ℕ}

/-- The caches of feature `i` after its coordinates were queried (`mutable` members). -/
def Snapshot.cache (S : Snapshot n nCam nPose) (i : Fin n) (c : FC) : Snapshot n nCam nPose :=
  { S with state := { S.state with fea := Function.update S.state.fea i { S.state.fea i with c := c } } }

/-- Data members, include/rovio/RovioScene.hpp:45-51, and the two ground planes created at 69-78. -/
structure Display (n nCam : ℕ) where
  patch : Canvas
  plane1 : Obj
  plane2 : Obj
  sensor : Fin nCam → Obj
  lines : Fin nCam → Obj
  depth : Fin nCam → Obj
  groundtruth : Obj
  patches : Fin n → Obj

/-- The objects in the order of their creation, include/rovio/RovioScene.hpp:69-104 (`mSceneObjects_`). -/
def Display.objects (V : Display n nCam) : List Obj :=
  [V.plane1, V.plane2] ++ (List.finRange nCam).flatMap (fun c => [V.sensor c, V.lines c, V.depth c]) ++ [V.groundtruth] ++
    (List.finRange n).map V.patches

/-- A ground plane, include/rovio/RovioScene.hpp:69-78. -/
noncomputable def plane (l : ℝ) (N : ℕ) (grey width : ℝ) : Obj :=
  { (Obj.new.makeGroundPlaneMesh l N).setColorFull ⟨grey, grey, grey, 1⟩ with lineWidth := width, pos := ⟨0, 0, -1⟩ }

/-- A camera's frame, include/rovio/RovioScene.hpp:80-82. -/
noncomputable def frame : Obj := { Obj.new.makeCoordinateFrame 1 with lineWidth := 5 }

/-- An empty set of segments, include/rovio/RovioScene.hpp:84-92. -/
noncomputable def emptyLines (width : ℝ) : Obj := { Obj.new.makeLine [] with lineWidth := width, mode := .lines }

/-- The frame of the pose measurement, include/rovio/RovioScene.hpp:94-101: darker than the others. -/
noncomputable def darkFrame : Obj :=
  Obj.allocateBuffer { frame with verts := frame.verts.mapIdx fun k v => { v with color := Obj.axisColor (k / 2) 0.6 } }

/-- Constructor and `initScene`, include/rovio/RovioScene.hpp:52-107, without the view point (`setView`, `setYDown`: see `Scene3D`). -/
noncomputable def initScene (n nCam p L : ℕ) : Display n nCam :=
  { patch := texture p L
    plane1 := plane 0.25 40 0.6 1
    plane2 := plane 1 10 0.8 3
    sensor := fun _ => frame
    lines := fun _ => emptyLines 2
    depth := fun _ => emptyLines 3
    groundtruth := darkFrame
    patches := fun _ => Obj.new.initTexture (p * 2 ^ (L - 1)) (p * 2 ^ (L - 1)) }

/-- The two ends of the depth segment, include/rovio/RovioScene.hpp:142-149: `d_far`, `d_near`. -/
noncomputable def depthRange (d : FeatureDistance) (sigma : ℝ) : ℝ × ℝ :=
  let d1 : FeatureDistance := { d with p := d.p - sigma }
  let far := getDistance d1
  let far := if d1.type = .inverse ∧ (far > 1000 ∨ far ≤ 0) then 1000 else far
  let d2 : FeatureDistance := { d1 with p := d1.p + 2 * sigma }
  (far, getDistance d2)

/-- The half side of the drawn patch, include/rovio/RovioScene.hpp:152. -/
noncomputable def halfSide (p L : ℕ) : ℝ := p * (2 : ℝ) ^ ((L : ℤ) - 2)

/-- One corner, include/rovio/RovioScene.hpp:159: `x`, `y` are 0 or 1. -/
noncomputable def cornerVec (junk : FC) (s dist : ℝ) (c : FC) (x y : ℕ) : Option (FC × V3) := do
  let (c, k) ← c.getPatchCorner junk (s * (2 * x - 1)) (s * (2 * y - 1))
  let (_, nor) ← k.getNor
  return (c, dist • nor.vec)

/-- The four corners in loop order, include/rovio/RovioScene.hpp:157-161; the result is `cornerVec[0], …, cornerVec[3]`. -/
noncomputable def corners (junk : FC) (s dist : ℝ) (c : FC) : Option (FC × V3 × V3 × V3 × V3) := do
  let (c, k0) ← cornerVec junk s dist c 0 0
  let (c, k2) ← cornerVec junk s dist c 0 1
  let (c, k1) ← cornerVec junk s dist c 1 0
  let (c, k3) ← cornerVec junk s dist c 1 1
  return (c, k0, k1, k2, k3)

/-- The colour of a feature, include/rovio/RovioScene.hpp:177-196: green, red or grey. -/
noncomputable def colorOf (f : FeatureStatistics nCam) : V4 :=
  if trackedInSomeFrame f then ⟨0, 1, 0, 1⟩ else if inSomeFrame f then ⟨1, 0, 0, 1⟩ else ⟨0.5, 0.5, 0.5, 1⟩

/-- Colouring the last `k` vertices through reverse iterators, include/rovio/RovioScene.hpp:178-182 (the buffers are not touched). -/
def colorLast (o : Obj) (k : ℕ) (c : V4) : Obj :=
  { o with verts := o.verts.take (o.verts.length - k) ++ (o.verts.drop (o.verts.length - k)).map fun v => { v with color := c } }

/-- Overwriting the positions of the first vertices, include/rovio/RovioScene.hpp:202-206. -/
def setPositions (o : Obj) (ps : List V3) : Obj :=
  { o with verts := o.verts.mapIdx fun k v => match ps[k]? with
      | some q => { v with pos := q }
      | none => v }

/-- The end of the loop body, include/rovio/RovioScene.hpp:211-216. -/
def place (V : Display n nCam) (cam : Fin nCam) : Display n nCam :=
  { V with
    lines := Function.update V.lines cam (Obj.allocateBuffer { V.lines cam with pos := (V.sensor cam).pos, q := (V.sensor cam).q })
    depth := Function.update V.depth cam (Obj.allocateBuffer { V.depth cam with pos := (V.sensor cam).pos, q := (V.sensor cam).q }) }

/-- Drawing a feature whose warp is known, include/rovio/RovioScene.hpp:157-210. -/
noncomputable def drawFeature (p L : ℕ) (junk : FC) (cam : Fin nCam) (V : Display n nCam) (S : Snapshot n nCam nPose) (i : Fin n) (c : FC)
    (middle : Nor) : Option (Display n nCam × Snapshot n nCam nPose) := do
  let d := (S.state.fea i).d
  let range := depthRange d (S.var i)
  let (c, k0, k1, k2, k3) ← corners junk (halfSide p L) (getDistance d) c
  let lines := [k0, k1, k1, k3, k3, k2, k2, k0].foldl Obj.prolonge1 (V.lines cam)
  let depth := [range.1 • middle.vec, range.2 • middle.vec].foldl Obj.prolonge1 (V.depth cam)
  let color := colorOf (S.stat i)
  let o := (V.patches i).clear.makeTexturedRectangle 1 1
  let patch ← drawTexture p L V.patch (S.mlp i)
  let o ← o.setTexture patch
  let o := (setPositions o [k0, k1, k2, k3]).allocateBuffer
  return ({ V with
    patch := patch
    lines := Function.update V.lines cam (colorLast lines 8 color)
    depth := Function.update V.depth cam (colorLast depth 2 color)
    patches := Function.update V.patches i { o with pos := (V.sensor cam).pos, q := (V.sensor cam).q } }, S.cache i c)

/-- The loop body for feature `i` in camera `cam`, include/rovio/RovioScene.hpp:139-217; `continue` (155) leaves out `place`. -/
noncomputable def feature (p L : ℕ) (junk : FC) (cam : Fin nCam) (VS : Display n nCam × Snapshot n nCam nPose) (i : Fin n) :
    Option (Display n nCam × Snapshot n nCam nPose) :=
  let (V, S) := VS
  if S.valid i ∧ (S.state.fea i).c.camID = cam.val then do
    let V := { V with patches := Function.update V.patches i { V.patches i with draw := true } }
    let (c, middle) ← (S.state.fea i).c.getNor
    let (c, b) ← c.comWarpNor
    if b then
      let (V, S) ← drawFeature p L junk cam V S i c middle
      return (place V cam, S)
    else return ({ V with patches := Function.update V.patches i { V.patches i with draw := false } }, S.cache i c)
  else some (place V cam, S)

/-- The loop body for a camera, include/rovio/RovioScene.hpp:130-218. -/
noncomputable def camera (p L : ℕ) (junk : FC) (VS : Display n nCam × Snapshot n nCam nPose) (cam : Fin nCam) :
    Option (Display n nCam × Snapshot n nCam nPose) :=
  let (V, S) := VS
  let V := { V with
    sensor := Function.update V.sensor cam { V.sensor cam with pos := S.state.WrWC cam, q := S.state.qCW cam }
    lines := Function.update V.lines cam (V.lines cam).clear
    depth := Function.update V.depth cam (V.depth cam).clear }
  (List.finRange n).foldlM (feature p L junk cam) (V, S)

/-- `drawScene`, include/rovio/RovioScene.hpp:113-219, with the pose measurement of include/rovio/FilterStates.hpp:402-417.  Also returns the
filter state, whose caches are written. -/
noncomputable def drawScene (p L : ℕ) (junk : FC) (V : Display n nCam) (S : Snapshot n nCam nPose) :
    Option (Display n nCam × Snapshot n nCam nPose) :=
  let V := { V with
    groundtruth := if S.plotPoseMeas then { V.groundtruth with q := S.state.aux.poseMeasRot, pos := S.state.aux.poseMeasLin, draw := true }
      else { V.groundtruth with draw := false }
    patches := fun i => { V.patches i with draw := false } }
  (List.finRange nCam).foldlM (camera p L junk) (V, S)

/-- A run of the idle function (src/rovio_node.cpp:82-85): the scene is drawn from the current filter state again and again. -/
noncomputable def drawAll (p L : ℕ) (junk : FC) (V : Display n nCam) : List (Snapshot n nCam nPose) → Option (Display n nCam)
  | [] => some V
  | S :: Ss => do
    let (V, _) ← drawScene p L junk V S
    drawAll p L junk V Ss

end Rovio.RovioScene
