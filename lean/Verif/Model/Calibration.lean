import Verif.Model.Camera
import Verif.Model.FilterState

/-!
# Model of the calibration loading in `src/Camera.cpp:16-80` and of `RovioFilter::refreshProperties`

A YAML file is modelled by the entries the code reads; a missing entry (or file) makes yaml-cpp throw (`none`; the state left
behind by the exception is not modelled, nothing in the repository catches it).  Console output is omitted.
-/

namespace Rovio

/-- The entries of a calibration file the code looks at (src/Camera.cpp:17-26, 33-37, 44-47, 54-59, 65-67). -/
structure CalibFile where
  model : String
  matrix : List ℝ
  coeffs : List ℝ
  radius : Option ℝ

/-- All members of `Camera` that loading writes, include/rovio/Camera.hpp:46-60; `radius = none` is
`std::numeric_limits<double>::max()`.  `k5_`, `k6_`, `s1_`..`s4_` are never written after construction nor read. -/
structure CamObj where
  type : CamType
  K : Fin 3 → Fin 3 → ℝ
  k1 : ℝ
  k2 : ℝ
  k3 : ℝ
  k4 : ℝ
  p1 : ℝ
  p2 : ℝ
  radius : Option ℝ

namespace CamObj

/-- The part of the object the projection functions read (src/Camera.cpp:256-257, 277-284, 311-312). -/
def cam (o : CamObj) : Camera :=
  { type := o.type, fx := o.K 0 0, cx := o.K 0 2, fy := o.K 1 1, cy := o.K 1 2, k1 := o.k1, k2 := o.k2, k3 := o.k3, k4 := o.k4, p1 := o.p1, p2 := o.p2 }

/-- Constructor, src/Camera.cpp:6-12. -/
def init : CamObj :=
  { type := .radtan, K := fun i j => if i = j then 1 else 0, k1 := 0, k2 := 0, k3 := 0, k4 := 0, p1 := 0, p2 := 0, radius := none }

/-- `loadCameraMatrix`, src/Camera.cpp:16-28. -/
def loadCameraMatrix (o : CamObj) (f : CalibFile) : Option CamObj := do
  let a ← f.matrix[0]?
  let b ← f.matrix[1]?
  let c ← f.matrix[2]?
  let d ← f.matrix[3]?
  let e ← f.matrix[4]?
  let g ← f.matrix[5]?
  let h ← f.matrix[6]?
  let i ← f.matrix[7]?
  let j ← f.matrix[8]?
  return { o with K := fun r s => ![![a, b, c], ![d, e, g], ![h, i, j]] r s }

/-- `loadRadtan`, src/Camera.cpp:30-39. -/
def loadRadtan (o : CamObj) (f : CalibFile) : Option CamObj := do
  let o ← o.loadCameraMatrix f
  let k1 ← f.coeffs[0]?
  let k2 ← f.coeffs[1]?
  let p1 ← f.coeffs[2]?
  let p2 ← f.coeffs[3]?
  let k3 ← f.coeffs[4]?
  return { o with k1 := k1, k2 := k2, p1 := p1, p2 := p2, k3 := k3 }

/-- `loadEquidist`, src/Camera.cpp:41-49. -/
def loadEquidist (o : CamObj) (f : CalibFile) : Option CamObj := do
  let o ← o.loadCameraMatrix f
  let k1 ← f.coeffs[0]?
  let k2 ← f.coeffs[1]?
  let k3 ← f.coeffs[2]?
  let k4 ← f.coeffs[3]?
  return { o with k1 := k1, k2 := k2, k3 := k3, k4 := k4 }

/-- `loadDoubleSphere`, src/Camera.cpp:51-62. -/
def loadDoubleSphere (o : CamObj) (f : CalibFile) : Option CamObj := do
  let o ← o.loadCameraMatrix f
  let k1 ← f.coeffs[0]?
  let k2 ← f.coeffs[1]?
  let o := { o with k1 := k1, k2 := k2 }
  match f.radius with
  | some r => return { o with radius := some r }
  | none => return o

/-- `load`, src/Camera.cpp:64-80. -/
def load (o : CamObj) (f : CalibFile) : Option CamObj :=
  if f.model = "plumb_bob" then { o with type := .radtan }.loadRadtan f
  else if f.model = "equidistant" then { o with type := .equidist }.loadEquidist f
  else if f.model = "ds" then { o with type := .ds }.loadDoubleSphere f
  else some o

end CamObj

/-- `LWF::FilteringMode` as used in include/rovio/RovioFilter.hpp:183-187. -/
inductive FilterMode where
  | ekf
  | iekf
deriving DecidableEq

/-- The members touched by `refreshProperties`, include/rovio/RovioFilter.hpp:72-74, 182-197: configuration on the left, what it
is applied to on the right. -/
structure FilterCfg (n nCam nPose : ℕ) where
  useDirect : Bool
  depthType : ℤ
  files : Fin nCam → String
  mode : FilterMode
  cams : Fin nCam → CamObj
  init : State n nCam nPose

/-- `optAll`-like evaluation of a loop over the cameras in which each iteration only writes its own camera. -/
def loadAll {nCam : ℕ} (disk : String → Option CalibFile) (files : Fin nCam → String) (cams : Fin nCam → CamObj) (c : Fin nCam) : Option CamObj :=
  if files c = "" then some (cams c) else (disk (files c)).bind (cams c).load

/-- `refreshProperties`, include/rovio/RovioFilter.hpp:182-197, with the files found on disk.  `none` if a file cannot be read. -/
def FilterCfg.refresh {n nCam nPose : ℕ} (disk : String → Option CalibFile) (x : FilterCfg n nCam nPose) : Option (FilterCfg n nCam nPose) :=
  if h : ∀ c, (loadAll disk x.files x.cams c).isSome then
    some { x with
      mode := if x.useDirect then .iekf else .ekf
      cams := fun c => (loadAll disk x.files x.cams c).get (h c)
      init := { x.init with fea := fun i => { x.init.fea i with d := Distance.setTypeInt (x.init.fea i).d x.depthType } } }
  else none

/-- Start of the node, src/rovio_node.cpp:97-112: `readFromInfo` (LWF: assigns the registered variables, here the record `x`
with the values of the info file, and calls `refreshProperties`), the calibration paths given as ROS parameters replace
those of the info file, and `refreshProperties` runs again. -/
def FilterCfg.startNode {n nCam nPose : ℕ} (disk : String → Option CalibFile) (ros : Fin nCam → Option String) (x : FilterCfg n nCam nPose) :
    Option (FilterCfg n nCam nPose) := do
  let x ← x.refresh disk
  FilterCfg.refresh disk { x with files := fun c => (ros c).getD (x.files c) }

end Rovio
