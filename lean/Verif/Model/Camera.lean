import Verif.Model.Geom
import Mathlib.Analysis.SpecialFunctions.Trigonometric.ArctanDeriv

/-!
# Model of `src/Camera.cpp` / `include/rovio/Camera.hpp`

Doubles are reals; the `static_cast<float>` of the pixel at Camera.cpp:256-257, 277-278 is the
identity here.  Loading (16-80) is in `Model/Calibration.lean`; here the parameters are arbitrary reals.
-/

namespace Rovio

/-- `Camera::ModelType`, include/rovio/Camera.hpp:42-46. -/
inductive CamType where
  | radtan
  | equidist
  | ds
deriving DecidableEq

/-- Data members of `Camera` that the functions below read, include/rovio/Camera.hpp:46-54:
`fx = K_(0,0)`, `cx = K_(0,2)`, `fy = K_(1,1)`, `cy = K_(1,2)` (the skew `K_(0,1)` is loaded at
Camera.cpp:19 but never used by any function). -/
structure Camera where
  type : CamType
  fx : ℝ
  cx : ℝ
  fy : ℝ
  cy : ℝ
  k1 : ℝ
  k2 : ℝ
  k3 : ℝ
  k4 : ℝ
  p1 : ℝ
  p2 : ℝ

namespace Camera

/-- Constructor, Camera.cpp:6-12: a pinhole camera with identity intrinsics. -/
noncomputable def default' : Camera :=
  { type := .radtan, fx := 1, cx := 0, fy := 1, cy := 0, k1 := 0, k2 := 0, k3 := 0, k4 := 0, p1 := 0, p2 := 0 }

variable (C : Camera)

/-- `distortRadtan(in,out)`, Camera.cpp:82-90. -/
def distortRadtan (i : V2) : V2 :=
  let x2 := i.x * i.x
  let y2 := i.y * i.y
  let xy := i.x * i.y
  let r2 := x2 + y2
  let kr := 1 + ((C.k3 * r2 + C.k2) * r2 + C.k1) * r2
  ⟨i.x * kr + C.p1 * 2 * xy + C.p2 * (r2 + 2 * x2),
   i.y * kr + C.p1 * (r2 + 2 * y2) + C.p2 * 2 * xy⟩

/-- `distortRadtan(in,out,J)`, Camera.cpp:92-104. -/
def distortRadtanJ (i : V2) : V2 × M2 :=
  let x2 := i.x * i.x
  let y2 := i.y * i.y
  let xy := i.x * i.y
  let r2 := x2 + y2
  let kr := 1 + ((C.k3 * r2 + C.k2) * r2 + C.k1) * r2
  let j01 := 2.0 * C.k1 * xy + 4.0 * C.k2 * xy * r2 + 6.0 * C.k3 * xy * r2 * r2 + 2 * C.p1 * i.x + 2 * C.p2 * i.y
  (⟨i.x * kr + C.p1 * 2 * xy + C.p2 * (r2 + 2 * x2),
    i.y * kr + C.p1 * (r2 + 2 * y2) + C.p2 * 2 * xy⟩,
   ⟨kr + 2.0 * C.k1 * x2 + 4.0 * C.k2 * x2 * r2 + 6.0 * C.k3 * x2 * r2 * r2 + 2.0 * C.p1 * i.y + 6.0 * C.p2 * i.x,
    j01, j01,
    kr + 2.0 * C.k1 * y2 + 4.0 * C.k2 * y2 * r2 + 6.0 * C.k3 * y2 * r2 * r2 + 6.0 * C.p1 * i.y + 2.0 * C.p2 * i.x⟩)

/-- `distortEquidist(in,out)`, Camera.cpp:106-127. -/
noncomputable def distortEquidist (i : V2) : V2 :=
  let x2 := i.x * i.x
  let y2 := i.y * i.y
  let r := Real.sqrt (x2 + y2)
  if r < 1e-8 then i
  else
    let th := Real.arctan r
    let th2 := th * th
    let th4 := th2 * th2
    let th6 := th2 * th4
    let th8 := th2 * th6
    let thd := th * (1.0 + C.k1 * th2 + C.k2 * th4 + C.k3 * th6 + C.k4 * th8)
    let s := thd / r
    ⟨i.x * s, i.y * s⟩

/-- `distortEquidist(in,out,J)`, Camera.cpp:129-162. -/
noncomputable def distortEquidistJ (i : V2) : V2 × M2 :=
  let x2 := i.x * i.x
  let y2 := i.y * i.y
  let r := Real.sqrt (x2 + y2)
  if r < 1e-8 then (i, M2.one)
  else
    let r_x := 1 / r * i.x
    let r_y := 1 / r * i.y
    let th := Real.arctan r
    let th_r := 1 / (r * r + 1)
    let th2 := th * th
    let th4 := th2 * th2
    let th6 := th2 * th4
    let th8 := th2 * th6
    let thd := th * (1.0 + C.k1 * th2 + C.k2 * th4 + C.k3 * th6 + C.k4 * th8)
    let thd_th := 1.0 + 3 * C.k1 * th2 + 5 * C.k2 * th4 + 7 * C.k3 * th6 + 9 * C.k4 * th8
    let s := thd / r
    let s_r := thd_th * th_r / r - thd / (r * r)
    (⟨i.x * s, i.y * s⟩, ⟨s + i.x * s_r * r_x, i.x * s_r * r_y, i.y * s_r * r_x, s + i.y * s_r * r_y⟩)

/-- The denominator of the double-sphere scaling, Camera.cpp:175-177 (194-196). -/
noncomputable def dsDen (i : V2) : ℝ :=
  let x2 := i.x * i.x
  let y2 := i.y * i.y
  let d1 := Real.sqrt (x2 + y2 + 1.0)
  let d2 := Real.sqrt (x2 + y2 + (C.k1 * d1 + 1.0) * (C.k1 * d1 + 1.0))
  C.k2 * d2 + (1 - C.k2) * (C.k1 * d1 + 1.0)

/-- `distortDoubleSphere(in,out)`, Camera.cpp:164-181.  Where the denominator vanishes the C++ code
produces infinities; theorems exclude that case explicitly. -/
noncomputable def distortDoubleSphere (i : V2) : V2 :=
  let x2 := i.x * i.x
  let y2 := i.y * i.y
  if x2 + y2 < 1e-16 then i
  else
    let scaling := 1.0 / C.dsDen i
    ⟨i.x * scaling, i.y * scaling⟩

/-- `distortDoubleSphere(in,out,J)`, Camera.cpp:183-210. -/
noncomputable def distortDoubleSphereJ (i : V2) : V2 × M2 :=
  let x2 := i.x * i.x
  let y2 := i.y * i.y
  if x2 + y2 < 1e-16 then (i, M2.one)
  else
    let d1 := Real.sqrt (x2 + y2 + 1.0)
    let d2 := Real.sqrt (x2 + y2 + (C.k1 * d1 + 1.0) * (C.k1 * d1 + 1.0))
    let s := 1.0 / C.dsDen i
    let d1dx := i.x / d1
    let d1dy := i.y / d1
    let d2dx := (i.x + d1dx * C.k1 * (d1 * C.k1 + 1.0)) / d2
    let d2dy := (i.y + d1dy * C.k1 * (d1 * C.k1 + 1.0)) / d2
    (⟨i.x * s, i.y * s⟩,
     ⟨-i.x * (d2dx * C.k2 - d1dx * C.k1 * (C.k2 - 1.0)) * s * s + s,
      -s * s * i.x * (d2dy * C.k2 - d1dy * C.k1 * (C.k2 - 1.0)),
      -s * s * i.y * (d2dx * C.k2 - d1dx * C.k1 * (C.k2 - 1.0)),
      -i.y * (d2dy * C.k2 - d1dy * C.k1 * (C.k2 - 1.0)) * s * s + s⟩)

/-- `distort(in,out)`, Camera.cpp:212-227. -/
noncomputable def distort (i : V2) : V2 :=
  match C.type with
  | .radtan => C.distortRadtan i
  | .equidist => C.distortEquidist i
  | .ds => C.distortDoubleSphere i

/-- `distort(in,out,J)`, Camera.cpp:229-244. -/
noncomputable def distortJ (i : V2) : V2 × M2 :=
  match C.type with
  | .radtan => C.distortRadtanJ i
  | .equidist => C.distortEquidistJ i
  | .ds => C.distortDoubleSphereJ i

/-- `bearingToPixel(vec,c)`, Camera.cpp:246-259; `none` is the return value `false` (in which case
`c` is left untouched). -/
noncomputable def bearingToPixel (v : V3) : Option V2 :=
  if v.z ≤ 0 then none
  else
    let distorted := C.distort ⟨v.x / v.z, v.y / v.z⟩
    some ⟨C.fx * distorted.x + C.cx, C.fy * distorted.y + C.cy⟩

/-- A 2x3 matrix given by its rows. -/
structure M23 where
  r1 : V3
  r2 : V3

/-- 2x3 matrix times vector. -/
def M23.mulVec (m : M23) (v : V3) : V2 := ⟨m.r1.dot v, m.r2.dot v⟩

/-- `bearingToPixel(vec,c,J)`, Camera.cpp:261-286: `J = J3*J2*J1` written out. -/
noncomputable def bearingToPixelJ (v : V3) : Option (V2 × M23) :=
  if v.z ≤ 0 then none
  else
    let dJ := C.distortJ ⟨v.x / v.z, v.y / v.z⟩
    let distorted := dJ.1
    let J2 := dJ.2
    let J1r1 : V3 := ⟨1.0 / v.z, 0, -v.x / v.z ^ 2⟩
    let J1r2 : V3 := ⟨0, 1.0 / v.z, -v.y / v.z ^ 2⟩
    some (⟨C.fx * distorted.x + C.cx, C.fy * distorted.y + C.cy⟩,
      ⟨C.fx • (J2.a • J1r1 + J2.b • J1r2), C.fy • (J2.c • J1r1 + J2.d • J1r2)⟩)

/-- `bearingToPixel(NormalVectorElement,c)`, Camera.cpp:288-290. -/
noncomputable def bearingToPixelN (n : Nor) : Option V2 := C.bearingToPixel n.vec

/-- `bearingToPixel(NormalVectorElement,c,J)`, Camera.cpp:292-299: `J = J2*getM()`, given by its
columns.  (On failure the C++ code multiplies an uninitialised `J2`; the caller get_J discards it.) -/
noncomputable def bearingToPixelNJ (n : Nor) : Option (V2 × M2) :=
  match C.bearingToPixelJ n.vec with
  | none => none
  | some (c, J2) =>
    let col1 := J2.mulVec (n.M ⟨1, 0⟩)
    let col2 := J2.mulVec (n.M ⟨0, 1⟩)
    some (c, ⟨col1.x, col2.x, col1.y, col2.y⟩)

/-- Outcome of the back-projection: `fail` = returned `false`; `nonfinite` = returned `true` with a
non-finite bearing; `ok` = returned `true` with that bearing. -/
inductive PBResult where
  | fail
  | nonfinite
  | ok (v : V3)

/-- The Gauss-Newton loop of `pixelToBearing`, Camera.cpp:316-325, with `fuel` iterations left.
`ybar = none` models a non-finite iterate: from then on all comparisons are false.
`(JᵀJ).inverse()` is non-finite when `det (JᵀJ) = 0`, i.e. `det J = 0`.
Returns `none` when the loop ends without success, `some ybar` (after the update) on success. -/
noncomputable def gnLoop (y : V2) : ℕ → Option V2 → Option (Option V2)
  | 0, _ => none
  | fuel + 1, none => gnLoop y fuel none
  | fuel + 1, some ybar =>
    let dJ := C.distortJ ybar
    let e := y - dJ.1
    let J := dJ.2
    let JtJ := J.tr.mul J
    let next : Option V2 :=
      if JtJ.det = 0 then none else some (ybar + (JtJ.inv.mul J.tr).mulVec e)
    if e.dot e ≤ 1e-10 then some next else gnLoop y fuel next

/-- `pixelToBearing(c,vec)`, Camera.cpp:301-331 (`max_iter = 100`).  A zero focal length gives
non-finite `y`, hence failure. -/
noncomputable def pixelToBearing (c : V2) : PBResult :=
  if C.fx = 0 ∨ C.fy = 0 then .fail
  else
    let y : V2 := ⟨(c.x - C.cx) / C.fx, (c.y - C.cy) / C.fy⟩
    match C.gnLoop y 100 (some y) with
    | none => .fail
    | some none => .nonfinite
    | some (some yb) => .ok (V3.normalized ⟨yb.x, yb.y, 1⟩)

end Camera

end Rovio
