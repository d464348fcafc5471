import Verif.Model.Geom
import Verif.Model.Draw
import Mathlib.Data.Matrix.Mul
import Mathlib.LinearAlgebra.Matrix.Notation
import Mathlib.Analysis.Real.Pi.Bounds

/-!
# Model of `include/rovio/Scene.hpp` and `src/Scene.cpp`: the 3D view

The graphics library is modelled by what its calls read: a buffer or a texture keeps the data it was given last; drawing reads as many indices as
`indices_` has from the index buffer and the vertices they name from the vertex buffer, and is undefined (`none`) outside them.  The vertex
shader `shaders/shader.vs` is part of the model, the fragment shader is in `Model/Fragment.lean`, the rasterisation is not modelled.  `float` is real, `unsigned int` is a natural
number (fewer than 2^31 vertices).  Creation of windows, compilation of shaders and drawing options that do not concern geometry are not modelled.
-/

namespace Rovio.Scene3D

open Rovio.Draw (Canvas)

/-- `Eigen::Vector4f` / `vec4`, e.g. `color_` at include/rovio/Scene.hpp:143 and `gl_Position` at shaders/shader.vs:18. -/
@[ext] structure V4 where
  x : ℝ
  y : ℝ
  z : ℝ
  w : ℝ

/-- `Vertex`, include/rovio/Scene.hpp:127-144. -/
@[ext] structure Vertex where
  pos : V3
  normal : V3
  color : V4

/-- Constructor from a position, include/rovio/Scene.hpp:133-140. -/
def Vertex.ofPos (p : V3) : Vertex := ⟨p, ⟨0, 0, 1⟩, ⟨1, 1, 1, 1⟩⟩

/-- The drawing modes used (`mode_`), include/rovio/Scene.hpp:181. -/
inductive Mode where
  | triangles
  | lines
  | lineStrip
  | points

/-- A texture of the graphics library: its size and the bytes by row and column (`none` unspecified). -/
structure Tex where
  cols : ℕ
  rows : ℕ
  texel : ℕ → ℕ → Option ℕ

/-- `SceneObject`, include/rovio/Scene.hpp:174-186; `vbo`, `ibo` and `tex` are the contents of the buffers and the texture on the graphics side. -/
structure Obj where
  pos : V3
  q : Quat
  verts : List Vertex
  inds : List ℕ
  vbo : List Vertex
  ibo : List ℕ
  tex : Option Tex
  mode : Mode
  cull : Bool
  lineWidth : ℝ
  pointSize : ℝ
  useTexture : Bool
  draw : Bool

namespace Obj

/-- Constructor, src/Scene.cpp:5-20. -/
noncomputable def new : Obj :=
  { pos := ⟨0, 0, 0⟩, q := Quat.one, verts := [], inds := [], vbo := [], ibo := [], tex := none, mode := .triangles, cull := true,
    lineWidth := 2, pointSize := 5, useTexture := false, draw := true }

/-- `initTexture`, src/Scene.cpp:22-26: storage without contents. -/
def initTexture (o : Obj) (cols rows : ℕ) : Obj := { o with useTexture := true, tex := some ⟨cols, rows, fun _ _ => none⟩ }

/-- Bytes from the start of one row to the next expected by the graphics library: rows start at multiples of four bytes (`GL_UNPACK_ALIGNMENT` keeps
its default 4; nothing in /repo sets it), used by src/Scene.cpp:33. -/
def unpackStride (cols : ℕ) : ℕ := (cols + 3) / 4 * 4

/-- `setTexture(img)`, src/Scene.cpp:31-34: replaces the upper left part of the texture.  Undefined if a byte outside the picture's memory is read;
without effect (an error flag of the library) if the picture is larger than the texture or there is none. -/
def setTexture (o : Obj) (img : Canvas) : Option Obj :=
  if ∃ y < img.rows, ∃ x < img.cols, img.rows * img.cols * img.ch ≤ y * unpackStride img.cols + x then none
  else match o.tex with
    | none => some o
    | some t =>
      if img.cols ≤ t.cols ∧ img.rows ≤ t.rows then
        some { o with tex := some { t with texel := fun y x =>
          if y < img.rows ∧ x < img.cols then some (img.data (y * unpackStride img.cols + x)) else t.texel y x } }
      else some o

/-- `allocateBuffer`, src/Scene.cpp:35-40. -/
def allocateBuffer (o : Obj) : Obj := { o with vbo := o.verts, ibo := o.inds }

/-- `clear`, src/Scene.cpp:153-156: the buffers are not touched. -/
def clear (o : Obj) : Obj := { o with verts := [], inds := [] }

/-- `prolonge(points)`, src/Scene.cpp:143-152. -/
def prolonge (o : Obj) (ps : List V3) : Obj :=
  allocateBuffer { o with verts := o.verts ++ ps.map Vertex.ofPos, inds := o.inds ++ (List.range ps.length).map (o.verts.length + ·) }

/-- `prolonge(point)`, src/Scene.cpp:139-142. -/
def prolonge1 (o : Obj) (p : V3) : Obj := o.prolonge [p]

/-- `makeLine(line)`, src/Scene.cpp:125-129; with the empty list `makeLine()`, 121-124. -/
def makeLine (o : Obj) (ps : List V3) : Obj := { (o.clear).prolonge ps with mode := .lineStrip }

/-- `makePoints(points)`, src/Scene.cpp:134-138; with the empty list `makePoints()`, 130-133. -/
def makePoints (o : Obj) (ps : List V3) : Obj := { (o.clear).prolonge ps with mode := .points }

/-- Unit vector `i`, as built at src/Scene.cpp:50-54 and 165-169. -/
def axis (i : ℕ) : V3 := ⟨if i = 0 then 1 else 0, if i = 1 then 1 else 0, if i = 2 then 1 else 0⟩

/-- Pure colour `i` of brightness `b`, src/Scene.cpp:163-164, include/rovio/RovioScene.hpp:96-97. -/
def axisColor (i : ℕ) (b : ℝ) : V4 := ⟨if i = 0 then b else 0, if i = 1 then b else 0, if i = 2 then b else 0, 1⟩

/-- `makeCoordinateFrame`, src/Scene.cpp:157-177. -/
def makeCoordinateFrame (o : Obj) (l : ℝ) : Obj :=
  { allocateBuffer { o with
      verts := (List.range 3).flatMap fun (i : ℕ) => [⟨⟨0, 0, 0⟩, ⟨0, 0, 1⟩, axisColor i 1⟩, ⟨l • axis i, ⟨0, 0, 1⟩, axisColor i 1⟩]
      inds := (List.range 3).flatMap fun (i : ℕ) => [i * 2, i * 2 + 1] } with mode := .lines }

/-- `makeRectangle`, src/Scene.cpp:178-195. -/
noncomputable def makeRectangle (o : Obj) (x y : ℝ) : Obj :=
  { allocateBuffer { o with
      verts := [⟨-0.5 * x, -0.5 * y, 0⟩, ⟨0.5 * x, -0.5 * y, 0⟩, ⟨-0.5 * x, 0.5 * y, 0⟩, ⟨0.5 * x, 0.5 * y, 0⟩].map Vertex.ofPos
      inds := [0, 1, 2, 3, 1, 2] } with mode := .triangles, cull := false }

/-- Texture coordinates `(s, t)` in the first two entries of a colour, src/Scene.cpp:198-205. -/
def texCoord (v : Vertex) (s t : ℝ) : Vertex := { v with color := { v.color with x := s, y := t } }

/-- `makeTexturedRectangle`, src/Scene.cpp:196-207. -/
noncomputable def makeTexturedRectangle (o : Obj) (x y : ℝ) : Obj :=
  let o := o.makeRectangle x y
  allocateBuffer { o with verts := List.zipWith (fun v (st : ℝ × ℝ) => texCoord v st.1 st.2) o.verts [(0, 0), (1, 0), (0, 1), (1, 1)] }

/-- `makeCubeMesh`, src/Scene.cpp:100-120. -/
noncomputable def makeCubeMesh (o : Obj) (l : ℝ) : Obj :=
  { allocateBuffer { o with
      verts := (List.range 2).flatMap fun (x : ℕ) => (List.range 2).flatMap fun (y : ℕ) => (List.range 2).map fun (z : ℕ) =>
        Vertex.ofPos ⟨(2 * x - 1) * 0.5 * l, (2 * y - 1) * 0.5 * l, (2 * z - 1) * 0.5 * l⟩
      inds := (List.range 3).flatMap fun (i : ℕ) => (List.range 4).flatMap fun (j : ℕ) =>
        [(j * 2 ^ i) % 7, (j * 2 ^ i) % 7 + 2 ^ ((i + 2) % 3)] } with mode := .lines }

/-- The two triangles of a square with first vertex `c`, src/Scene.cpp:226-231. -/
def square (c : ℕ) : List ℕ := [c, c + 1, c + 2, c + 3, c + 1, c + 2]

/-- `makeGroundPlane`, src/Scene.cpp:208-239 (`N ≥ 0`; for a negative number nothing is drawn). -/
noncomputable def makeGroundPlane (o : Obj) (l : ℝ) (N : ℕ) (color1 color2 : V4) : Obj :=
  { allocateBuffer { o with
      verts := (List.range N).flatMap fun (x : ℕ) => (List.range N).flatMap fun (y : ℕ) => (List.range 2).flatMap fun (i : ℕ) => (List.range 2).map fun (j : ℕ) =>
        ⟨⟨-0.5 * l * N + l * x + l * i, -0.5 * l * N + l * y + l * j, 0⟩, ⟨0, 0, 1⟩, if (x + y) % 2 = 0 then color1 else color2⟩
      inds := (List.range (N * N)).flatMap fun k => square (4 * k) } with mode := .triangles, cull := false }

/-- `makeGroundPlaneMesh`, src/Scene.cpp:240-257 (`N ≥ 0`; for `N < -1` the reservation of memory throws). -/
noncomputable def makeGroundPlaneMesh (o : Obj) (l : ℝ) (N : ℕ) : Obj :=
  { allocateBuffer { o with
      verts := (List.range (N + 1)).flatMap fun (i : ℕ) =>
        [⟨-0.5 * l * N + l * i, -0.5 * l * N, 0⟩, ⟨-0.5 * l * N + l * i, -0.5 * l * N + l * N, 0⟩,
         ⟨-0.5 * l * N, -0.5 * l * N + l * i, 0⟩, ⟨-0.5 * l * N + l * N, -0.5 * l * N + l * i, 0⟩].map Vertex.ofPos
      inds := (List.range (N + 1)).flatMap fun (i : ℕ) => [i * 4, i * 4 + 1, i * 4 + 2, i * 4 + 3] } with mode := .lines }

/-- `setColorFull`, src/Scene.cpp:258-263. -/
def setColorFull (o : Obj) (c : V4) : Obj := allocateBuffer { o with verts := o.verts.map fun v => { v with color := c } }

/-- The normal of one triangle, src/Scene.cpp:270-276: cross product of two sides, normalised. -/
noncomputable def faceNormal (vs : List Vertex) (i0 i1 i2 : ℕ) : Option V3 := do
  let v0 ← vs[i0]?
  let v1 ← vs[i1]?
  let v2 ← vs[i2]?
  return ((v1.pos - v0.pos).cross (v2.pos - v0.pos)).normalized

/-- The loop over triangles, src/Scene.cpp:269-280: the normal is added at the three vertices; undefined if the indices do not come in threes or
name no vertex. -/
noncomputable def addNormals (vs : List Vertex) : List ℕ → (ℕ → V3) → Option (ℕ → V3)
  | [], acc => some acc
  | i0 :: i1 :: i2 :: is, acc => do
    let n ← faceNormal vs i0 i1 i2
    let acc := Function.update acc i0 (acc i0 + n)
    let acc := Function.update acc i1 (acc i1 + n)
    let acc := Function.update acc i2 (acc i2 + n)
    addNormals vs is acc
  | _, _ => none

/-- `CalcNormals`, src/Scene.cpp:267-287. -/
noncomputable def calcNormals (o : Obj) : Option Obj := do
  let normals ← addNormals o.verts o.inds fun _ => ⟨0, 0, 0⟩
  return { o with verts := o.verts.mapIdx fun i v => { v with normal := (normals i).normalized } }

/-- The vertices and indices of `makeCubeFull`, src/Scene.cpp:48-71. -/
noncomputable def cubeFull (l : ℝ) : List Vertex × List ℕ :=
  ((List.range 3).flatMap fun (i : ℕ) => (List.range 2).flatMap fun (z : ℕ) => (List.range 2).flatMap fun (x : ℕ) => (List.range 2).map fun (j : ℕ) =>
      let y := (x + j + z + 1) % 2
      Vertex.ofPos ((0.5 * l) • ((2 * z - 1 : ℝ) • axis i + (2 * x - 1 : ℝ) • axis ((i + 1) % 3)
        + (2 * y - 1 : ℝ) • (axis i).cross (axis ((i + 1) % 3)))),
   (List.range 6).flatMap fun k => [4 * k, 4 * k + 2, 4 * k + 1, 4 * k, 4 * k + 3, 4 * k + 2])

/-- `makeCubeFull`, src/Scene.cpp:41-75. -/
noncomputable def makeCubeFull (o : Obj) (l : ℝ) : Option Obj := do
  let o ← calcNormals { o with verts := (cubeFull l).1, inds := (cubeFull l).2 }
  return { allocateBuffer o with mode := .triangles, cull := true }

/-- The corners of the tetrahedron, src/Scene.cpp:80-84. -/
noncomputable def tetCorner (k : ℕ) : V3 :=
  if k = 0 then ⟨1, 0, -0.707⟩ else if k = 1 then ⟨-1, 0, -0.707⟩ else if k = 2 then ⟨0, 1, 0.707⟩ else ⟨0, -1, 0.707⟩

/-- The vertices and indices of `makeTetrahedron`, src/Scene.cpp:86-94. -/
noncomputable def tetrahedron (l : ℝ) : List Vertex × List ℕ :=
  ((List.range 4).flatMap fun (i : ℕ) => (List.range 3).map fun (j : ℕ) => Vertex.ofPos ((0.5 * l) • tetCorner ((i + j) % 4)),
   (List.range 4).flatMap fun (i : ℕ) => [3 * i + i % 2, 3 * i + 1 - i % 2, 3 * i + 2])

/-- `makeTetrahedron`, src/Scene.cpp:76-99. -/
noncomputable def makeTetrahedron (o : Obj) (l : ℝ) : Option Obj := do
  let o ← calcNormals { o with verts := (tetrahedron l).1, inds := (tetrahedron l).2 }
  return { allocateBuffer o with mode := .triangles, cull := true }

/-- What drawing an object reads, src/Scene.cpp:419-424: the vertices named by the first `indices_.size()` entries of the index buffer. -/
def elements (o : Obj) : Option (List Vertex) :=
  (List.range o.inds.length).mapM fun k => o.ibo[k]?.bind fun i => o.vbo[i]?

end Obj

/-! ### Transformations -/

/-- `Eigen::Matrix4f`. -/
abbrev M4 := Matrix (Fin 4) (Fin 4) ℝ

/-- A rotation and a translation as 4×4 matrix, include/rovio/Scene.hpp:76-78 and 83-85. -/
def homogeneous (R : M3) (t : V3) : M4 :=
  !![R.r1.x, R.r1.y, R.r1.z, t.x; R.r2.x, R.r2.y, R.r2.z, t.y; R.r3.x, R.r3.y, R.r3.z, t.z; 0, 0, 0, 1]

/-- `InitTransform`, include/rovio/Scene.hpp:75-80. -/
def initTransform (v : V3) (q : Quat) : M4 := homogeneous q.mat (-q.rotate v)

/-- `InitInverseTransform`, include/rovio/Scene.hpp:82-87 (the inverse of a rotation matrix is its transpose). -/
def initInverseTransform (v : V3) (q : Quat) : M4 := homogeneous q.mat.tr v

/-- `PersProjInfo`, include/rovio/Scene.hpp:42-48. -/
structure PersProj where
  fov : ℝ
  width : ℝ
  height : ℝ
  zNear : ℝ
  zFar : ℝ

/-- The settings made by `init`, src/Scene.cpp:336-340. -/
noncomputable def PersProj.default : PersProj := ⟨Real.pi / 2, 1280, 960, -0.1, -100⟩

/-- `InitPersProjTransform`, include/rovio/Scene.hpp:89-100. -/
noncomputable def initPersProjTransform (p : PersProj) : M4 :=
  let ar := p.width / p.height
  let zRange := p.zFar - p.zNear
  let t := Real.tan (p.fov / 2)
  !![1 / (t * ar), 0, 0, 0; 0, 1 / t, 0, 0; 0, 0, (-p.zNear - p.zFar) / zRange, 2 * p.zFar * p.zNear / zRange; 0, 0, -1, 0]

/-- The product of a matrix and a column of four numbers, as in shaders/shader.vs:18. -/
def mulV4 (m : M4) (v : V4) : V4 :=
  ⟨m 0 0 * v.x + m 0 1 * v.y + m 0 2 * v.z + m 0 3 * v.w, m 1 0 * v.x + m 1 1 * v.y + m 1 2 * v.z + m 1 3 * v.w,
   m 2 0 * v.x + m 2 1 * v.y + m 2 2 * v.z + m 2 3 * v.w, m 3 0 * v.x + m 3 1 * v.y + m 3 2 * v.z + m 3 3 * v.w⟩

/-- What is left of a vertex after the vertex shader, shaders/shader.vs:12-22: `gl_Position`, `Color0`, `Normal0` (the texture coordinates are the
first two entries of the colour). -/
structure Shaded where
  position : V4
  color : V4
  normal : V3

/-- `main` of shaders/shader.vs:16-22. -/
def shade (vTFb wTFb : M4) (v : Vertex) : Shaded :=
  let n := mulV4 wTFb ⟨v.normal.x, v.normal.y, v.normal.z, 0⟩
  ⟨mulV4 vTFb ⟨v.pos.x, v.pos.y, v.pos.z, 1⟩, v.color, ⟨n.x, n.y, n.z⟩⟩

/-- One `glDrawElements`: mode, texture if used, whether back faces are skipped, the shaded vertices in the order of the indices. -/
structure Drawn where
  mode : Mode
  tex : Option Tex
  cull : Bool
  verts : List Shaded

/-- `Scene`, include/rovio/Scene.hpp:212-237: the view point, the projection and the mouse; the objects are kept apart. -/
structure View where
  stepScale : ℝ
  pos : V3
  q : Quat
  proj : PersProj
  mouse : ℤ × ℤ
  motion : Bool

/-- Drawing of one object, src/Scene.cpp:399-428.  Eigen stores by columns and `GL_FALSE` means by columns: the shader gets the same matrix. -/
noncomputable def View.drawObj (s : View) (o : Obj) : Option Drawn := do
  let wTFb := initInverseTransform o.pos o.q
  let vTFb := initPersProjTransform s.proj * initTransform s.pos s.q * wTFb
  let vs ← o.elements
  return ⟨o.mode, if o.useTexture then o.tex else none, o.cull, vs.map (shade vTFb wTFb)⟩

/-- `RenderSceneCB`, src/Scene.cpp:387-431. -/
noncomputable def View.render (s : View) (os : List Obj) : Option (List Drawn) := (os.filter Obj.draw).mapM s.drawObj

/-! ### Moving the view point -/

/-- Constructor, src/Scene.cpp:298-307, followed by `init`, 320-343.  The static object starts with zeros, so the mouse starts at the origin. -/
noncomputable def View.new : View := ⟨0.5, ⟨0, 0, 0⟩, Quat.one, PersProj.default, (0, 0), false⟩

/-- `setView`, src/Scene.cpp:432-435; `setFromVectors` (kindr) is a parameter. -/
def View.setView (sfv : V3 → V3 → Quat) (s : View) (pos target : V3) : View := { s with pos := pos, q := sfv (target - pos) ⟨0, 0, -1⟩ }

/-- The z coordinate (in the world) of the camera's `-y` axis after turning the view by `q` about the viewing direction, src/Scene.cpp:443-445. -/
def View.down (s : View) (q : Quat) : ℝ := ((q * s.q).inv.rotate ⟨0, -1, 0⟩).z

/-- The loop of `setYDown`, src/Scene.cpp:441-449: smallest value so far and its angle.  `yaw` is `kindr::EulerAnglesYprPF(angle,0,0)`. -/
noncomputable def View.yLoop (yaw : ℝ → Quat) (s : View) (step : ℝ) (acc : ℝ × ℝ) (k : ℕ) : ℝ × ℝ :=
  if s.down (yaw (k * step)) < acc.1 then (s.down (yaw (k * step)), k * step) else acc

/-- `setYDown`, src/Scene.cpp:436-450.  The angles `0, step, 2 step, …` up to `2π` are tried; a step that is not positive never ends (`none`). -/
noncomputable def View.setYDown (yaw : ℝ → Quat) (s : View) (step : ℝ) : Option View :=
  if step ≤ 0 then none
  else
    let r := (List.range (⌊2 * Real.pi / step⌋₊ + 1)).foldl (s.yLoop yaw step) (1, 0)
    some { s with q := yaw r.2 * s.q }

/-- The arrow and page keys, src/Scene.cpp:312-317. -/
inductive Key where
  | up
  | down
  | left
  | right
  | pageUp
  | pageDown

/-- The registered actions of the special keys, src/Scene.cpp:312-317. -/
noncomputable def View.key (s : View) : Key → View
  | .up => { s with pos := s.pos - s.stepScale • s.q.inv.rotate ⟨0, 0, 1⟩ }
  | .down => { s with pos := s.pos + s.stepScale • s.q.inv.rotate ⟨0, 0, 1⟩ }
  | .left => { s with pos := s.pos - s.stepScale • s.q.inv.rotate ⟨1, 0, 0⟩ }
  | .right => { s with pos := s.pos + s.stepScale • s.q.inv.rotate ⟨1, 0, 0⟩ }
  | .pageUp => { s with pos := s.pos + s.stepScale • s.q.inv.rotate ⟨0, 1, 0⟩ }
  | .pageDown => { s with pos := s.pos - s.stepScale • s.q.inv.rotate ⟨0, 1, 0⟩ }

/-- `fix()` of a rotation (kindr): division by the norm. -/
noncomputable def fix (q : Quat) : Quat :=
  let n := Real.sqrt q.normSq
  ⟨q.w / n, q.x / n, q.y / n, q.z / n⟩

/-- `MotionCB`, src/Scene.cpp:469-486. -/
noncomputable def View.motionCB (s : View) (x y : ℤ) : View :=
  if s.motion then
    let dx := x - s.mouse.1
    let dy := y - s.mouse.2
    { s with mouse := (x, y), q := fix (s.q.boxPlus ⟨dy / 50, dx / 50, 0⟩) }
  else s

/-- `MouseCB`, src/Scene.cpp:487-497: `left` whether it is the left button, `down` whether it is pressed. -/
def View.mouseCB (s : View) (left down : Bool) (x y : ℤ) : View :=
  let s := if left && down then { s with motion := true, mouse := (x, y) } else s
  if left && !down then { s with motion := false } else s

/-- What a user can do to the view point. -/
inductive Event where
  | key (k : Key)
  | motion (x y : ℤ)
  | mouse (left down : Bool) (x y : ℤ)

/-- Dispatch of the events, include/rovio/Scene.hpp:257-260 and src/Scene.cpp:451-456. -/
noncomputable def View.event (s : View) : Event → View
  | .key k => s.key k
  | .motion x y => s.motionCB x y
  | .mouse l d x y => s.mouseCB l d x y

/-! ### Keys -/

/-- `keyboardCallbacks_` / `specialKeyboardCallbacks_`, include/rovio/Scene.hpp:191-192: a map from keys to actions `A`. -/
abbrev KeyMap (A : Type) := ℕ → Option A

/-- `addKeyboardCB` / `addSpecialKeyboardCB`, src/Scene.cpp:457-459 and 466-468. -/
def KeyMap.add {A : Type} (m : KeyMap A) (k : ℕ) (a : A) : KeyMap A := Function.update m k (some a)

/-- `KeyboardCB` / `SpecialKeyboardCB`, src/Scene.cpp:451-456 and 460-465: the action run, if any. -/
def KeyMap.press {A : Type} (m : KeyMap A) (k : ℕ) : Option A := m k

end Rovio.Scene3D
