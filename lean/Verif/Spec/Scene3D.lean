import Verif.Model.Scene3D

/-!
# Specification vocabulary for the 3D view

What a picture of a scene is: positions in the world, positions seen from the view point, the pyramid that is visible, segments and triangles drawn.
-/

namespace Rovio.Scene3D.Spec

open Rovio.Scene3D

/-- Position in the world of the point `p` of a body at `r` whose attitude (world to body) is `q`. -/
def worldPoint (r : V3) (q : Quat) (p : V3) : V3 := r + q.inv.rotate p

/-- Position relative to a view point at `r` with attitude (world to view) `q`; the view looks along `-z`, `x` is right and `y` is up. -/
def seenFrom (r : V3) (q : Quat) (P : V3) : V3 := q.rotate (P - r)

/-- Sensible settings of a perspective view. -/
structure Proper (p : PersProj) : Prop where
  fov : 0 < p.fov ∧ p.fov < Real.pi
  width : 0 < p.width
  height : 0 < p.height
  near : p.zNear < 0
  far : p.zFar < p.zNear

/-- The visible pyramid: between the near and the far plane, within half the field of view above and below, and accordingly left and right. -/
def Visible (p : PersProj) (P : V3) : Prop :=
  p.zFar ≤ P.z ∧ P.z ≤ p.zNear ∧ |P.y| ≤ -P.z * Real.tan (p.fov / 2) ∧ |P.x| ≤ -P.z * Real.tan (p.fov / 2) * (p.width / p.height)

/-- The clip volume of the graphics library. -/
def Clip (v : V4) : Prop := 0 < v.w ∧ |v.x| ≤ v.w ∧ |v.y| ≤ v.w ∧ |v.z| ≤ v.w

/-- Position in a window of `W` by `H` pixels (origin in the lower left corner) after the division by the fourth coordinate. -/
noncomputable def window (W H : ℝ) (v : V4) : V2 := ⟨(v.x / v.w + 1) / 2 * W, (v.y / v.w + 1) / 2 * H⟩

/-- Depth after the division; the graphics library keeps the smaller one. -/
noncomputable def depth (v : V4) : ℝ := v.z / v.w

/-- Twice the signed area of a triangle in the window: positive if it is passed counterclockwise. -/
def area2 (a b c : V2) : ℝ := (b.x - a.x) * (c.y - a.y) - (c.x - a.x) * (b.y - a.y)

/-- With `glFrontFace(GL_CW)` and `glCullFace(GL_BACK)` (src/Scene.cpp:329-330) a triangle is shown unless it is passed counterclockwise. -/
def Shown (a b c : V2) : Prop := area2 a b c < 0

/-- The segments drawn from a list of points in the mode `GL_LINES`. -/
def segments {α : Type} : List α → List (α × α)
  | a :: b :: l => (a, b) :: segments l
  | _ => []

/-- The triangles drawn from a list of points in the mode `GL_TRIANGLES`. -/
def triangles {α : Type} : List α → List (α × α × α)
  | a :: b :: c :: l => (a, b, c) :: triangles l
  | _ => []

/-- What a user of an object can do with it. -/
inductive ObjOp where
  | clear
  | prolonge (ps : List V3)
  | line (ps : List V3)
  | points (ps : List V3)
  | frame (l : ℝ)
  | rectangle (x y : ℝ)
  | texturedRectangle (x y : ℝ)
  | cubeMesh (l : ℝ)
  | cubeFull (l : ℝ)
  | tetrahedron (l : ℝ)
  | groundPlane (l : ℝ) (N : ℕ) (c1 c2 : V4)
  | groundPlaneMesh (l : ℝ) (N : ℕ)
  | color (c : V4)
  | upload
  | place (r : V3) (q : Quat)
  | initTexture (cols rows : ℕ)

/-- Doing it. -/
noncomputable def ObjOp.run (o : Obj) : ObjOp → Option Obj
  | .clear => some o.clear
  | .prolonge ps => some (o.prolonge ps)
  | .line ps => some (o.makeLine ps)
  | .points ps => some (o.makePoints ps)
  | .frame l => some (o.makeCoordinateFrame l)
  | .rectangle x y => some (o.makeRectangle x y)
  | .texturedRectangle x y => some (o.makeTexturedRectangle x y)
  | .cubeMesh l => some (o.makeCubeMesh l)
  | .cubeFull l => o.makeCubeFull l
  | .tetrahedron l => o.makeTetrahedron l
  | .groundPlane l N c1 c2 => some (o.makeGroundPlane l N c1 c2)
  | .groundPlaneMesh l N => some (o.makeGroundPlaneMesh l N)
  | .color c => some (o.setColorFull c)
  | .upload => some o.allocateBuffer
  | .place r q => some { o with pos := r, q := q }
  | .initTexture cols rows => some (o.initTexture cols rows)

/-- Assumption on kindr's `EulerAnglesYprPF(a,0,0)`: the rotation by the angle `a` about the z axis, in one of the two senses (`σ = ±1`). -/
structure Yaw (σ : ℝ) (yaw : ℝ → Quat) : Prop where
  sense : σ = 1 ∨ σ = -1
  unit : ∀ a, (yaw a).IsUnit
  rotate : ∀ a v, (yaw a).rotate v = ⟨Real.cos a * v.x - σ * Real.sin a * v.y, σ * Real.sin a * v.x + Real.cos a * v.y, v.z⟩

/-- A corner of the cube with edge length `l` around the origin. -/
def Corner (l : ℝ) (A : V3) : Prop := |A.x| = l / 2 ∧ |A.y| = l / 2 ∧ |A.z| = l / 2

/-- Two points that differ in exactly one coordinate. -/
def Neighbours (A B : V3) : Prop :=
  (A.x ≠ B.x ∧ A.y = B.y ∧ A.z = B.z) ∨ (A.x = B.x ∧ A.y ≠ B.y ∧ A.z = B.z) ∨ (A.x = B.x ∧ A.y = B.y ∧ A.z ≠ B.z)

/-- Where the mouse was last seen while the left button is held, from the history of events (latest last); nothing if it is not held. -/
def held (evs : List Event) : Option (ℤ × ℤ) := evs.foldl (fun h e => match e with
  | .mouse true true x y => some (x, y)
  | .mouse true false _ _ => none
  | .motion x y => h.map fun _ => (x, y)
  | _ => h) none

/-- How the world moves in the view when a key is pressed: forward (up), backward, left, right, upwards (page up), downwards. -/
def shift (d : ℝ) : Key → V3
  | .up => ⟨0, 0, d⟩
  | .down => ⟨0, 0, -d⟩
  | .left => ⟨d, 0, 0⟩
  | .right => ⟨-d, 0, 0⟩
  | .pageUp => ⟨0, -d, 0⟩
  | .pageDown => ⟨0, d, 0⟩

end Rovio.Scene3D.Spec
