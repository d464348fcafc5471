import Verif.Model.Scene3D

/-!
# Model of shaders/shader.fs and of the light of the 3D view

Between the corners of a line or a triangle the graphics library interpolates what the vertex shader returned, with non-negative weights of sum one; the colour of a
pixel is what the fragment shader makes of it.
-/

namespace Rovio.Scene3D

/-- `DirectionalLight`, include/rovio/Scene.hpp:50-57 and shaders/shader.fs:11-17; its four members are copied to the shader in src/Scene.cpp:391-394. -/
structure Light where
  color : V3
  ambient : ℝ
  direction : V3
  diffuse : ℝ

/-- The light set up by the constructor, src/Scene.cpp:305-309. -/
noncomputable def Light.default : Light := ⟨⟨1, 1, 1⟩, 1, V3.normalized ⟨0.5, -1, 0⟩, 0⟩

/-- Components of two `vec4` multiplied, e.g. `Color0 * (…)` at shaders/shader.fs:39. -/
def V4.times (a b : V4) : V4 := ⟨a.x * b.x, a.y * b.y, a.z * b.z, a.w * b.w⟩

/-- `a + b` of two `vec4`, shaders/shader.fs:39, 42. -/
def V4.plus (a b : V4) : V4 := ⟨a.x + b.x, a.y + b.y, a.z + b.z, a.w + b.w⟩

/-- `vec4(Color, 1.0f) * s`, shaders/shader.fs:25, 32. -/
def Light.scaled (l : Light) (s : ℝ) : V4 := ⟨l.color.x * s, l.color.y * s, l.color.z * s, s⟩

/-- `normalize`, shaders/shader.fs:27; the normal of length zero has no direction, the graphics library returns some vector `any`. -/
noncomputable def normalizeOr (any : V3) (n : V3) : V3 := open Classical in if n.norm = 0 then any else n.normalized

/-- `main` of shaders/shader.fs:23-44 for a pixel with interpolated colour `color0` and normal `normal0`; `texel` is the value of the texture there if one is used. -/
noncomputable def fragment (any : V3) (l : Light) (texel : Option V4) (color0 : V4) (normal0 : V3) : V4 :=
  let ambientColor := l.scaled l.ambient
  let diffuseFactor := (normalizeOr any normal0).dot (-l.direction)
  open Classical in
  let diffuseColor : V4 := if 0 < diffuseFactor then l.scaled (l.diffuse * diffuseFactor) else ⟨0, 0, 0, 0⟩
  match texel with
  | none => color0.times (ambientColor.plus diffuseColor)
  | some t => t.times (ambientColor.plus diffuseColor)

end Rovio.Scene3D
