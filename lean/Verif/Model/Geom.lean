import Mathlib.Analysis.SpecialFunctions.Trigonometric.Deriv
import Mathlib.Analysis.SpecialFunctions.Sqrt
import Mathlib.Analysis.SpecialFunctions.Trigonometric.Sinc

/-!
# Vectors, matrices, quaternions

Stand-ins for the Eigen / kindr / lightweight_filtering types used all over `/repo/include/rovio`
(`V3D`, `M3D`, `QPD`, `MPD`, `LWF::NormalVectorElement`; included at
include/rovio/FilterStates.hpp:32-45 and include/rovio/FeatureCoordinates.hpp:32-36).
The libraries are not part of the repository, so their documented behaviour is modelled:
* a `QPD` is a Hamilton quaternion acting actively: `rotate v = q v q*`, `*` composes, `inverted` is
  the conjugate, `exponentialMap v` is the rotation by the vector `v`,
  `boxPlus δ = exponentialMap δ * q`;
* `NormalVectorElement` (LWF) holds a quaternion `q`; its vector is `q.rotate(e_z)`, its tangent basis
  vectors are `q.rotate(e_x)`, `q.rotate(e_y)`, `getN = [p1 p2]`, `getM = [-p2 p1]`,
  `boxPlus δ = exponentialMap(N δ) * q`.
Numbers are reals.
-/

namespace Rovio

/-- `Eigen::Vector2d` / `cv::Point2f`. -/
@[ext] structure V2 where
  x : ℝ
  y : ℝ

/-- `Eigen::Vector3d` (`V3D`). -/
@[ext] structure V3 where
  x : ℝ
  y : ℝ
  z : ℝ

/-- `Eigen::Matrix2d`, entries `m_{row col}`. -/
@[ext] structure M2 where
  a : ℝ
  b : ℝ
  c : ℝ
  d : ℝ

/-- `Eigen::Matrix3d` (`M3D`) given by its rows. -/
@[ext] structure M3 where
  r1 : V3
  r2 : V3
  r3 : V3

/-- `kindr` quaternion (`QPD`). -/
@[ext] structure Quat where
  w : ℝ
  x : ℝ
  y : ℝ
  z : ℝ

namespace V2
instance : Zero V2 := ⟨⟨0, 0⟩⟩
instance : Add V2 := ⟨fun a b => ⟨a.x + b.x, a.y + b.y⟩⟩
instance : Sub V2 := ⟨fun a b => ⟨a.x - b.x, a.y - b.y⟩⟩
instance : Neg V2 := ⟨fun a => ⟨-a.x, -a.y⟩⟩
instance : SMul ℝ V2 := ⟨fun s a => ⟨s * a.x, s * a.y⟩⟩
@[simp] lemma zero_x : (0 : V2).x = 0 := rfl
@[simp] lemma zero_y : (0 : V2).y = 0 := rfl
@[simp] lemma add_x (a b : V2) : (a + b).x = a.x + b.x := rfl
@[simp] lemma add_y (a b : V2) : (a + b).y = a.y + b.y := rfl
@[simp] lemma sub_x (a b : V2) : (a - b).x = a.x - b.x := rfl
@[simp] lemma sub_y (a b : V2) : (a - b).y = a.y - b.y := rfl
@[simp] lemma neg_x (a : V2) : (-a).x = -a.x := rfl
@[simp] lemma neg_y (a : V2) : (-a).y = -a.y := rfl
@[simp] lemma smul_x (s : ℝ) (a : V2) : (s • a).x = s * a.x := rfl
@[simp] lemma smul_y (s : ℝ) (a : V2) : (s • a).y = s * a.y := rfl
/-- Dot product of 2-vectors. -/
def dot (a b : V2) : ℝ := a.x * b.x + a.y * b.y
/-- Euclidean norm of a 2-vector. -/
noncomputable def norm (a : V2) : ℝ := Real.sqrt (a.x ^ 2 + a.y ^ 2)
end V2

namespace V3
instance : Zero V3 := ⟨⟨0, 0, 0⟩⟩
instance : Add V3 := ⟨fun a b => ⟨a.x + b.x, a.y + b.y, a.z + b.z⟩⟩
instance : Sub V3 := ⟨fun a b => ⟨a.x - b.x, a.y - b.y, a.z - b.z⟩⟩
instance : Neg V3 := ⟨fun a => ⟨-a.x, -a.y, -a.z⟩⟩
instance : SMul ℝ V3 := ⟨fun s a => ⟨s * a.x, s * a.y, s * a.z⟩⟩
@[simp] lemma zero_x : (0 : V3).x = 0 := rfl
@[simp] lemma zero_y : (0 : V3).y = 0 := rfl
@[simp] lemma zero_z : (0 : V3).z = 0 := rfl
@[simp] lemma add_x (a b : V3) : (a + b).x = a.x + b.x := rfl
@[simp] lemma add_y (a b : V3) : (a + b).y = a.y + b.y := rfl
@[simp] lemma add_z (a b : V3) : (a + b).z = a.z + b.z := rfl
@[simp] lemma sub_x (a b : V3) : (a - b).x = a.x - b.x := rfl
@[simp] lemma sub_y (a b : V3) : (a - b).y = a.y - b.y := rfl
@[simp] lemma sub_z (a b : V3) : (a - b).z = a.z - b.z := rfl
@[simp] lemma neg_x (a : V3) : (-a).x = -a.x := rfl
@[simp] lemma neg_y (a : V3) : (-a).y = -a.y := rfl
@[simp] lemma neg_z (a : V3) : (-a).z = -a.z := rfl
@[simp] lemma smul_x (s : ℝ) (a : V3) : (s • a).x = s * a.x := rfl
@[simp] lemma smul_y (s : ℝ) (a : V3) : (s • a).y = s * a.y := rfl
@[simp] lemma smul_z (s : ℝ) (a : V3) : (s • a).z = s * a.z := rfl
/-- Dot product. -/
def dot (a b : V3) : ℝ := a.x * b.x + a.y * b.y + a.z * b.z
/-- Cross product. -/
def cross (a b : V3) : V3 :=
  ⟨a.y * b.z - a.z * b.y, a.z * b.x - a.x * b.z, a.x * b.y - a.y * b.x⟩
@[simp] lemma cross_x (a b : V3) : (cross a b).x = a.y * b.z - a.z * b.y := rfl
@[simp] lemma cross_y (a b : V3) : (cross a b).y = a.z * b.x - a.x * b.z := rfl
@[simp] lemma cross_z (a b : V3) : (cross a b).z = a.x * b.y - a.y * b.x := rfl
/-- Squared Euclidean norm (`squaredNorm()`). -/
def normSq (a : V3) : ℝ := a.x ^ 2 + a.y ^ 2 + a.z ^ 2
/-- Euclidean norm (`norm()`). -/
noncomputable def norm (a : V3) : ℝ := Real.sqrt a.normSq
/-- `normalized()`; only meaningful for non-zero vectors. -/
noncomputable def normalized (a : V3) : V3 := (1 / a.norm) • a
/-- Unit vectors. -/
def ex : V3 := ⟨1, 0, 0⟩
/-- Unit vectors. -/
def ey : V3 := ⟨0, 1, 0⟩
/-- Unit vectors. -/
def ez : V3 := ⟨0, 0, 1⟩
end V3

namespace M2
/-- Identity 2x2 matrix. -/
def one : M2 := ⟨1, 0, 0, 1⟩
/-- Zero 2x2 matrix. -/
def zero : M2 := ⟨0, 0, 0, 0⟩
/-- Matrix product. -/
def mul (m n : M2) : M2 :=
  ⟨m.a * n.a + m.b * n.c, m.a * n.b + m.b * n.d, m.c * n.a + m.d * n.c, m.c * n.b + m.d * n.d⟩
/-- Matrix times vector. -/
def mulVec (m : M2) (v : V2) : V2 := ⟨m.a * v.x + m.b * v.y, m.c * v.x + m.d * v.y⟩
/-- Determinant. -/
def det (m : M2) : ℝ := m.a * m.d - m.b * m.c
/-- Transposed matrix. -/
def tr (m : M2) : M2 := ⟨m.a, m.c, m.b, m.d⟩
/-- Inverse (only meaningful for non-zero determinant). -/
noncomputable def inv (m : M2) : M2 := ⟨m.d / m.det, -m.b / m.det, -m.c / m.det, m.a / m.det⟩
/-- Frobenius norm of the difference to the identity, `(m - I).norm()`. -/
noncomputable def distOne (m : M2) : ℝ :=
  Real.sqrt ((m.a - 1) ^ 2 + m.b ^ 2 + m.c ^ 2 + (m.d - 1) ^ 2)
end M2

namespace M3
/-- Matrix times vector. -/
def mulVec (m : M3) (v : V3) : V3 := ⟨m.r1.dot v, m.r2.dot v, m.r3.dot v⟩
/-- First column. -/
def c1 (m : M3) : V3 := ⟨m.r1.x, m.r2.x, m.r3.x⟩
/-- Second column. -/
def c2 (m : M3) : V3 := ⟨m.r1.y, m.r2.y, m.r3.y⟩
/-- Third column. -/
def c3 (m : M3) : V3 := ⟨m.r1.z, m.r2.z, m.r3.z⟩
/-- Matrix product. -/
def mul (m n : M3) : M3 :=
  ⟨⟨m.r1.dot n.c1, m.r1.dot n.c2, m.r1.dot n.c3⟩, ⟨m.r2.dot n.c1, m.r2.dot n.c2, m.r2.dot n.c3⟩,
   ⟨m.r3.dot n.c1, m.r3.dot n.c2, m.r3.dot n.c3⟩⟩
/-- Transposed matrix. -/
def tr (m : M3) : M3 := ⟨m.c1, m.c2, m.c3⟩
/-- Identity. -/
def one : M3 := ⟨⟨1, 0, 0⟩, ⟨0, 1, 0⟩, ⟨0, 0, 1⟩⟩
/-- Zero. -/
def zero : M3 := ⟨0, 0, 0⟩
instance : Zero M3 := ⟨⟨0, 0, 0⟩⟩
instance : Add M3 := ⟨fun a b => ⟨a.r1 + b.r1, a.r2 + b.r2, a.r3 + b.r3⟩⟩
instance : Sub M3 := ⟨fun a b => ⟨a.r1 - b.r1, a.r2 - b.r2, a.r3 - b.r3⟩⟩
instance : Neg M3 := ⟨fun a => ⟨-a.r1, -a.r2, -a.r3⟩⟩
instance : SMul ℝ M3 := ⟨fun s a => ⟨s • a.r1, s • a.r2, s • a.r3⟩⟩
/-- `gSM(v)`: the skew-symmetric matrix with `gSM(v) u = v × u`. -/
def skew (v : V3) : M3 := ⟨⟨0, -v.z, v.y⟩, ⟨v.z, 0, -v.x⟩, ⟨-v.y, v.x, 0⟩⟩
/-- Outer product `a bᵀ`. -/
def outer (a b : V3) : M3 := ⟨a.x • b, a.y • b, a.z • b⟩
end M3

namespace Quat
/-- Identity rotation. -/
def one : Quat := ⟨1, 0, 0, 0⟩
/-- Composition `operator*`. -/
def mul (p q : Quat) : Quat :=
  ⟨p.w * q.w - p.x * q.x - p.y * q.y - p.z * q.z,
   p.w * q.x + p.x * q.w + p.y * q.z - p.z * q.y,
   p.w * q.y - p.x * q.z + p.y * q.w + p.z * q.x,
   p.w * q.z + p.x * q.y - p.y * q.x + p.z * q.w⟩
instance : Mul Quat := ⟨mul⟩
/-- `inverted()` of a unit quaternion (conjugate). -/
def inv (q : Quat) : Quat := ⟨q.w, -q.x, -q.y, -q.z⟩
/-- Squared norm. -/
def normSq (q : Quat) : ℝ := q.w ^ 2 + q.x ^ 2 + q.y ^ 2 + q.z ^ 2
/-- Unit quaternions are the rotations. -/
def IsUnit (q : Quat) : Prop := q.normSq = 1
instance : Neg Quat := ⟨fun q => ⟨-q.w, -q.x, -q.y, -q.z⟩⟩
/-- `rotate(v)`: vector part of `q v q*`. -/
def rotate (q : Quat) (v : V3) : V3 :=
  ⟨(q.w ^ 2 + q.x ^ 2 - q.y ^ 2 - q.z ^ 2) * v.x + 2 * (q.x * q.y - q.w * q.z) * v.y
      + 2 * (q.x * q.z + q.w * q.y) * v.z,
   2 * (q.x * q.y + q.w * q.z) * v.x + (q.w ^ 2 - q.x ^ 2 + q.y ^ 2 - q.z ^ 2) * v.y
      + 2 * (q.y * q.z - q.w * q.x) * v.z,
   2 * (q.x * q.z - q.w * q.y) * v.x + 2 * (q.y * q.z + q.w * q.x) * v.y
      + (q.w ^ 2 - q.x ^ 2 - q.y ^ 2 + q.z ^ 2) * v.z⟩
/-- `MPD(q).matrix()`: the rotation matrix of a quaternion. -/
def mat (q : Quat) : M3 :=
  ⟨⟨q.w ^ 2 + q.x ^ 2 - q.y ^ 2 - q.z ^ 2, 2 * (q.x * q.y - q.w * q.z), 2 * (q.x * q.z + q.w * q.y)⟩,
   ⟨2 * (q.x * q.y + q.w * q.z), q.w ^ 2 - q.x ^ 2 + q.y ^ 2 - q.z ^ 2, 2 * (q.y * q.z - q.w * q.x)⟩,
   ⟨2 * (q.x * q.z - q.w * q.y), 2 * (q.y * q.z + q.w * q.x), q.w ^ 2 - q.x ^ 2 - q.y ^ 2 + q.z ^ 2⟩⟩
/-- `exponentialMap(v)`: rotation about `v` by the angle `‖v‖`. -/
noncomputable def exp (v : V3) : Quat :=
  ⟨Real.cos (v.norm / 2), Real.sinc (v.norm / 2) / 2 * v.x, Real.sinc (v.norm / 2) / 2 * v.y,
   Real.sinc (v.norm / 2) / 2 * v.z⟩
/-- `boxPlus`: left increment. -/
noncomputable def boxPlus (q : Quat) (v : V3) : Quat := exp v * q
end Quat

/-- `LWF::NormalVectorElement`. -/
@[ext] structure Nor where
  q : Quat

namespace Nor
/-- `getVec()`. -/
def vec (n : Nor) : V3 := n.q.rotate V3.ez
/-- `getPerpendicular1()`. -/
def perp1 (n : Nor) : V3 := n.q.rotate V3.ex
/-- `getPerpendicular2()`. -/
def perp2 (n : Nor) : V3 := n.q.rotate V3.ey
/-- `getN()` applied to a tangent vector. -/
def N (n : Nor) (d : V2) : V3 := d.x • n.perp1 + d.y • n.perp2
/-- `getM()` applied to a tangent vector. -/
def M (n : Nor) (d : V2) : V3 := d.x • (-n.perp2) + d.y • n.perp1
/-- `boxPlus`. -/
noncomputable def boxPlus (n : Nor) (d : V2) : Nor := ⟨Quat.exp (n.N d) * n.q⟩
/-- `rotated(q)` (`NormalVectorElement::rotated`). -/
def rotated (n : Nor) (q : Quat) : Nor := ⟨q * n.q⟩
end Nor

end Rovio
