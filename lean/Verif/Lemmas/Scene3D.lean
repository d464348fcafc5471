import Verif.Spec.Scene3D
import Verif.Lemmas.Geom
import Mathlib.Analysis.SpecialFunctions.Trigonometric.Bounds
import Mathlib.Tactic.FinCases
import Mathlib.Tactic.IntervalCases

namespace Rovio.Scene3D

open Rovio.Scene3D.Spec

/-! ### What drawing reads -/

lemma mapM_some {α β : Type} {f : α → Option β} : ∀ {l : List α}, (∀ a ∈ l, (f a).isSome) → l.mapM f = some (l.filterMap f)
  | [], _ => rfl
  | a :: l, h => by
    obtain ⟨b, hb⟩ := Option.isSome_iff_exists.mp (h a (by simp))
    have := mapM_some (l := l) fun x hx => h x (by simp [hx])
    simp [List.mapM_cons, hb, this]

lemma mapM_range_get {α β : Type} (f : α → Option β) (l : List α) :
    (List.range l.length).mapM (fun k => l[k]?.bind f) = l.mapM f := by
  induction l with
  | nil => rfl
  | cons a l ih =>
    rw [List.length_cons, List.range_succ_eq_map, List.mapM_cons, List.mapM_cons]
    simp only [List.getElem?_cons_zero, Option.bind_some]
    have : (List.map Nat.succ (List.range l.length)).mapM (fun k => ((a :: l)[k]?).bind f) = l.mapM f := by
      rw [← ih]
      rw [List.mapM_map]
      rfl
    rw [this]

lemma filterMap_range {α : Type} (l : List α) : (List.range l.length).filterMap (fun i => l[i]?) = l := by
  induction l with
  | nil => rfl
  | cons a l ih =>
    rw [List.length_cons, List.range_succ_eq_map, List.filterMap_cons, List.filterMap_map]
    simp only [List.getElem?_cons_zero]
    exact congrArg _ ih

/-- Invariant of an object whose buffers are up to date. -/
structure Obj.Ok (o : Obj) : Prop where
  range : ∀ i ∈ o.inds, i < o.verts.length
  ibo : o.inds = [] ∨ (o.ibo = o.inds ∧ o.vbo = o.verts)

lemma Obj.Ok.elements {o : Obj} (h : o.Ok) : o.elements = some (o.inds.filterMap fun i => o.verts[i]?) := by
  unfold Obj.elements
  rcases h.ibo with h0 | ⟨h1, h2⟩
  · rw [h0]; rfl
  · rw [h1, h2, mapM_range_get]
    exact mapM_some fun a ha => by simpa using h.range a ha

lemma Obj.Ok.alloc {o : Obj} (h : ∀ i ∈ o.inds, i < o.verts.length) : o.allocateBuffer.Ok := ⟨h, Or.inr ⟨rfl, rfl⟩⟩

lemma Obj.Ok.clear (o : Obj) : o.clear.Ok := ⟨by simp [Obj.clear], Or.inl rfl⟩

lemma Obj.Ok.prolonge {o : Obj} (h : o.Ok) (ps : List V3) : (o.prolonge ps).Ok := by
  refine Obj.Ok.alloc fun i hi => ?_
  simp only [List.mem_append, List.mem_map, List.mem_range, List.length_append, List.length_map] at hi ⊢
  rcases hi with hi | ⟨k, hk, rfl⟩
  · exact lt_of_lt_of_le (h.range i hi) (by omega)
  · omega

lemma Obj.Ok.mode {o : Obj} (h : o.Ok) (m : Mode) : { o with mode := m }.Ok := ⟨h.range, h.ibo⟩
lemma Obj.Ok.cull {o : Obj} (h : o.Ok) (m : Mode) (c : Bool) : { o with mode := m, cull := c }.Ok := ⟨h.range, h.ibo⟩

lemma Obj.Ok.frame (o : Obj) (l : ℝ) : (o.makeCoordinateFrame l).Ok := by
  refine Obj.Ok.mode (Obj.Ok.alloc fun i hi => ?_) _
  simp only [List.range, List.range.loop, List.flatMap_cons, List.flatMap_nil] at hi ⊢
  fin_cases hi <;> simp

lemma Obj.Ok.rectangle (o : Obj) (x y : ℝ) : (o.makeRectangle x y).Ok := by
  refine Obj.Ok.cull (Obj.Ok.alloc fun i hi => ?_) _ _
  fin_cases hi <;> simp

lemma Obj.Ok.texturedRectangle (o : Obj) (x y : ℝ) : (o.makeTexturedRectangle x y).Ok := by
  refine Obj.Ok.alloc fun i hi => ?_
  have hi' : i ∈ [0, 1, 2, 3, 1, 2] := hi
  change i < (List.zipWith _ (List.map Vertex.ofPos _) _).length
  rw [List.length_zipWith]
  fin_cases hi' <;> simp

lemma Obj.Ok.cubeMesh (o : Obj) (l : ℝ) : (o.makeCubeMesh l).Ok := by
  refine Obj.Ok.mode (Obj.Ok.alloc fun i hi => ?_) _
  have e : (List.flatMap (fun (x : ℕ) => List.flatMap (fun (y : ℕ) => List.map (fun (z : ℕ) => Vertex.ofPos
    ⟨(2 * (x : ℝ) - 1) * 0.5 * l, (2 * (y : ℝ) - 1) * 0.5 * l, (2 * (z : ℝ) - 1) * 0.5 * l⟩) (List.range 2)) (List.range 2)) (List.range 2)).length = 8 := rfl
  have hi' : i ∈ [0, 4, 1, 5, 2, 6, 3, 7, 0, 1, 2, 3, 4, 5, 6, 7, 0, 2, 4, 6, 1, 3, 5, 7] := hi
  change i < _
  rw [e]
  fin_cases hi' <;> simp

lemma length_flatMap_const {α β : Type} (f : α → List β) (c : ℕ) : ∀ (l : List α), (∀ a ∈ l, (f a).length = c) → (l.flatMap f).length = l.length * c
  | [], _ => by simp
  | a :: l, h => by
    have := length_flatMap_const f c l fun x hx => h x (by simp [hx])
    simp only [List.flatMap_cons, List.length_append, List.length_cons, this, h a (by simp)]
    ring

lemma Obj.Ok.groundPlane (o : Obj) (l : ℝ) (N : ℕ) (c1 c2 : V4) : (o.makeGroundPlane l N c1 c2).Ok := by
  refine Obj.Ok.cull (Obj.Ok.alloc fun i hi => ?_) _ _
  have e : ∀ (f : ℕ → ℕ → ℕ → ℕ → Vertex), ((List.range N).flatMap fun x => (List.range N).flatMap fun y => (List.range 2).flatMap fun i =>
      (List.range 2).map fun j => f x y i j).length = N * (N * 4) := by
    intro f
    rw [length_flatMap_const _ (N * 4), List.length_range]
    intro x _
    rw [length_flatMap_const _ 4, List.length_range]
    intro y _
    rfl
  simp only [List.mem_flatMap, List.mem_range, Obj.square] at hi
  obtain ⟨k, hk, hi⟩ := hi
  change i < _
  rw [e]
  have : i ≤ 4 * k + 3 := by fin_cases hi <;> simp
  nlinarith

lemma Obj.Ok.groundPlaneMesh (o : Obj) (l : ℝ) (N : ℕ) : (o.makeGroundPlaneMesh l N).Ok := by
  refine Obj.Ok.mode (Obj.Ok.alloc fun i hi => ?_) _
  simp only [List.mem_flatMap, List.mem_range] at hi
  obtain ⟨k, hk, hi⟩ := hi
  rw [length_flatMap_const _ 4, List.length_range]
  · have : i ≤ k * 4 + 3 := by fin_cases hi <;> simp
    omega
  · intro x _; rfl

lemma Obj.Ok.color {o : Obj} (h : o.Ok) (c : V4) : (o.setColorFull c).Ok := by
  refine Obj.Ok.alloc fun i hi => ?_
  simpa using h.range i hi

/-! ### Normals -/

/-- The triangle with the given vertices is there and has the unit normal `N` of each of its vertices. -/
def FlatTriangles (vs : List Vertex) (N : ℕ → V3) : List ℕ → Prop
  | [] => True
  | i0 :: i1 :: i2 :: is => Obj.faceNormal vs i0 i1 i2 = some (N i0) ∧ N i1 = N i0 ∧ N i2 = N i0 ∧ FlatTriangles vs N is
  | _ => False

lemma addNormals_flat {vs : List Vertex} {N : ℕ → V3} : ∀ {l : List ℕ} (acc : ℕ → V3), FlatTriangles vs N l →
    ∃ r, Obj.addNormals vs l acc = some r ∧ ∀ j, r j = acc j + (l.count j : ℝ) • N j
  | [], acc, _ => ⟨acc, rfl, fun j => by ext <;> simp⟩
  | [_], _, h => absurd h id
  | [_, _], _, h => absurd h id
  | i0 :: i1 :: i2 :: is, acc, h => by
    obtain ⟨h1, h2, h3, h4⟩ := h
    obtain ⟨r, hr, hr'⟩ := addNormals_flat (l := is) (Function.update (Function.update (Function.update acc i0 (acc i0 + N i0)) i1
      ((Function.update acc i0 (acc i0 + N i0)) i1 + N i0)) i2 ((Function.update (Function.update acc i0 (acc i0 + N i0)) i1
      ((Function.update acc i0 (acc i0 + N i0)) i1 + N i0)) i2 + N i0)) h4
    refine ⟨r, ?_, fun j => ?_⟩
    · simp only [Obj.addNormals, h1, Option.bind_eq_bind, Option.bind_some]
      exact hr
    · rw [hr' j]
      simp only [List.count_cons, Function.update_apply, beq_iff_eq]
      by_cases e0 : i0 = j <;> by_cases e1 : i1 = j <;> by_cases e2 : i2 = j <;>
        simp_all [eq_comm] <;> ext <;> simp <;> ring

lemma addNormals_isSome {vs : List Vertex} : ∀ {l : List ℕ} (acc : ℕ → V3), 3 ∣ l.length → (∀ i ∈ l, i < vs.length) →
    (Obj.addNormals vs l acc).isSome
  | [], _, _, _ => rfl
  | [_], _, h, _ => by simp at h
  | [_, _], _, h, _ => by simp at h
  | i0 :: i1 :: i2 :: is, acc, h, hi => by
    have h0 := hi i0 (by simp)
    have h1 := hi i1 (by simp)
    have h2 := hi i2 (by simp)
    have := addNormals_isSome (vs := vs) (l := is) (Function.update (Function.update (Function.update acc i0 (acc i0 +
      ((vs[i1].pos - vs[i0].pos).cross (vs[i2].pos - vs[i0].pos)).normalized)) i1
      ((Function.update acc i0 (acc i0 + ((vs[i1].pos - vs[i0].pos).cross (vs[i2].pos - vs[i0].pos)).normalized)) i1 +
        ((vs[i1].pos - vs[i0].pos).cross (vs[i2].pos - vs[i0].pos)).normalized)) i2
      ((Function.update (Function.update acc i0 (acc i0 + ((vs[i1].pos - vs[i0].pos).cross (vs[i2].pos - vs[i0].pos)).normalized)) i1
      ((Function.update acc i0 (acc i0 + ((vs[i1].pos - vs[i0].pos).cross (vs[i2].pos - vs[i0].pos)).normalized)) i1 +
        ((vs[i1].pos - vs[i0].pos).cross (vs[i2].pos - vs[i0].pos)).normalized)) i2 +
        ((vs[i1].pos - vs[i0].pos).cross (vs[i2].pos - vs[i0].pos)).normalized)) (by simp at h; omega) fun i h => hi i (by simp [h])
    simpa only [Obj.addNormals, Obj.faceNormal, List.getElem?_eq_getElem h0, List.getElem?_eq_getElem h1, List.getElem?_eq_getElem h2,
      Option.bind_eq_bind, Option.bind_some, Option.pure_def] using this

lemma calcNormals_ok {o : Obj} (h3 : 3 ∣ o.inds.length) (hr : ∀ i ∈ o.inds, i < o.verts.length) (m : Mode) (c : Bool) :
    ∃ o', o.calcNormals = some o' ∧ o'.inds = o.inds ∧ o'.verts.map Vertex.pos = o.verts.map Vertex.pos ∧
      { o'.allocateBuffer with mode := m, cull := c }.Ok := by
  obtain ⟨r, hr'⟩ := Option.isSome_iff_exists.mp (addNormals_isSome (vs := o.verts) (l := o.inds) (fun _ => ⟨0, 0, 0⟩) h3 hr)
  refine ⟨{ o with verts := o.verts.mapIdx fun i v => { v with normal := (r i).normalized } }, by simp only [Obj.calcNormals, hr', Option.bind_eq_bind, Option.bind_some, Option.pure_def], rfl, ?_, ?_⟩
  · apply List.ext_getElem?
    intro i
    simp only [List.getElem?_map, List.getElem?_mapIdx]
    cases o.verts[i]? <;> rfl
  · exact Obj.Ok.cull (Obj.Ok.alloc fun i hi => by simpa using hr i hi) _ _

lemma cubeFull_vertex (l : ℝ) {i z x j : ℕ} (hi : i < 3) (hz : z < 2) (hx : x < 2) (hj : j < 2) :
    (Obj.cubeFull l).1[8 * i + 4 * z + 2 * x + j]? = some (Vertex.ofPos ((0.5 * l) • ((2 * z - 1 : ℝ) • Obj.axis i
      + (2 * x - 1 : ℝ) • Obj.axis ((i + 1) % 3) + (2 * ((x + j + z + 1) % 2 : ℕ) - 1 : ℝ) • (Obj.axis i).cross (Obj.axis ((i + 1) % 3))))) := by
  interval_cases i <;> interval_cases z <;> interval_cases x <;> interval_cases j <;> rfl

/-- The outward normal of the side of the cube to which vertex `j` of `makeCubeFull` belongs. -/
noncomputable def cubeNormal (j : ℕ) : V3 := (2 * (j / 4 % 2 : ℕ) - 1 : ℝ) • Obj.axis (j / 8)

lemma normalized_smul_unit {u : V3} (hu : u.norm = 1) {c : ℝ} (hc : 0 < c) : (c • u).normalized = u := by
  unfold V3.normalized
  rw [V3.norm_smul, hu, abs_of_pos hc]
  ext <;> simp <;> field_simp

lemma cubeNormal_norm {j : ℕ} (hj : j < 24) : (cubeNormal j).norm = 1 := by
  interval_cases j <;> norm_num [cubeNormal, Obj.axis, V3.norm, V3.normSq]

lemma cube_face {l : ℝ} (hl : 0 < l) {k : ℕ} (hk : k < 6) :
    Obj.faceNormal (Obj.cubeFull l).1 (4 * k) (4 * k + 2) (4 * k + 1) = some (cubeNormal (4 * k)) ∧
    Obj.faceNormal (Obj.cubeFull l).1 (4 * k) (4 * k + 3) (4 * k + 2) = some (cubeNormal (4 * k)) ∧
    cubeNormal (4 * k + 1) = cubeNormal (4 * k) ∧ cubeNormal (4 * k + 2) = cubeNormal (4 * k) ∧ cubeNormal (4 * k + 3) = cubeNormal (4 * k) := by
  have hn := cubeNormal_norm (j := 4 * k) (by omega)
  have key : ∀ {a b c : V3}, (b - a).cross (c - a) = (l ^ 2) • cubeNormal (4 * k) →
      ((b - a).cross (c - a)).normalized = cubeNormal (4 * k) := by
    intro a b c h; rw [h]; exact normalized_smul_unit hn (by positivity)
  have e0 := cubeFull_vertex l (i := k / 2) (z := k % 2) (x := 0) (j := 0) (by omega) (by omega) (by omega) (by omega)
  have e1 := cubeFull_vertex l (i := k / 2) (z := k % 2) (x := 0) (j := 1) (by omega) (by omega) (by omega) (by omega)
  have e2 := cubeFull_vertex l (i := k / 2) (z := k % 2) (x := 1) (j := 0) (by omega) (by omega) (by omega) (by omega)
  have e3 := cubeFull_vertex l (i := k / 2) (z := k % 2) (x := 1) (j := 1) (by omega) (by omega) (by omega) (by omega)
  rw [show 8 * (k / 2) + 4 * (k % 2) + 2 * 0 + 0 = 4 * k by omega] at e0
  rw [show 8 * (k / 2) + 4 * (k % 2) + 2 * 0 + 1 = 4 * k + 1 by omega] at e1
  rw [show 8 * (k / 2) + 4 * (k % 2) + 2 * 1 + 0 = 4 * k + 2 by omega] at e2
  rw [show 8 * (k / 2) + 4 * (k % 2) + 2 * 1 + 1 = 4 * k + 3 by omega] at e3
  refine ⟨?_, ?_, ?_, ?_, ?_⟩
  · simp only [Obj.faceNormal, e0, e1, e2, Option.bind_eq_bind, Option.bind_some, Option.pure_def, Vertex.ofPos, Option.some.injEq]
    apply key
    interval_cases k <;> ext <;> simp [cubeNormal, Obj.axis, V3.cross] <;> ring
  · simp only [Obj.faceNormal, e0, e3, e2, Option.bind_eq_bind, Option.bind_some, Option.pure_def, Vertex.ofPos, Option.some.injEq]
    apply key
    interval_cases k <;> ext <;> simp [cubeNormal, Obj.axis, V3.cross] <;> ring
  all_goals
    unfold cubeNormal
    congr 2
    · congr 3; omega
    · omega

lemma cube_flat {l : ℝ} (hl : 0 < l) : FlatTriangles (Obj.cubeFull l).1 cubeNormal (Obj.cubeFull l).2 := by
  have h : ∀ ks : List ℕ, (∀ k ∈ ks, k < 6) →
      FlatTriangles (Obj.cubeFull l).1 cubeNormal (ks.flatMap fun k => [4 * k, 4 * k + 2, 4 * k + 1, 4 * k, 4 * k + 3, 4 * k + 2]) := by
    intro ks
    induction ks with
    | nil => intro _; trivial
    | cons k ks ih =>
      intro hks
      obtain ⟨h1, h2, h3, h4, h5⟩ := cube_face hl (hks k (by simp))
      exact ⟨h1, h4, h3, h2, h5, h4, ih fun x hx => hks x (by simp [hx])⟩
  exact h (List.range 6) fun k hk => List.mem_range.mp hk

/-! ### Projection -/

lemma mulV4_mul (A B : M4) (v : V4) : mulV4 (A * B) v = mulV4 A (mulV4 B v) := by
  ext <;> simp only [mulV4, Matrix.mul_apply, Fin.sum_univ_four] <;> ring

lemma mulV4_homogeneous (R : M3) (t p : V3) :
    mulV4 (homogeneous R t) ⟨p.x, p.y, p.z, 1⟩ = ⟨(R.mulVec p + t).x, (R.mulVec p + t).y, (R.mulVec p + t).z, 1⟩ := by
  ext <;> simp [mulV4, homogeneous, M3.mulVec, V3.dot]

lemma mulV4_homogeneous0 (R : M3) (t p : V3) :
    mulV4 (homogeneous R t) ⟨p.x, p.y, p.z, 0⟩ = ⟨(R.mulVec p).x, (R.mulVec p).y, (R.mulVec p).z, 0⟩ := by
  ext <;> simp [mulV4, homogeneous, M3.mulVec, V3.dot]

/-- Clip coordinates of a point given in the coordinates of the view. -/
noncomputable def clipOf (p : PersProj) (P : V3) : V4 :=
  ⟨P.x / (Real.tan (p.fov / 2) * (p.width / p.height)), P.y / Real.tan (p.fov / 2),
   ((-p.zNear - p.zFar) * P.z + 2 * p.zFar * p.zNear) / (p.zFar - p.zNear), -P.z⟩

lemma mulV4_persProj (p : PersProj) (P : V3) : mulV4 (initPersProjTransform p) ⟨P.x, P.y, P.z, 1⟩ = clipOf p P := by
  unfold initPersProjTransform clipOf
  generalize Real.tan (p.fov / 2) = t
  ext <;> simp [mulV4, div_eq_mul_inv] <;> ring

lemma shade_position (s : View) (o : Obj) (v : Vertex) :
    shade (initPersProjTransform s.proj * initTransform s.pos s.q * initInverseTransform o.pos o.q) (initInverseTransform o.pos o.q) v =
      ⟨clipOf s.proj (seenFrom s.pos s.q (worldPoint o.pos o.q v.pos)), v.color, o.q.inv.rotate v.normal⟩ := by
  unfold shade
  rw [mulV4_mul, mulV4_mul]
  unfold initInverseTransform initTransform
  rw [mulV4_homogeneous, mulV4_homogeneous0]
  have e : mulV4 (homogeneous s.q.mat (-s.q.rotate s.pos)) ⟨(o.q.mat.tr.mulVec v.pos + o.pos).x, (o.q.mat.tr.mulVec v.pos + o.pos).y,
      (o.q.mat.tr.mulVec v.pos + o.pos).z, 1⟩ = ⟨(seenFrom s.pos s.q (worldPoint o.pos o.q v.pos)).x,
      (seenFrom s.pos s.q (worldPoint o.pos o.q v.pos)).y, (seenFrom s.pos s.q (worldPoint o.pos o.q v.pos)).z, 1⟩ := by
    have e2 : s.q.mat.mulVec (o.q.mat.tr.mulVec v.pos + o.pos) + -s.q.rotate s.pos = seenFrom s.pos s.q (worldPoint o.pos o.q v.pos) := by
      rw [← Quat.mat_inv, Quat.mat_mulVec, Quat.mat_mulVec, seenFrom, worldPoint, Quat.rotate_sub, Quat.rotate_add, Quat.rotate_add]
      ext <;> simp <;> ring
    rw [mulV4_homogeneous, e2]
  rw [e, mulV4_persProj, ← Quat.mat_inv, Quat.mat_mulVec]

lemma Proper.tan_pos {p : PersProj} (h : Proper p) : 0 < Real.tan (p.fov / 2) :=
  Real.tan_pos_of_pos_of_lt_pi_div_two (by linarith [h.fov.1]) (by linarith [h.fov.2])

lemma clip_iff_visible {p : PersProj} (h : Proper p) (P : V3) : Clip (clipOf p P) ↔ Visible p P := by
  have ht := Proper.tan_pos h
  have hw := h.width
  have hh := h.height
  have hn := h.near
  have hf := h.far
  unfold Clip Visible clipOf
  generalize Real.tan (p.fov / 2) = t at ht ⊢
  have har : 0 < p.width / p.height := by positivity
  generalize p.width / p.height = a at har ⊢
  have hz : p.zFar - p.zNear < 0 := by linarith
  dsimp only
  rw [abs_div, abs_div, abs_of_pos ht, abs_of_pos (mul_pos ht har), div_le_iff₀ ht, div_le_iff₀ (mul_pos ht har), abs_le (a := _ / _),
    div_le_iff_of_neg hz, le_div_iff_of_neg hz]
  constructor
  · rintro ⟨h0, h1, h2, h3, h4⟩
    refine ⟨?_, ?_, h2, by linarith⟩ <;> nlinarith
  · rintro ⟨h1, h2, h3, h4⟩
    refine ⟨by linarith, by linarith, h3, ?_, ?_⟩ <;> nlinarith

lemma depth_lt {p : PersProj} (h : Proper p) {P Q : V3} (hQ : Q.z < P.z) (hP : P.z < 0) : depth (clipOf p P) < depth (clipOf p Q) := by
  have hn := h.near
  have hf := h.far
  unfold depth clipOf
  dsimp only
  have hz : 0 < p.zNear - p.zFar := by linarith
  have e : ∀ z : ℝ, z < 0 → ((-p.zNear - p.zFar) * z + 2 * p.zFar * p.zNear) / (p.zFar - p.zNear) / -z =
      ((-p.zNear - p.zFar) + 2 * (p.zFar * p.zNear) * (1 / z)) / (p.zNear - p.zFar) := by
    intro z hz'
    have h0 : z ≠ 0 := hz'.ne
    have h1 : p.zFar - p.zNear ≠ 0 := by linarith
    have h2 : p.zNear - p.zFar ≠ 0 := by linarith
    field_simp
    ring
  rw [e _ hP, e _ (by linarith)]
  apply div_lt_div_of_pos_right _ hz
  have : 1 / P.z < 1 / Q.z := one_div_lt_one_div_of_neg_of_lt hP hQ
  have hp : 0 < p.zFar * p.zNear := mul_pos_of_neg_of_neg (by linarith) hn
  nlinarith

lemma area_sign {p : PersProj} (h : Proper p) {W H : ℝ} (hW : 0 < W) (hH : 0 < H) {A B C : V3} (hA : A.z < 0) (hB : B.z < 0) (hC : C.z < 0) :
    Shown (window W H (clipOf p A)) (window W H (clipOf p B)) (window W H (clipOf p C)) ↔ 0 < A.dot ((B - A).cross (C - A)) := by
  have ht := Proper.tan_pos h
  have har : 0 < p.width / p.height := div_pos h.width h.height
  unfold Shown area2 window clipOf
  dsimp only
  generalize Real.tan (p.fov / 2) = t at ht ⊢
  generalize p.width / p.height = a at har ⊢
  have e : ((B.x / (t * a) / -B.z + 1) / 2 * W - (A.x / (t * a) / -A.z + 1) / 2 * W) * ((C.y / t / -C.z + 1) / 2 * H - (A.y / t / -A.z + 1) / 2 * H) -
      ((C.x / (t * a) / -C.z + 1) / 2 * W - (A.x / (t * a) / -A.z + 1) / 2 * W) * ((B.y / t / -B.z + 1) / 2 * H - (A.y / t / -A.z + 1) / 2 * H) =
      W * H / (4 * t ^ 2 * a) * (A.dot ((B - A).cross (C - A)) / (A.z * B.z * C.z)) := by
    have := hA.ne
    have := hB.ne
    have := hC.ne
    simp only [V3.dot, V3.cross, V3.sub_x, V3.sub_y, V3.sub_z]
    field_simp
    ring
  rw [e]
  have hneg : A.z * B.z * C.z < 0 := mul_neg_of_pos_of_neg (mul_pos_of_neg_of_neg hA hB) hC
  have hc : 0 < W * H / (4 * t ^ 2 * a) := by positivity
  constructor
  · intro hs
    by_contra hd
    have : 0 ≤ A.dot ((B - A).cross (C - A)) / (A.z * B.z * C.z) := div_nonneg_of_nonpos (not_lt.mp hd) hneg.le
    have := mul_nonneg hc.le this
    linarith
  · intro hd
    exact mul_neg_of_pos_of_neg hc (div_neg_of_pos_of_neg hd hneg)

/-- Position of vertex `2 x + j` of side `k` of a full cube. -/
noncomputable def cubePos (l : ℝ) (k x j : ℕ) : V3 :=
  (0.5 * l) • ((2 * (k % 2 : ℕ) - 1 : ℝ) • Obj.axis (k / 2) + (2 * x - 1 : ℝ) • Obj.axis ((k / 2 + 1) % 3) +
        (2 * ((x + j + k % 2 + 1) % 2 : ℕ) - 1 : ℝ) • (Obj.axis (k / 2)).cross (Obj.axis ((k / 2 + 1) % 3)))

lemma cube_cross (l : ℝ) {k : ℕ} (hk : k < 6) :
    (cubePos l k 1 0 - cubePos l k 0 0).cross (cubePos l k 0 1 - cubePos l k 0 0) = (l ^ 2) • cubeNormal (4 * k) ∧
    (cubePos l k 1 1 - cubePos l k 0 0).cross (cubePos l k 1 0 - cubePos l k 0 0) = (l ^ 2) • cubeNormal (4 * k) := by
  constructor
  · interval_cases k <;> ext <;> simp [cubePos, cubeNormal, Obj.axis, V3.cross] <;> ring
  · interval_cases k <;> ext <;> simp [cubePos, cubeNormal, Obj.axis, V3.cross] <;> ring

lemma cube_corner {l : ℝ} (hl : 0 < l) {k x j : ℕ} (hk : k < 6) (hx : x < 2) :
    Corner l (cubePos l k x j) ∧
    (cubeNormal (4 * k)).dot (cubePos l k x j) = l / 2 := by
  have hs : ∀ n : ℕ, n < 2 → |(2 * (n : ℝ) - 1)| = 1 := by
    intro n hn
    interval_cases n <;> norm_num
  have hz := hs (k % 2) (by omega)
  have hx' := hs x hx
  have hy := hs ((x + j + k % 2 + 1) % 2) (by omega)
  have hz2 : (2 * ((k % 2 : ℕ) : ℝ) - 1) * (2 * ((k % 2 : ℕ) : ℝ) - 1) = 1 := by rw [← abs_mul_abs_self, hz]; norm_num
  have hn : cubeNormal (4 * k) = (2 * (k % 2 : ℕ) - 1 : ℝ) • Obj.axis (k / 2) := by
    unfold cubeNormal
    congr 2
    · congr 3; omega
    · omega
  rw [hn]
  unfold cubePos
  generalize (2 * ((k % 2 : ℕ) : ℝ) - 1) = a at *
  generalize (2 * (x : ℝ) - 1) = b at *
  generalize (2 * (((x + j + k % 2 + 1) % 2 : ℕ) : ℝ) - 1) = c at *
  obtain ⟨i, hi⟩ : ∃ i, i = k / 2 := ⟨_, rfl⟩
  have hi3 : i < 3 := by omega
  rw [← hi]
  have hl' : |(0.5 * l)| = l / 2 := by rw [abs_of_pos (by positivity)]; ring
  interval_cases i <;> refine ⟨⟨?_, ?_, ?_⟩, ?_⟩ <;> simp [Obj.axis, V3.cross, V3.dot, abs_mul, hz, hx', hy, -one_div] <;>
    first
    | (rw [← abs_mul]; exact hl')
    | linear_combination (l / 2) * hz2

/-- Vertex `2 x + j` of side `k` of a full cube. -/
noncomputable def cubeVertex (l : ℝ) (k x j : ℕ) : Vertex := ⟨cubePos l k x j, cubeNormal (4 * k), ⟨1, 1, 1, 1⟩⟩

/-- The triangles of a full cube. -/
lemma cube_triangles (o : Obj) {l : ℝ} (hl : 0 < l) : ∃ o' vs, o.makeCubeFull l = some o' ∧ o'.elements = some vs ∧ o'.mode = .triangles ∧ o'.cull = true ∧
    o'.pos = o.pos ∧ o'.q = o.q ∧ vs.length = 36 ∧
    triangles vs = (List.range 6).flatMap fun k => [(cubeVertex l k 0 0, cubeVertex l k 1 0, cubeVertex l k 0 1),
      (cubeVertex l k 0 0, cubeVertex l k 1 1, cubeVertex l k 1 0)] := by
  obtain ⟨r, hr, hr'⟩ := addNormals_flat (fun _ => ⟨0, 0, 0⟩) (cube_flat hl)
  have hrn : ∀ j < 24, (r j).normalized = cubeNormal j := by
    intro j hj
    rw [hr' j]
    have hc : 0 < (Obj.cubeFull l).2.count j := by
      rw [List.count_pos_iff]
      unfold Obj.cubeFull
      rw [List.mem_flatMap]
      refine ⟨j / 4, List.mem_range.mpr (by omega), ?_⟩
      have : j % 4 < 4 := Nat.mod_lt _ (by norm_num)
      simp only [List.mem_cons, List.not_mem_nil, or_false]
      omega
    rw [show (⟨0, 0, 0⟩ : V3) + ((Obj.cubeFull l).2.count j : ℝ) • cubeNormal j = ((Obj.cubeFull l).2.count j : ℝ) • cubeNormal j by ext <;> simp]
    exact normalized_smul_unit (cubeNormal_norm hj) (by exact_mod_cast hc)
  obtain ⟨o1, h1, hi, -, hok⟩ := calcNormals_ok (o := { o with verts := (Obj.cubeFull l).1, inds := (Obj.cubeFull l).2 })
    (show 3 ∣ 36 by norm_num) (fun i hi => by
      have hi' : i ∈ (List.range 6).flatMap fun k => [4 * k, 4 * k + 2, 4 * k + 1, 4 * k, 4 * k + 3, 4 * k + 2] := hi
      simp only [List.mem_flatMap, List.mem_range] at hi'
      obtain ⟨k, hk, hi'⟩ := hi'
      change i < 24
      have : i ≤ 4 * k + 3 := by
        simp only [List.mem_cons, List.not_mem_nil, or_false] at hi'
        rcases hi' with rfl | rfl | rfl | rfl | rfl | rfl <;> omega
      omega) .triangles true
  have h1' := h1
  simp only [Obj.calcNormals, hr, Option.bind_eq_bind, Option.bind_some, Option.pure_def, Option.some.injEq] at h1'
  have hv : ∀ j < 24, o1.verts[j]? = ((Obj.cubeFull l).1[j]?).map fun v => { v with normal := cubeNormal j } := by
    intro j hj
    rw [← h1']
    simp only [List.getElem?_mapIdx]
    rw [hrn j hj]
  have hpos : o1.pos = o.pos := by rw [← h1']
  have hq : o1.q = o.q := by rw [← h1']
  have hmk : o.makeCubeFull l = some { o1.allocateBuffer with mode := .triangles, cull := true } := by
    simp only [Obj.makeCubeFull, h1, Option.bind_eq_bind, Option.bind_some, Option.pure_def]
  refine ⟨{ o1.allocateBuffer with mode := .triangles, cull := true }, o1.inds.filterMap fun i => o1.verts[i]?, hmk, hok.elements, rfl, rfl, hpos, hq, ?_⟩
  have hvert : ∀ k : ℕ, k < 6 → ∀ x : ℕ, x < 2 → ∀ j : ℕ, j < 2 → o1.verts[4 * k + 2 * x + j]? = some (cubeVertex l k x j) := by
    intro k hk x hx j hj
    have e := cubeFull_vertex l (i := k / 2) (z := k % 2) (x := x) (j := j) (by omega) (by omega) hx hj
    rw [show 8 * (k / 2) + 4 * (k % 2) + 2 * x + j = 4 * k + 2 * x + j by omega] at e
    rw [hv _ (by omega), e, Option.map_some]
    unfold cubeVertex Vertex.ofPos
    have hn : cubeNormal (4 * k + 2 * x + j) = cubeNormal (4 * k) := by
      unfold cubeNormal
      congr 2
      · congr 3; omega
      · omega
    rw [hn]
    rfl
  have htri : ∀ ks : List ℕ, (∀ k ∈ ks, k < 6) → ∃ vs, (ks.flatMap fun k => [4 * k, 4 * k + 2, 4 * k + 1, 4 * k, 4 * k + 3, 4 * k + 2]).filterMap
        (fun i => o1.verts[i]?) = vs ∧ vs.length = 6 * ks.length ∧ triangles vs = ks.flatMap fun k => [(cubeVertex l k 0 0, cubeVertex l k 1 0, cubeVertex l k 0 1),
      (cubeVertex l k 0 0, cubeVertex l k 1 1, cubeVertex l k 1 0)] := by
    intro ks
    induction ks with
    | nil => intro _; exact ⟨[], rfl, rfl, rfl⟩
    | cons k ks ih =>
      intro hks
      obtain ⟨vs, hvs, hlen, hm⟩ := ih fun x hx => hks x (by simp [hx])
      have e0 := hvert k (hks k (by simp)) 0 (by norm_num) 0 (by norm_num)
      have e1 := hvert k (hks k (by simp)) 0 (by norm_num) 1 (by norm_num)
      have e2 := hvert k (hks k (by simp)) 1 (by norm_num) 0 (by norm_num)
      have e3 := hvert k (hks k (by simp)) 1 (by norm_num) 1 (by norm_num)
      simp only [Nat.mul_zero, Nat.add_zero, Nat.mul_one] at e0 e1 e2 e3
      refine ⟨cubeVertex l k 0 0 :: cubeVertex l k 1 0 :: cubeVertex l k 0 1 :: cubeVertex l k 0 0 :: cubeVertex l k 1 1 :: cubeVertex l k 1 0 :: vs, ?_,
        by simp [hlen]; ring, ?_⟩
      · rw [List.flatMap_cons, List.filterMap_append, hvs]
        simp [e0, e1, e2, e3]
      · simp only [triangles, List.flatMap_cons, hm, List.cons_append, List.nil_append]
  obtain ⟨vs, hvs, hlen, hm⟩ := htri (List.range 6) fun k hk => List.mem_range.mp hk
  have heq : List.filterMap (fun i => o1.verts[i]?) o1.inds = vs := by rw [hi]; exact hvs
  exact ⟨(congrArg List.length heq).trans hlen, by rw [heq]; exact hm⟩

/-- The triangles of a full cube, with its normals. -/
lemma cube_elements {l : ℝ} (hl : 0 < l) {a b c : Vertex} (h : (a, b, c) ∈ (List.range 6).flatMap fun k =>
      [(cubeVertex l k 0 0, cubeVertex l k 1 0, cubeVertex l k 0 1), (cubeVertex l k 0 0, cubeVertex l k 1 1, cubeVertex l k 1 0)]) :
    ∃ n : V3, n.norm = 1 ∧ a.normal = n ∧ b.normal = n ∧ c.normal = n ∧
      (∃ k : ℝ, 0 < k ∧ (b.pos - a.pos).cross (c.pos - a.pos) = k • n) ∧
      ∀ v, v = a ∨ v = b ∨ v = c → Corner l v.pos ∧ n.dot v.pos = l / 2 := by
  rw [List.mem_flatMap] at h
  obtain ⟨k, hk, h⟩ := h
  rw [List.mem_range] at hk
  simp only [List.mem_cons, List.not_mem_nil, or_false, Prod.mk.injEq] at h
  have hp : 0 < l ^ 2 := by positivity
  refine ⟨cubeNormal (4 * k), cubeNormal_norm (by omega), ?_⟩
  rcases h with ⟨rfl, rfl, rfl⟩ | ⟨rfl, rfl, rfl⟩
  · refine ⟨rfl, rfl, rfl, ⟨l ^ 2, hp, (cube_cross l hk).1⟩, fun v hv => ?_⟩
    rcases hv with rfl | rfl | rfl <;> exact cube_corner hl hk (by norm_num)
  · refine ⟨rfl, rfl, rfl, ⟨l ^ 2, hp, (cube_cross l hk).2⟩, fun v hv => ?_⟩
    rcases hv with rfl | rfl | rfl <;> exact cube_corner hl hk (by norm_num)

end Rovio.Scene3D
