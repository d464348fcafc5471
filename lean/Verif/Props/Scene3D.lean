import Verif.Lemmas.Scene3D
import Verif.Spec.Geometry
import Verif.Lemmas.MultiCamera

/-!
# C91: the 3D view shows its objects where they are
-/

namespace Rovio.Scene3D

open Rovio.Scene3D.Spec

/-! ### Projection -/

/-- C91: drawing an object shows its vertices, in the order of the indices, where a viewer at the view point sees them: a vertex is inside the
clip volume exactly if its position in the world is in the visible pyramid; its place in the picture is the central projection, scaled so that the
field of view fills it; colours are kept and normals turned into the world. -/
theorem C91_projection (s : View) (hp : Proper s.proj) (o : Obj) (d : Drawn) (h : s.drawObj o = some d) :
    ∃ vs, o.elements = some vs ∧ d.mode = o.mode ∧ d.verts.length = vs.length ∧
      ∀ (k : ℕ) (v : Vertex), vs[k]? = some v → ∃ sh, d.verts[k]? = some sh ∧ sh.color = v.color ∧ sh.normal = o.q.inv.rotate v.normal ∧
        let P := seenFrom s.pos s.q (worldPoint o.pos o.q v.pos)
        (Clip sh.position ↔ Visible s.proj P) ∧
        (P.z ≠ 0 → sh.position.x / sh.position.w * (Real.tan (s.proj.fov / 2) * (s.proj.width / s.proj.height)) = P.x / -P.z ∧
          sh.position.y / sh.position.w * Real.tan (s.proj.fov / 2) = P.y / -P.z) := by
  simp only [View.drawObj, Option.bind_eq_bind, Option.bind_eq_some_iff, Option.pure_def, Option.some.injEq] at h
  obtain ⟨vs, hvs, rfl⟩ := h
  refine ⟨vs, hvs, rfl, by simp, fun k v hk => ?_⟩
  refine ⟨_, by rw [List.getElem?_map, hk]; rfl, ?_, ?_, ?_⟩
  · rw [shade_position]
  · rw [shade_position]
  · rw [shade_position]
    refine ⟨clip_iff_visible hp _, fun hz => ?_⟩
    have ht := (Proper.tan_pos hp).ne'
    have ha : s.proj.width / s.proj.height ≠ 0 := (div_pos hp.width hp.height).ne'
    simp only [clipOf]
    generalize seenFrom s.pos s.q (worldPoint o.pos o.q v.pos) = P at hz ⊢
    generalize Real.tan (s.proj.fov / 2) = t at ht ⊢
    generalize s.proj.width / s.proj.height = a at ha ⊢
    constructor <;> field_simp

/-- C91: of two points before the viewer the nearer one has the smaller depth, and so hides the other. -/
theorem C91_depth (s : View) (hp : Proper s.proj) (o o' : Obj) (d d' : Drawn) (h : s.drawObj o = some d) (h' : s.drawObj o' = some d')
    (vs vs' : List Vertex) (hv : o.elements = some vs) (hv' : o'.elements = some vs') (k k' : ℕ) (v v' : Vertex) (hk : vs[k]? = some v)
    (hk' : vs'[k']? = some v') (sh sh' : Shaded) (hs : d.verts[k]? = some sh) (hs' : d'.verts[k']? = some sh')
    (hz : (seenFrom s.pos s.q (worldPoint o'.pos o'.q v'.pos)).z < (seenFrom s.pos s.q (worldPoint o.pos o.q v.pos)).z)
    (h0 : (seenFrom s.pos s.q (worldPoint o.pos o.q v.pos)).z < 0) : depth sh.position < depth sh'.position := by
  simp only [View.drawObj, hv, hv', Option.bind_eq_bind, Option.bind_some, Option.pure_def, Option.some.injEq] at h h'
  subst h h'
  rw [List.getElem?_map, hk, Option.map_some, Option.some.injEq] at hs
  rw [List.getElem?_map, hk', Option.map_some, Option.some.injEq] at hs'
  subst hs hs'
  rw [shade_position, shade_position]
  exact depth_lt hp hz h0

lemma triangles_map {α β : Type} (f : α → β) : ∀ l : List α, triangles (l.map f) = (triangles l).map fun t => (f t.1, f t.2.1, f t.2.2)
  | [] => rfl
  | [_] => rfl
  | [_, _] => rfl
  | a :: b :: c :: l => by simp only [List.map_cons, triangles, triangles_map f l]

/-- C91: of an object whose back faces are skipped, a triangle before the viewer is shown exactly if its normal (by the right-hand rule in the
order of its vertices) points away from the viewer. -/
theorem C91_culling (s : View) (hp : Proper s.proj) (hq : s.q.IsUnit) (o : Obj) (d : Drawn) (h : s.drawObj o = some d) (vs : List Vertex)
    (hv : o.elements = some vs) (i : ℕ) (a b c : Vertex) (sa sb sc : Shaded) (hi : (triangles vs)[i]? = some (a, b, c))
    (hs : (triangles d.verts)[i]? = some (sa, sb, sc)) (W H : ℝ) (hW : 0 < W) (hH : 0 < H)
    (hz : ∀ v ∈ [a, b, c], (seenFrom s.pos s.q (worldPoint o.pos o.q v.pos)).z < 0) :
    Shown (window W H sa.position) (window W H sb.position) (window W H sc.position) ↔
      ((worldPoint o.pos o.q b.pos - worldPoint o.pos o.q a.pos).cross (worldPoint o.pos o.q c.pos - worldPoint o.pos o.q a.pos)).dot
        (s.pos - worldPoint o.pos o.q a.pos) < 0 := by
  simp only [View.drawObj, hv, Option.bind_eq_bind, Option.bind_some, Option.pure_def, Option.some.injEq] at h
  subst h
  dsimp only at hs
  rw [triangles_map, List.getElem?_map, hi, Option.map_some, Option.some.injEq, Prod.mk.injEq, Prod.mk.injEq] at hs
  obtain ⟨rfl, rfl, rfl⟩ := hs
  rw [shade_position, shade_position, shade_position, area_sign hp hW hH (hz a (by simp)) (hz b (by simp)) (hz c (by simp))]
  generalize worldPoint o.pos o.q a.pos = P0
  generalize worldPoint o.pos o.q b.pos = P1
  generalize worldPoint o.pos o.q c.pos = P2
  unfold seenFrom
  rw [show s.q.rotate (P1 - s.pos) - s.q.rotate (P0 - s.pos) = s.q.rotate (P1 - P0) by rw [← Quat.rotate_sub]; congr 1; ext <;> simp,
    show s.q.rotate (P2 - s.pos) - s.q.rotate (P0 - s.pos) = s.q.rotate (P2 - P0) by rw [← Quat.rotate_sub]; congr 1; ext <;> simp,
    Quat.cross_rotate hq, Quat.dot_rotate hq]
  rw [show (P0 - s.pos).dot ((P1 - P0).cross (P2 - P0)) = -((P1 - P0).cross (P2 - P0)).dot (s.pos - P0) by simp [V3.dot]; ring]
  constructor <;> intro h <;> linarith

/-- The default settings are sensible. -/
theorem C91_default_proper : Proper PersProj.default := by
  constructor <;> simp only [PersProj.default] <;> norm_num
  exact Real.pi_pos

/-- C91_projection, C91_depth and C91_culling are not vacuous: a triangle five metres before the initial view. -/
example : ∃ d, View.new.drawObj { Obj.new.prolonge [⟨0, 0, -5⟩, ⟨1, 0, -5⟩, ⟨0, 1, -5⟩] with mode := .triangles } = some d ∧ d.verts.length = 3 ∧
    Visible View.new.proj (seenFrom View.new.pos View.new.q (worldPoint ⟨0, 0, 0⟩ Quat.one ⟨1, 0, -5⟩)) := by
  have hok : Obj.Ok { Obj.new.prolonge [⟨0, 0, -5⟩, ⟨1, 0, -5⟩, ⟨0, 1, -5⟩] with mode := .triangles } :=
    Obj.Ok.mode (Obj.Ok.prolonge ⟨by simp [Obj.new], Or.inl rfl⟩ _) _
  refine ⟨_, by simp only [View.drawObj, hok.elements, Option.bind_eq_bind, Option.bind_some, Option.pure_def]; rfl, ?_, ?_⟩
  · simp [Obj.prolonge, Obj.allocateBuffer, Obj.new, List.range_succ]
  · simp only [Visible, View.new, PersProj.default, seenFrom, worldPoint, Quat.rotate, Quat.inv, Quat.one]
    rw [show Real.pi / 2 / 2 = Real.pi / 4 by ring, Real.tan_pi_div_four]
    norm_num [V3.add_x, V3.add_y, V3.add_z]

/-! ### Objects -/

/-- C91: whatever is done to an object, in whatever order, drawing it reads inside its buffers and shows exactly the vertices named by its
indices. -/
theorem C91_objects (ops : List ObjOp) :
    ∃ o, ops.foldlM ObjOp.run Obj.new = some o ∧ o.elements = some (o.inds.filterMap fun i => o.verts[i]?) ∧
      (o.inds.filterMap fun i => o.verts[i]?).length = o.inds.length := by
  have step : ∀ (o : Obj) (op : ObjOp), o.Ok → ∃ o', op.run o = some o' ∧ o'.Ok := by
    intro o op h
    cases op with
    | clear => exact ⟨_, rfl, Obj.Ok.clear o⟩
    | prolonge ps => exact ⟨_, rfl, h.prolonge ps⟩
    | line ps => exact ⟨_, rfl, Obj.Ok.mode ((Obj.Ok.clear o).prolonge ps) _⟩
    | points ps => exact ⟨_, rfl, Obj.Ok.mode ((Obj.Ok.clear o).prolonge ps) _⟩
    | frame l => exact ⟨_, rfl, Obj.Ok.frame o l⟩
    | rectangle x y => exact ⟨_, rfl, Obj.Ok.rectangle o x y⟩
    | texturedRectangle x y => exact ⟨_, rfl, Obj.Ok.texturedRectangle o x y⟩
    | cubeMesh l => exact ⟨_, rfl, Obj.Ok.cubeMesh o l⟩
    | cubeFull l =>
      obtain ⟨o', h1, h2, h3, h4⟩ := calcNormals_ok (o := { o with verts := (Obj.cubeFull l).1, inds := (Obj.cubeFull l).2 })
        (show 3 ∣ 36 by norm_num) (fun i hi => by
          have hi' : i ∈ (List.range 6).flatMap fun k => [4 * k, 4 * k + 2, 4 * k + 1, 4 * k, 4 * k + 3, 4 * k + 2] := hi
          simp only [List.mem_flatMap, List.mem_range] at hi'
          obtain ⟨k, hk, hi'⟩ := hi'
          change i < 24
          have : i ≤ 4 * k + 3 := by
            simp only [List.mem_cons, List.not_mem_nil, or_false] at hi'
            rcases hi' with rfl | rfl | rfl | rfl | rfl | rfl <;> omega
          omega) .triangles true
      exact ⟨_, by simp only [ObjOp.run, Obj.makeCubeFull, h1, Option.bind_eq_bind, Option.bind_some, Option.pure_def], h4⟩
    | tetrahedron l =>
      obtain ⟨o', h1, h2, h3, h4⟩ := calcNormals_ok (o := { o with verts := (Obj.tetrahedron l).1, inds := (Obj.tetrahedron l).2 })
        (show 3 ∣ 12 by norm_num) (fun i hi => by
          have hi' : i ∈ (List.range 4).flatMap fun i => [3 * i + i % 2, 3 * i + 1 - i % 2, 3 * i + 2] := hi
          simp only [List.mem_flatMap, List.mem_range] at hi'
          obtain ⟨k, hk, hi'⟩ := hi'
          change i < 12
          have : i ≤ 3 * k + 2 := by
            simp only [List.mem_cons, List.not_mem_nil, or_false] at hi'
            rcases hi' with rfl | rfl | rfl <;> omega
          omega) .triangles true
      exact ⟨_, by simp only [ObjOp.run, Obj.makeTetrahedron, h1, Option.bind_eq_bind, Option.bind_some, Option.pure_def], h4⟩
    | groundPlane l N c1 c2 => exact ⟨_, rfl, Obj.Ok.groundPlane o l N c1 c2⟩
    | groundPlaneMesh l N => exact ⟨_, rfl, Obj.Ok.groundPlaneMesh o l N⟩
    | color c => exact ⟨_, rfl, h.color c⟩
    | upload => exact ⟨_, rfl, Obj.Ok.alloc h.range⟩
    | place r q => exact ⟨_, rfl, ⟨h.range, h.ibo⟩⟩
    | initTexture c r => exact ⟨_, rfl, ⟨h.range, h.ibo⟩⟩
  have all : ∀ (ops : List ObjOp) (o : Obj), o.Ok → ∃ o', ops.foldlM ObjOp.run o = some o' ∧ o'.Ok := by
    intro ops
    induction ops with
    | nil => intro o h; exact ⟨o, rfl, h⟩
    | cons op ops ih =>
      intro o h
      obtain ⟨o1, h1, h2⟩ := step o op h
      obtain ⟨o2, h3, h4⟩ := ih o1 h2
      exact ⟨o2, by simp only [List.foldlM_cons, h1, Option.bind_eq_bind, Option.bind_some, h3], h4⟩
  obtain ⟨o, h1, h2⟩ := all ops Obj.new ⟨by simp [Obj.new], Or.inl rfl⟩
  refine ⟨o, h1, h2.elements, ?_⟩
  have := h2.range
  generalize o.inds = l at this ⊢
  induction l with
  | nil => rfl
  | cons a l ih =>
    have ha := this a (by simp)
    rw [List.filterMap_cons, List.getElem?_eq_getElem ha]
    simp [ih fun i hi => this i (by simp [hi])]

/-- C91: a line or a set of points shows exactly the points it was given, in order, and prolonging it adds points at the end. -/
theorem C91_points (o : Obj) (ps qs : List V3) :
    (o.makeLine ps).elements = some (ps.map Vertex.ofPos) ∧ (o.makeLine ps).mode = .lineStrip ∧
    (o.makePoints ps).elements = some (ps.map Vertex.ofPos) ∧ (o.makePoints ps).mode = .points ∧
    ((o.makeLine ps).prolonge qs).elements = some ((ps ++ qs).map Vertex.ofPos) ∧
    (∀ q, ((o.makePoints ps).prolonge1 q).elements = some ((ps ++ [q]).map Vertex.ofPos)) := by
  have key : ∀ (n : ℕ) (l : List Vertex), l.length = n → (List.range n).filterMap (fun i => l[i]?) = l := by
    intro n l h
    subst h
    induction l with
    | nil => rfl
    | cons a l ih =>
      rw [List.length_cons, List.range_succ_eq_map, List.filterMap_cons, List.filterMap_map]
      simp only [List.getElem?_cons_zero]
      exact congrArg _ ih
  have one : ∀ (o : Obj) (ps : List V3), (o.clear.prolonge ps).verts = ps.map Vertex.ofPos ∧ (o.clear.prolonge ps).inds = List.range ps.length := by
    intro o ps
    refine ⟨by simp [Obj.prolonge, Obj.allocateBuffer, Obj.clear], by simp [Obj.prolonge, Obj.allocateBuffer, Obj.clear]⟩
  have two : ∀ (o : Obj) (ps qs : List V3), o.Ok → o.verts = ps.map Vertex.ofPos → o.inds = List.range ps.length →
      (o.prolonge qs).elements = some ((ps ++ qs).map Vertex.ofPos) := by
    intro o ps qs ho h1 h2
    rw [(ho.prolonge qs).elements]
    simp only [Obj.prolonge, Obj.allocateBuffer, h1, h2, List.length_map]
    rw [← List.range_add, ← List.map_append]
    exact congrArg some (key _ _ (by simp))
  have hl : (o.makeLine ps).Ok := Obj.Ok.mode ((Obj.Ok.clear o).prolonge ps) _
  have hp : (o.makePoints ps).Ok := Obj.Ok.mode ((Obj.Ok.clear o).prolonge ps) _
  obtain ⟨h1, h2⟩ := one o ps
  refine ⟨?_, rfl, ?_, rfl, two _ ps qs hl h1 h2, fun q => two _ ps [q] hp h1 h2⟩
  · rw [hl.elements]
    exact congrArg some (by rw [show (o.makeLine ps).verts = _ from h1, show (o.makeLine ps).inds = _ from h2]; exact key _ _ (by simp))
  · rw [hp.elements]
    exact congrArg some (by rw [show (o.makePoints ps).verts = _ from h1, show (o.makePoints ps).inds = _ from h2]; exact key _ _ (by simp))

/-- C91: a coordinate frame is drawn as three segments from the origin along the axes, the x axis in red, y in green and z in blue. -/
theorem C91_frame (o : Obj) (l : ℝ) : ∃ vs, (o.makeCoordinateFrame l).elements = some vs ∧ (o.makeCoordinateFrame l).mode = .lines ∧
    segments (vs.map fun v => (v.pos, v.color)) =
      [((⟨0, 0, 0⟩, ⟨1, 0, 0, 1⟩), (⟨l, 0, 0⟩, ⟨1, 0, 0, 1⟩)), ((⟨0, 0, 0⟩, ⟨0, 1, 0, 1⟩), (⟨0, l, 0⟩, ⟨0, 1, 0, 1⟩)),
       ((⟨0, 0, 0⟩, ⟨0, 0, 1, 1⟩), (⟨0, 0, l⟩, ⟨0, 0, 1, 1⟩))] := by
  refine ⟨_, (Obj.Ok.frame o l).elements, rfl, ?_⟩
  have ev : (o.makeCoordinateFrame l).verts = [⟨⟨0, 0, 0⟩, ⟨0, 0, 1⟩, Obj.axisColor 0 1⟩, ⟨l • Obj.axis 0, ⟨0, 0, 1⟩, Obj.axisColor 0 1⟩,
    ⟨⟨0, 0, 0⟩, ⟨0, 0, 1⟩, Obj.axisColor 1 1⟩, ⟨l • Obj.axis 1, ⟨0, 0, 1⟩, Obj.axisColor 1 1⟩,
    ⟨⟨0, 0, 0⟩, ⟨0, 0, 1⟩, Obj.axisColor 2 1⟩, ⟨l • Obj.axis 2, ⟨0, 0, 1⟩, Obj.axisColor 2 1⟩] := rfl
  have ei : (o.makeCoordinateFrame l).inds = [0, 1, 2, 3, 4, 5] := rfl
  rw [ev, ei]
  simp only [List.filterMap_cons, List.filterMap_nil, List.getElem?_cons_zero, List.getElem?_cons_succ, List.map_cons, List.map_nil, segments]
  have a0 : l • Obj.axis 0 = ⟨l, 0, 0⟩ := by ext <;> simp [Obj.axis]
  have a1 : l • Obj.axis 1 = ⟨0, l, 0⟩ := by ext <;> simp [Obj.axis]
  have a2 : l • Obj.axis 2 = ⟨0, 0, l⟩ := by ext <;> simp [Obj.axis]
  rw [a0, a1, a2]
  simp [Obj.axisColor]

/-- C91: the wire frame of a cube shows the twelve edges, each once: two points are joined exactly if both are corners and they differ in one
coordinate. -/
theorem C91_cubeMesh (o : Obj) (l : ℝ) (hl : 0 < l) : ∃ vs, (o.makeCubeMesh l).elements = some vs ∧ (o.makeCubeMesh l).mode = .lines ∧
    (segments (vs.map Vertex.pos)).length = 12 ∧
    ∀ A B : V3, ((A, B) ∈ segments (vs.map Vertex.pos) ∨ (B, A) ∈ segments (vs.map Vertex.pos)) ↔ Corner l A ∧ Corner l B ∧ Neighbours A B := by
  refine ⟨_, (Obj.Ok.cubeMesh o l).elements, rfl, ?_⟩
  obtain ⟨h, hh⟩ : ∃ h, h = l / 2 := ⟨_, rfl⟩
  have hpos : 0 < h := by rw [hh]; positivity
  have ev : (o.makeCubeMesh l).verts = [⟨-h, -h, -h⟩, ⟨-h, -h, h⟩, ⟨-h, h, -h⟩, ⟨-h, h, h⟩, ⟨h, -h, -h⟩, ⟨h, -h, h⟩, ⟨h, h, -h⟩, ⟨h, h, h⟩].map Vertex.ofPos := by
    simp only [Obj.makeCubeMesh, Obj.allocateBuffer, List.range, List.range.loop, List.flatMap_cons, List.flatMap_nil, List.map_cons, List.map_nil,
      List.append_nil, List.cons_append, List.nil_append, hh]
    norm_num
    ring_nf
    simp
  have ei : (o.makeCubeMesh l).inds = [0, 4, 1, 5, 2, 6, 3, 7, 0, 1, 2, 3, 4, 5, 6, 7, 0, 2, 4, 6, 1, 3, 5, 7] := rfl
  rw [ev, ei]
  simp only [List.filterMap_cons, List.filterMap_nil, List.getElem?_cons_zero, List.getElem?_cons_succ, List.map_cons, List.map_nil, segments,
    Vertex.ofPos]
  refine ⟨rfl, fun A B => ?_⟩
  simp only [Corner, ← hh]
  constructor
  · intro hAB
    simp only [List.mem_cons, List.not_mem_nil, or_false, Prod.mk.injEq] at hAB
    have hne : h ≠ -h := by linarith
    have hne' : -h ≠ h := by linarith
    rcases hAB with hAB | hAB <;> rcases hAB with ⟨rfl, rfl⟩ | ⟨rfl, rfl⟩ | ⟨rfl, rfl⟩ | ⟨rfl, rfl⟩ | ⟨rfl, rfl⟩ | ⟨rfl, rfl⟩ | ⟨rfl, rfl⟩ | ⟨rfl, rfl⟩ |
      ⟨rfl, rfl⟩ | ⟨rfl, rfl⟩ | ⟨rfl, rfl⟩ | ⟨rfl, rfl⟩ <;> simp [Neighbours, abs_of_pos hpos, hne, hne']
  · rintro ⟨⟨ax, ay, az⟩, ⟨bx, bY, bz⟩, hn⟩
    rcases A with ⟨a1, a2, a3⟩
    rcases B with ⟨b1, b2, b3⟩
    dsimp only at ax ay az bx bY bz
    rw [abs_eq hpos.le] at ax ay az bx bY bz
    have hne : h ≠ -h := by linarith
    have hne' : -h ≠ h := by linarith
    rcases ax with rfl | rfl <;> rcases ay with rfl | rfl <;> rcases az with rfl | rfl <;> rcases bx with rfl | rfl <;>
      rcases bY with rfl | rfl <;> rcases bz with rfl | rfl <;> simp [Neighbours, hne, hne'] at hn ⊢

/-- C91: the grid on the ground: `N + 1` lines in either direction, `l` apart, spanning the square of side `l N` around the origin. -/
theorem C91_groundPlaneMesh (o : Obj) (l : ℝ) (N : ℕ) : ∃ vs, (o.makeGroundPlaneMesh l N).elements = some vs ∧
    (o.makeGroundPlaneMesh l N).mode = .lines ∧
    segments (vs.map Vertex.pos) = (List.range (N + 1)).flatMap fun (i : ℕ) =>
      [(⟨l * i - l * N / 2, -(l * N / 2), 0⟩, ⟨l * i - l * N / 2, l * N / 2, 0⟩), (⟨-(l * N / 2), l * i - l * N / 2, 0⟩, ⟨l * N / 2, l * i - l * N / 2, 0⟩)] := by
  refine ⟨_, (Obj.Ok.groundPlaneMesh o l N).elements, rfl, ?_⟩
  have ei : (o.makeGroundPlaneMesh l N).inds = List.range (4 * (N + 1)) := by
    have : ∀ n : ℕ, ((List.range n).flatMap fun (i : ℕ) => [i * 4, i * 4 + 1, i * 4 + 2, i * 4 + 3]) = List.range (4 * n) := by
      intro n
      induction n with
      | zero => rfl
      | succ n ih =>
        rw [List.range_succ, List.flatMap_append, ih, show 4 * (n + 1) = 4 * n + 1 + 1 + 1 + 1 by ring, List.range_succ, List.range_succ,
          List.range_succ, List.range_succ]
        simp [Nat.mul_comm]
    exact this (N + 1)
  have hl : (o.makeGroundPlaneMesh l N).verts.length = 4 * (N + 1) := by
    change (List.flatMap _ _).length = _
    rw [length_flatMap_const _ 4, List.length_range, Nat.mul_comm]
    intro x _
    rfl
  rw [ei, ← hl, filterMap_range]
  have hs : ∀ (is : List ℕ) (f g h k : ℕ → V3), segments ((is.flatMap fun i => [f i, g i, h i, k i].map Vertex.ofPos).map Vertex.pos) =
      is.flatMap fun i => [(f i, g i), (h i, k i)] := by
    intro is f g h k
    induction is with
    | nil => rfl
    | cons i is ih =>
      simp only [List.flatMap_cons, List.map_cons, List.map_nil, List.cons_append, List.nil_append, segments, Vertex.ofPos]
      rw [← ih]
      rfl
  change segments ((List.flatMap (fun (i : ℕ) => [_, _, _, _].map Vertex.ofPos) _).map Vertex.pos) = _
  rw [hs]
  congr 1
  funext i
  simp only [List.cons.injEq, Prod.mk.injEq, V3.mk.injEq, and_true]
  refine ⟨⟨⟨?_, ?_⟩, ?_, ?_⟩, ⟨?_, ?_⟩, ?_, ?_⟩ <;> ring

/-- C91: the chequered ground: each of the `N × N` squares of side `l` is drawn as two triangles, in the colour of its parity. -/
theorem C91_groundPlane (o : Obj) (l : ℝ) (N : ℕ) (c1 c2 : V4) : ∃ vs, (o.makeGroundPlane l N c1 c2).elements = some vs ∧
    (o.makeGroundPlane l N c1 c2).mode = .triangles ∧ (o.makeGroundPlane l N c1 c2).cull = false ∧
    triangles (vs.map fun v => (v.pos, v.color)) = (List.range N).flatMap fun (x : ℕ) => (List.range N).flatMap fun (y : ℕ) =>
      let p (i j : ℕ) : V3 × V4 := (⟨l * (x + i) - l * N / 2, l * (y + j) - l * N / 2, 0⟩, if (x + y) % 2 = 0 then c1 else c2)
      [(p 0 0, p 0 1, p 1 0), (p 1 1, p 0 1, p 1 0)] := by
  refine ⟨_, (Obj.Ok.groundPlane o l N c1 c2).elements, rfl, rfl, ?_⟩
  have hv : (o.makeGroundPlane l N c1 c2).verts = ((List.range N).flatMap fun (x : ℕ) => (List.range N).map fun (y : ℕ) => (x, y)).flatMap fun xy =>
      [(0, 0), (0, 1), (1, 0), (1, 1)].map fun (ij : ℕ × ℕ) =>
        (⟨⟨l * (xy.1 + ij.1) - l * N / 2, l * (xy.2 + ij.2) - l * N / 2, 0⟩, ⟨0, 0, 1⟩, if (xy.1 + xy.2) % 2 = 0 then c1 else c2⟩ : Vertex) := by
    change (List.flatMap _ _) = _
    rw [List.flatMap_assoc]
    congr 1
    funext x
    rw [List.flatMap_map]
    congr 1
    funext y
    simp only [List.range, List.range.loop, List.flatMap_cons, List.flatMap_nil, List.map_cons, List.map_nil, List.append_nil, List.cons_append,
      List.nil_append, Nat.cast_zero, Nat.cast_one]
    ring_nf
  have hi : (o.makeGroundPlane l N c1 c2).inds = (List.range ((List.range N).flatMap fun (x : ℕ) => (List.range N).map fun (y : ℕ) => (x, y)).length).flatMap
      fun k => Obj.square (4 * k) := by
    rw [length_flatMap_const _ N _ (by simp), List.length_range]
    rfl
  rw [hv, hi]
  have hs : ∀ (l : List (ℕ × ℕ)) (f : ℕ × ℕ → ℕ × ℕ → Vertex),
      triangles ((((List.range l.length).flatMap fun k => Obj.square (4 * k)).filterMap fun i =>
        (l.flatMap fun xy => [(0, 0), (0, 1), (1, 0), (1, 1)].map (f xy))[i]?).map fun v => (v.pos, v.color)) =
      l.flatMap fun xy => let p (i j : ℕ) : V3 × V4 := ((f xy (i, j)).pos, (f xy (i, j)).color)
        [(p 0 0, p 0 1, p 1 0), (p 1 1, p 0 1, p 1 0)] := by
    intro l f
    induction l with
    | nil => rfl
    | cons xy l ih =>
      rw [List.length_cons, List.range_succ_eq_map, List.flatMap_cons (xs := List.map Nat.succ _), List.filterMap_append, List.map_append, List.flatMap_map]
      have e : List.filterMap (fun i => (((xy :: l).flatMap fun xy => [(0, 0), (0, 1), (1, 0), (1, 1)].map (f xy)))[i]?)
          (List.flatMap (fun a => Obj.square (4 * a.succ)) (List.range l.length)) =
          List.filterMap (fun i => ((l.flatMap fun xy => [(0, 0), (0, 1), (1, 0), (1, 1)].map (f xy)))[i]?)
          (List.flatMap (fun a => Obj.square (4 * a)) (List.range l.length)) := by
        rw [show (fun a => Obj.square (4 * a.succ)) = fun a => (Obj.square (4 * a)).map (· + 4) by
          funext a; simp only [Obj.square, List.map_cons, List.map_nil]; congr 1]
        rw [← List.map_flatMap, List.filterMap_map]
        congr 1
      rw [e]
      simp only [Obj.square, List.filterMap_cons, List.filterMap_nil, List.flatMap_cons, List.map_cons, List.map_nil, List.cons_append, List.nil_append,
        List.getElem?_cons_zero, List.getElem?_cons_succ, Nat.mul_zero, Nat.zero_add, triangles]
      rw [← ih]
      rfl
  rw [hs, List.flatMap_assoc]
  congr 1
  funext x
  rw [List.flatMap_map]

/-- C91: a textured rectangle of size `x` by `y` is drawn as its two halves; the texture coordinates of a vertex are its relative position. -/
theorem C91_rectangle (o : Obj) (x y : ℝ) : ∃ vs, (o.makeTexturedRectangle x y).elements = some vs ∧
    (o.makeTexturedRectangle x y).mode = .triangles ∧ (o.makeTexturedRectangle x y).cull = false ∧
    triangles (vs.map fun v => ((v.color.x, v.color.y) : ℝ × ℝ)) = [((0, 0), (1, 0), (0, 1)), ((1, 1), (1, 0), (0, 1))] ∧
    ∀ v ∈ vs, v.pos = ⟨(v.color.x - 1 / 2) * x, (v.color.y - 1 / 2) * y, 0⟩ := by
  refine ⟨_, (Obj.Ok.texturedRectangle o x y).elements, rfl, rfl, ?_⟩
  have ev : (o.makeTexturedRectangle x y).verts = [Obj.texCoord (Vertex.ofPos ⟨-0.5 * x, -0.5 * y, 0⟩) 0 0, Obj.texCoord (Vertex.ofPos ⟨0.5 * x, -0.5 * y, 0⟩) 1 0,
    Obj.texCoord (Vertex.ofPos ⟨-0.5 * x, 0.5 * y, 0⟩) 0 1, Obj.texCoord (Vertex.ofPos ⟨0.5 * x, 0.5 * y, 0⟩) 1 1] := rfl
  have ei : (o.makeTexturedRectangle x y).inds = [0, 1, 2, 3, 1, 2] := rfl
  rw [ev, ei]
  simp only [List.filterMap_cons, List.filterMap_nil, List.getElem?_cons_zero, List.getElem?_cons_succ, List.map_cons, List.map_nil, triangles,
    Obj.texCoord, Vertex.ofPos]
  refine ⟨trivial, fun v hv => ?_⟩
  simp only [List.mem_cons, List.not_mem_nil, or_false] at hv
  rcases hv with rfl | rfl | rfl | rfl | rfl | rfl <;> ext <;> norm_num

/-- C91: a full cube: each of the six sides is drawn by two triangles on either side of a diagonal; every triangle drawn lies in a side, and its three vertices carry that side's outward unit normal, which is also the
right-hand normal of the order in which they are passed. -/
theorem C91_cube (o : Obj) (l : ℝ) (hl : 0 < l) : ∃ o' vs, o.makeCubeFull l = some o' ∧ o'.elements = some vs ∧ o'.mode = .triangles ∧ o'.cull = true ∧
    o'.pos = o.pos ∧ o'.q = o.q ∧ (triangles vs).length = 12 ∧
    (∀ a b c, (a, b, c) ∈ triangles vs → ∃ n : V3, n.norm = 1 ∧ a.normal = n ∧ b.normal = n ∧ c.normal = n ∧
      (∃ k : ℝ, 0 < k ∧ (b.pos - a.pos).cross (c.pos - a.pos) = k • n) ∧
      ∀ v, v = a ∨ v = b ∨ v = c → Corner l v.pos ∧ n.dot v.pos = l / 2) ∧
    ∀ n ∈ ([⟨1, 0, 0⟩, ⟨-1, 0, 0⟩, ⟨0, 1, 0⟩, ⟨0, -1, 0⟩, ⟨0, 0, 1⟩, ⟨0, 0, -1⟩] : List V3), ∃ a b c d : Vertex,
      (a, b, c) ∈ triangles vs ∧ (a, d, b) ∈ triangles vs ∧ a.normal = n ∧ ([a, b, c, d].map Vertex.pos).Nodup := by
  obtain ⟨o', vs, h1, h2, h3, h4, h5, h6, h7, h8⟩ := cube_triangles o hl
  refine ⟨o', vs, h1, h2, h3, h4, h5, h6, by rw [h8]; rfl, fun a b c h => cube_elements hl (by rw [h8] at h; exact h), ?_⟩
  have side : ∀ (k : ℕ) (n : V3), k < 6 → cubeNormal (4 * k) = n → ∃ a b c d : Vertex,
      (a, b, c) ∈ triangles vs ∧ (a, d, b) ∈ triangles vs ∧ a.normal = n ∧ ([a, b, c, d].map Vertex.pos).Nodup := by
    intro k n hk hn
    refine ⟨cubeVertex l k 0 0, cubeVertex l k 1 0, cubeVertex l k 0 1, cubeVertex l k 1 1, ?_, ?_, hn, ?_⟩
    · rw [h8, List.mem_flatMap]; exact ⟨k, List.mem_range.mpr hk, by simp⟩
    · rw [h8, List.mem_flatMap]; exact ⟨k, List.mem_range.mpr hk, by simp⟩
    · have n1 : ¬ 1 / 2 * l = -(1 / 2 * l) := by intro h; linarith
      have n2 : ¬ -(1 / 2 * l) = 1 / 2 * l := by intro h; linarith
      interval_cases k <;> simp [cubeVertex, cubePos, Obj.axis, V3.cross, V3.ext_iff] <;> norm_num [n1, n2]
  intro n hn
  simp only [List.mem_cons, List.not_mem_nil, or_false] at hn
  rcases hn with rfl | rfl | rfl | rfl | rfl | rfl
  · exact side 1 _ (by norm_num) (by ext <;> norm_num [cubeNormal, Obj.axis])
  · exact side 0 _ (by norm_num) (by ext <;> norm_num [cubeNormal, Obj.axis])
  · exact side 3 _ (by norm_num) (by ext <;> norm_num [cubeNormal, Obj.axis])
  · exact side 2 _ (by norm_num) (by ext <;> norm_num [cubeNormal, Obj.axis])
  · exact side 5 _ (by norm_num) (by ext <;> norm_num [cubeNormal, Obj.axis])
  · exact side 4 _ (by norm_num) (by ext <;> norm_num [cubeNormal, Obj.axis])

/-- Finding (C91): the sides of a cube that face the viewer are the ones that are *not* shown: the front side is declared to be the clockwise
one, while the triangles of a cube are counterclockwise seen from outside. -/
theorem C91_finding_cube_culled (s : View) (hp : Proper s.proj) (hq : s.q.IsUnit) (o : Obj) (ho : o.q.IsUnit) (l : ℝ) (hl : 0 < l) :
    ∃ o' vs d, o.makeCubeFull l = some o' ∧ o'.cull = true ∧ o'.elements = some vs ∧ s.drawObj o' = some d ∧
      ∀ (i : ℕ) (a b c : Vertex) (sa sb sc : Shaded), (triangles vs)[i]? = some (a, b, c) → (triangles d.verts)[i]? = some (sa, sb, sc) →
        ∀ W H : ℝ, 0 < W → 0 < H → (∀ v ∈ [a, b, c], (seenFrom s.pos s.q (worldPoint o.pos o.q v.pos)).z < 0) →
        0 < (o.q.inv.rotate a.normal).dot (s.pos - worldPoint o.pos o.q a.pos) →
        ¬ Shown (window W H sa.position) (window W H sb.position) (window W H sc.position) := by
  obtain ⟨o', vs, h1, h2, -, h4, h5, h6, -, h7, -⟩ := C91_cube o l hl
  obtain ⟨d, hd⟩ : ∃ d, s.drawObj o' = some d := by
    refine Option.isSome_iff_exists.mp ?_
    simp only [View.drawObj, h2, Option.bind_eq_bind, Option.bind_some, Option.pure_def, Option.isSome_some]
  refine ⟨o', vs, d, h1, h4, h2, hd, ?_⟩
  intro i a b c sa sb sc hi hs W H hW hH hz hn hsh
  rw [C91_culling s hp hq o' d hd vs h2 i a b c sa sb sc hi hs W H hW hH (by rw [h5, h6]; exact hz), h5, h6] at hsh
  obtain ⟨n, -, ha, -, -, ⟨k, hk, hc⟩, -⟩ := h7 a b c (List.mem_of_getElem? hi)
  have e : ∀ u v : V3, worldPoint o.pos o.q u - worldPoint o.pos o.q v = o.q.inv.rotate (u - v) := by
    intro u v
    rw [Quat.rotate_sub]
    unfold worldPoint
    ext <;> simp
  rw [e, e, Quat.cross_rotate ho.inv, hc, Quat.rotate_smul, V3.smul_dot, ← ha] at hsh
  have := mul_pos hk hn
  linarith

/-- C91_finding_cube_culled is not vacuous: from the initial view point, the nearer side of a cube five metres ahead is not shown. -/
example : ∃ o' vs d a b c, Obj.makeCubeFull { Obj.new with pos := ⟨0, 0, -5⟩ } 1 = some o' ∧ o'.elements = some vs ∧ View.new.drawObj o' = some d ∧
    (a, b, c) ∈ triangles vs ∧ (∀ v ∈ [a, b, c], (worldPoint o'.pos o'.q v.pos).z = -4.5) ∧
    0 < (o'.q.inv.rotate a.normal).dot (View.new.pos - worldPoint o'.pos o'.q a.pos) := by
  obtain ⟨o', vs, d, h1, -, h2, h3, -⟩ := C91_finding_cube_culled View.new C91_default_proper Quat.isUnit_one { Obj.new with pos := ⟨0, 0, -5⟩ }
    Quat.isUnit_one 1 one_pos
  obtain ⟨o'', vs', h1', h2', -, -, h5, h6, -, h7, h8⟩ := C91_cube { Obj.new with pos := ⟨0, 0, -5⟩ } 1 one_pos
  rw [h1] at h1'
  obtain rfl := Option.some.inj h1'
  rw [h2] at h2'
  obtain rfl := Option.some.inj h2'
  obtain ⟨a, b, c, -, ha, -, hn, -⟩ := h8 ⟨0, 0, 1⟩ (by simp)
  obtain ⟨n, -, hn', -, -, -, hc⟩ := h7 a b c ha
  rw [hn] at hn'
  subst hn'
  have hz : ∀ v, v = a ∨ v = b ∨ v = c → v.pos.z = 1 / 2 := by
    intro v hv
    have := (hc v hv).2
    simpa [V3.dot] using this
  refine ⟨o', vs, d, a, b, c, h1, h2, h3, ha, ?_, ?_⟩
  · intro v hv
    have := hz v (by simpa using hv)
    rw [h5, h6]
    simp [worldPoint, Quat.rotate, Quat.inv, Obj.new, Quat.one, this]
    norm_num
  · have := hz a (Or.inl rfl)
    rw [h5, h6, hn]
    simp [worldPoint, Quat.rotate, Quat.inv, Obj.new, Quat.one, this, View.new, V3.dot]
    norm_num

/-! ### Moving the view point -/

/-- C91: the arrow and page keys move the view point half a unit along the axes of the view: forward, backward, left, right, up and down. -/
theorem C91_keys (s : View) (hq : s.q.IsUnit) (hs : s.stepScale = 0.5) (k : Key) (P : V3) :
    seenFrom (s.key k).pos (s.key k).q P = seenFrom s.pos s.q P + shift (1 / 2) k ∧ (s.key k).proj = s.proj := by
  have e : ∀ (v w : V3), s.q.rotate (P - (s.pos + w)) = s.q.rotate (P - s.pos) - s.q.rotate w := by
    intro v w
    rw [← Quat.rotate_sub]
    congr 1
    ext <;> simp <;> ring
  have e' : ∀ (v w : V3), s.q.rotate (P - (s.pos - w)) = s.q.rotate (P - s.pos) + s.q.rotate w := by
    intro v w
    rw [← Quat.rotate_add]
    congr 1
    ext <;> simp <;> ring
  cases k <;> refine ⟨?_, rfl⟩ <;> simp only [View.key, seenFrom, e 0, e' 0, Quat.rotate_smul, Quat.rotate_rotate_inv hq, hs, shift] <;>
    ext <;> norm_num [sub_eq_add_neg]

lemma fix_unit {q : Quat} (h : q.IsUnit) : fix q = q := by
  unfold fix
  rw [show q.normSq = 1 from h, Real.sqrt_one]
  ext <;> simp

/-- C91: whatever keys are pressed and however the mouse is moved, the view point keeps a proper attitude; pressing and releasing the button turns
nothing, moving the mouse turns the view exactly while the left button is held, by the way the mouse went since it was last seen: 1/50 radian per
pixel, about the x axis for vertical and about the y axis for horizontal movement. -/
theorem C91_mouse (evs : List Event) :
    (evs.foldl View.event View.new).q.IsUnit ∧ (evs.foldl View.event View.new).proj = PersProj.default ∧
    (evs.foldl View.event View.new).stepScale = 0.5 ∧
    ∀ e : Event, (match e with
      | .key _ => ((evs ++ [e]).foldl View.event View.new).q = (evs.foldl View.event View.new).q
      | .mouse _ _ _ _ => ((evs ++ [e]).foldl View.event View.new).q = (evs.foldl View.event View.new).q ∧
          ((evs ++ [e]).foldl View.event View.new).pos = (evs.foldl View.event View.new).pos
      | .motion x y => ((evs ++ [e]).foldl View.event View.new).pos = (evs.foldl View.event View.new).pos ∧
          ((evs ++ [e]).foldl View.event View.new).q = match held evs with
            | none => (evs.foldl View.event View.new).q
            | some (a, b) => Quat.exp ⟨(y - b) / 50, (x - a) / 50, 0⟩ * (evs.foldl View.event View.new).q) := by
  have inv : ∀ evs : List Event, (evs.foldl View.event View.new).q.IsUnit ∧ (evs.foldl View.event View.new).proj = PersProj.default ∧
      (evs.foldl View.event View.new).stepScale = 0.5 ∧
      held evs = if (evs.foldl View.event View.new).motion then some (evs.foldl View.event View.new).mouse else none := by
    intro evs
    induction evs using List.reverseRecOn with
    | nil => exact ⟨Quat.isUnit_one, rfl, rfl, rfl⟩
    | append_singleton evs e ih =>
      obtain ⟨h1, h2, h3, h4⟩ := ih
      have hh : held (evs ++ [e]) = match e with
          | .mouse true true x y => some (x, y)
          | .mouse true false _ _ => none
          | .motion x y => (held evs).map fun _ => (x, y)
          | _ => held evs := by
        unfold held
        rw [List.foldl_append]
        rfl
      rw [hh, h4, List.foldl_append, List.foldl_cons, List.foldl_nil]
      generalize evs.foldl View.event View.new = s at h1 h2 h3 h4 ⊢
      cases e with
      | key k => cases k <;> exact ⟨h1, h2, h3, rfl⟩
      | motion x y =>
        simp only [View.event, View.motionCB]
        cases hm : s.motion
        · exact ⟨h1, h2, h3, by simp [hm]⟩
        · refine ⟨?_, h2, h3, ?_⟩
          · have : (s.q.boxPlus ⟨((y - s.mouse.2 : ℤ) : ℝ) / 50, ((x - s.mouse.1 : ℤ) : ℝ) / 50, 0⟩).IsUnit := (Quat.isUnit_exp _).mul h1
            simp only [if_true]
            rw [fix_unit this]
            exact this
          · simp
      | mouse l d x y => cases l <;> cases d <;> exact ⟨h1, h2, h3, by simp [View.event, View.mouseCB]⟩
  obtain ⟨h1, h2, h3, h4⟩ := inv evs
  refine ⟨h1, h2, h3, fun e => ?_⟩
  rw [List.foldl_append, List.foldl_cons, List.foldl_nil, h4]
  generalize evs.foldl View.event View.new = s at h1 h2 h3 h4 ⊢
  cases e with
  | key k => cases k <;> rfl
  | mouse l d x y => cases l <;> cases d <;> exact ⟨rfl, rfl⟩
  | motion x y =>
    simp only [View.event, View.motionCB]
    cases hm : s.motion
    · simp
    · simp only [if_true, true_and]
      have : (s.q.boxPlus ⟨((y - s.mouse.2 : ℤ) : ℝ) / 50, ((x - s.mouse.1 : ℤ) : ℝ) / 50, 0⟩).IsUnit := (Quat.isUnit_exp _).mul h1
      rw [fix_unit this]
      simp [Quat.boxPlus]

/-- C91_keys and C91_mouse are not vacuous: drag, release, drag, press a key. -/
example : held [.mouse true true 3 4, .motion 5 6, .key .up, .motion 7 8] = some (7, 8) ∧ held [.mouse true true 3 4, .mouse true false 5 6, .motion 7 8] = none ∧
    held [.mouse false true 3 4, .motion 7 8] = none := ⟨rfl, rfl, rfl⟩

/-- C91: `setView` puts the view point at the given place with the target in the middle of the picture. -/
theorem C91_setView (sfv : V3 → V3 → Quat) (hs : Rovio.Spec.SetFromVectors sfv) (s : View) (pos target : V3) (h : target ≠ pos) :
    (s.setView sfv pos target).pos = pos ∧ (s.setView sfv pos target).q.IsUnit ∧ (s.setView sfv pos target).proj = s.proj ∧
    seenFrom (s.setView sfv pos target).pos (s.setView sfv pos target).q target = ⟨0, 0, -(target - pos).norm⟩ := by
  have h0 : target - pos ≠ 0 := by
    intro e
    apply h
    have ex : (target - pos).x = 0 := by rw [e]; rfl
    have ey : (target - pos).y = 0 := by rw [e]; rfl
    have ez : (target - pos).z = 0 := by rw [e]; rfl
    simp only [V3.sub_x, V3.sub_y, V3.sub_z] at ex ey ez
    ext <;> linarith
  have h1 : (⟨0, 0, -1⟩ : V3) ≠ 0 := by
    intro e
    have : (⟨0, 0, -1⟩ : V3).z = 0 := by rw [e]; rfl
    norm_num at this
  refine ⟨rfl, hs.unit _ _ h0 h1, rfl, ?_⟩
  simp only [View.setView, seenFrom]
  have e : (sfv (target - pos) ⟨0, 0, -1⟩).rotate (target - pos) = (target - pos).norm • (⟨0, 0, -1⟩ : V3).normalized := by
    conv_lhs => rw [← V3.norm_smul_normalized h0, Quat.rotate_smul]
    rw [V3.norm_smul_normalized h0, hs.maps _ _ h0 h1]
  rw [e]
  have n1 : (⟨0, 0, -1⟩ : V3).normalized = ⟨0, 0, -1⟩ := by
    have : (⟨0, 0, -1⟩ : V3).norm = 1 := by simp [V3.norm, V3.normSq]
    unfold V3.normalized
    rw [this]
    ext <;> simp
  rw [n1]
  ext <;> simp

/-- C91_setView is not vacuous. -/
example : ∃ sfv, Rovio.Spec.SetFromVectors sfv ∧ (⟨0, 0, 0⟩ : V3) ≠ ⟨-5, -5, 5⟩ := by
  obtain ⟨f, hf⟩ := exists_setFromVectors
  refine ⟨f, hf, fun e => ?_⟩
  have := congrArg V3.x e
  norm_num at this

/-- C91: a key runs what was registered for it last, and nothing if nothing was. -/
theorem C91_keymap {A : Type} (m : KeyMap A) (k k' : ℕ) (a : A) :
    (m.add k a).press k = some a ∧ (k' ≠ k → (m.add k a).press k' = m.press k') := by
  refine ⟨by simp [KeyMap.add, KeyMap.press], fun h => by simp [KeyMap.add, KeyMap.press, h]⟩

/-! ### Turning the view upright -/

lemma down_eq {σ : ℝ} {yaw : ℝ → Quat} (hy : Yaw σ yaw) (s : View) (a : ℝ) :
    s.down (yaw a) = -(σ * Real.sin a * (s.q.rotate V3.ez).x + Real.cos a * (s.q.rotate V3.ez).y) := by
  have : (yaw a).rotate (s.q.rotate V3.ez) = ⟨Real.cos a * (s.q.rotate V3.ez).x - σ * Real.sin a * (s.q.rotate V3.ez).y,
    σ * Real.sin a * (s.q.rotate V3.ez).x + Real.cos a * (s.q.rotate V3.ez).y, (s.q.rotate V3.ez).z⟩ := hy.rotate a _
  rw [← Quat.rotate_mul] at this
  have hyy := congrArg V3.y this
  dsimp only at hyy
  rw [← hyy]
  unfold View.down
  simp only [Quat.rotate, Quat.inv, V3.ez]
  ring

lemma yLoop_min (yaw : ℝ → Quat) (s : View) (step : ℝ) (n : ℕ) (hub : s.down (yaw 0) ≤ 1) :
    let r := (List.range (n + 1)).foldl (s.yLoop yaw step) (1, 0)
    s.down (yaw r.2) = r.1 ∧ ∀ k ≤ n, r.1 ≤ s.down (yaw (k * step)) := by
  have hz : ∀ k : ℕ, k = 0 → (k : ℝ) * step = 0 := by rintro k rfl; simp
  induction n with
  | zero =>
    simp only [Nat.zero_add, List.range_one, List.foldl_cons, List.foldl_nil, View.yLoop]
    rw [Nat.cast_zero, zero_mul]
    by_cases h : s.down (yaw 0) < 1
    · rw [if_pos h]
      refine ⟨rfl, fun k hk => ?_⟩
      rw [hz k (by omega)]
    · rw [if_neg h]
      have e : s.down (yaw 0) = 1 := le_antisymm hub (not_lt.mp h)
      refine ⟨e, fun k hk => ?_⟩
      rw [hz k (by omega), e]
  | succ n ih =>
    obtain ⟨h1, h2⟩ := ih
    simp only [List.range_succ (n := n + 1), List.foldl_append, List.foldl_cons, List.foldl_nil]
    generalize (List.range (n + 1)).foldl (s.yLoop yaw step) (1, 0) = r at h1 h2 ⊢
    unfold View.yLoop
    by_cases h : s.down (yaw (((n + 1 : ℕ) : ℝ) * step)) < r.1
    · rw [if_pos h]
      refine ⟨rfl, fun k hk => ?_⟩
      rcases Nat.lt_or_ge k (n + 1) with hk' | hk'
      · exact h.le.trans (h2 k (by omega))
      · rw [show k = n + 1 by omega]
    · rw [if_neg h]
      refine ⟨h1, fun k hk => ?_⟩
      rcases Nat.lt_or_ge k (n + 1) with hk' | hk'
      · exact h2 k (by omega)
      · rw [show k = n + 1 by omega]; exact not_lt.mp h

/-- The nearest of the tried angles is at most half a step away (modulo a full turn). -/
lemma near_grid {step φ : ℝ} (h0 : 0 < step) (hφ : 0 ≤ φ) (hφ' : φ < 2 * Real.pi) :
    ∃ k ≤ ⌊2 * Real.pi / step⌋₊, |k * step - φ| ≤ step / 2 ∨ |k * step - φ + 2 * Real.pi| ≤ step / 2 := by
  set K := ⌊2 * Real.pi / step⌋₊ with hK
  have hpi := Real.pi_pos
  have hK1 : 2 * Real.pi < (K + 1) * step := by
    have := Nat.lt_floor_add_one (2 * Real.pi / step)
    rwa [div_lt_iff₀ h0] at this
  obtain ⟨m, hm⟩ : ∃ m : ℕ, m = ⌊φ / step⌋₊ := ⟨_, rfl⟩
  have hm1 : m * step ≤ φ := by
    have := Nat.floor_le (div_nonneg hφ h0.le)
    rw [← hm, le_div_iff₀ h0] at this
    exact this
  have hm2 : φ < (m + 1) * step := by
    have := Nat.lt_floor_add_one (φ / step)
    rwa [← hm, div_lt_iff₀ h0] at this
  have hmK : m ≤ K := by
    rw [hm, hK]
    exact Nat.floor_le_floor (div_le_div_of_nonneg_right hφ'.le h0.le)
  by_cases hh : φ - m * step ≤ step / 2
  · exact ⟨m, hmK, Or.inl (by rw [abs_le]; constructor <;> linarith)⟩
  · rcases Nat.lt_or_ge m K with h | h
    · refine ⟨m + 1, h, Or.inl ?_⟩
      push_cast
      rw [abs_le]
      constructor <;> linarith
    · have : m = K := le_antisymm hmK h
      subst this
      refine ⟨0, Nat.zero_le _, Or.inr ?_⟩
      rw [Nat.cast_zero, zero_mul, abs_le]
      constructor <;> linarith

/-- C91: `setYDown` keeps the place and the viewing direction and turns about it such that the view's lower edge points down in the world as far
as possible: no turn does better than `-√(1 - d²)`, with `d` the slope of the viewing direction, and the one chosen reaches this up to the factor
`cos (step / 2)`; it is at least as good as every angle tried. -/
theorem C91_setYDown (σ : ℝ) (yaw : ℝ → Quat) (hy : Yaw σ yaw) (s : View) (hq : s.q.IsUnit) (step : ℝ) (h0 : 0 < step) (h1 : step ≤ 2 * Real.pi) :
    ∃ s', s.setYDown yaw step = some s' ∧ s'.pos = s.pos ∧ s'.proj = s.proj ∧ s'.q.IsUnit ∧
      (let d := s.q.inv.rotate ⟨0, 0, -1⟩
       s'.q.inv.rotate ⟨0, 0, -1⟩ = d ∧
       (s'.q.inv.rotate ⟨0, -1, 0⟩).z ≤ -(Real.cos (step / 2) * Real.sqrt (1 - d.z ^ 2)) ∧
       ∀ a, -Real.sqrt (1 - d.z ^ 2) ≤ ((yaw a * s.q).inv.rotate ⟨0, -1, 0⟩).z) := by
  have hpi := Real.pi_pos
  obtain ⟨u, hu⟩ : ∃ u, u = s.q.rotate V3.ez := ⟨_, rfl⟩
  have hun : u.x ^ 2 + u.y ^ 2 + u.z ^ 2 = 1 := by
    have := Quat.normSq_rotate hq V3.ez
    rw [← hu] at this
    simpa [V3.normSq, V3.ez] using this
  have hdz : (s.q.inv.rotate ⟨0, 0, -1⟩).z = -u.z := by
    rw [hu]
    simp only [Quat.rotate, Quat.inv, V3.ez]
    ring
  have hrho : 1 - (-u.z) ^ 2 = u.x ^ 2 + u.y ^ 2 := by linarith
  obtain ⟨ρ, hρ⟩ : ∃ ρ, ρ = Real.sqrt (u.x ^ 2 + u.y ^ 2) := ⟨_, rfl⟩
  have hρ0 : 0 ≤ ρ := by rw [hρ]; exact Real.sqrt_nonneg _
  have hσ : σ ^ 2 = 1 := by rcases hy.sense with h | h <;> rw [h] <;> norm_num
  -- polar coordinates
  obtain ⟨φ, hφ0, hφ1, hφy, hφx⟩ : ∃ φ, 0 ≤ φ ∧ φ < 2 * Real.pi ∧ u.y = ρ * Real.cos φ ∧ σ * u.x = ρ * Real.sin φ := by
    let z : ℂ := ⟨u.y, σ * u.x⟩
    have hz : ‖z‖ = ρ := by
      rw [hρ, Complex.norm_def]
      congr 1
      rw [Complex.normSq_mk]
      nlinarith
    have c := Complex.norm_mul_cos_arg z
    have si := Complex.norm_mul_sin_arg z
    rw [hz] at c si
    have ha := Complex.arg_le_pi z
    have hb := Complex.neg_pi_lt_arg z
    by_cases hneg : 0 ≤ z.arg
    · exact ⟨z.arg, hneg, by linarith, c.symm, si.symm⟩
    · refine ⟨z.arg + 2 * Real.pi, by linarith, by linarith [not_le.mp hneg], ?_, ?_⟩
      · rw [Real.cos_add_two_pi]; exact c.symm
      · rw [Real.sin_add_two_pi]; exact si.symm
  have hf : ∀ a, s.down (yaw a) = -(ρ * Real.cos (a - φ)) := by
    intro a
    rw [down_eq hy, ← hu, Real.cos_sub, show σ * Real.sin a * u.x = Real.sin a * (σ * u.x) by ring, hφx, hφy]
    ring
  have hρ1 : ρ ≤ 1 := by
    rw [hρ, Real.sqrt_le_one]
    nlinarith [sq_nonneg u.z]
  have hub : s.down (yaw 0) ≤ 1 := by
    rw [hf]
    nlinarith [Real.neg_one_le_cos (0 - φ)]
  obtain ⟨hm1, hm2⟩ := yLoop_min yaw s step ⌊2 * Real.pi / step⌋₊ hub
  have hset : s.setYDown yaw step = some { s with q := yaw ((List.range (⌊2 * Real.pi / step⌋₊ + 1)).foldl (s.yLoop yaw step) (1, 0)).2 * s.q } := by
    rw [View.setYDown, if_neg (not_le.mpr h0)]
  generalize (List.range (⌊2 * Real.pi / step⌋₊ + 1)).foldl (s.yLoop yaw step) (1, 0) = r at hm1 hm2 hset
  refine ⟨{ s with q := yaw r.2 * s.q }, hset, rfl, rfl, (hy.unit _).mul hq, ?_, ?_, ?_⟩
  · rw [Quat.mul_inv_rev, Quat.rotate_mul]
    congr 1
    have := hy.rotate r.2 ⟨0, 0, -1⟩
    simp only [mul_zero, sub_zero, add_zero] at this
    conv_lhs => rw [← this]
    exact Quat.rotate_inv_rotate (hy.unit _) _
  · rw [hdz, hrho, ← hρ]
    change s.down (yaw r.2) ≤ _
    rw [hm1]
    obtain ⟨k, hk, hk'⟩ := near_grid h0 hφ0 hφ1
    refine (hm2 k hk).trans ?_
    rw [hf]
    have : Real.cos (step / 2) ≤ Real.cos (k * step - φ) := by
      rcases hk' with h | h
      · rw [← Real.cos_abs (k * step - φ)]
        exact Real.cos_le_cos_of_nonneg_of_le_pi (abs_nonneg _) (by linarith) h
      · rw [← Real.cos_add_two_pi (k * step - φ), ← Real.cos_abs (k * step - φ + 2 * Real.pi)]
        exact Real.cos_le_cos_of_nonneg_of_le_pi (abs_nonneg _) (by linarith) h
    nlinarith
  · intro a
    rw [hdz, hrho, ← hρ]
    change _ ≤ s.down (yaw a)
    rw [hf]
    nlinarith [Real.cos_le_one (a - φ)]

/-- C91_setYDown is not vacuous: rotations about the z axis exist, and the step used is positive. -/
example : Yaw 1 (fun a => ⟨Real.cos (a / 2), 0, 0, Real.sin (a / 2)⟩) ∧ (0 : ℝ) < 0.1 ∧ (0.1 : ℝ) ≤ 2 * Real.pi := by
  refine ⟨⟨Or.inl rfl, fun a => ?_, fun a v => ?_⟩, by norm_num, by nlinarith [Real.pi_gt_three]⟩
  · simp only [Quat.IsUnit, Quat.normSq]
    nlinarith [Real.sin_sq_add_cos_sq (a / 2)]
  · have hc : Real.cos a = Real.cos (a / 2) ^ 2 - Real.sin (a / 2) ^ 2 := by
      rw [← Real.cos_two_mul']; congr 1; ring
    have hs : Real.sin a = 2 * Real.sin (a / 2) * Real.cos (a / 2) := by
      rw [← Real.sin_two_mul]; congr 1; ring
    have h1 := Real.sin_sq_add_cos_sq (a / 2)
    rw [hc, hs]
    generalize Real.cos (a / 2) = c at *
    generalize Real.sin (a / 2) = t at *
    simp only [Quat.rotate]
    ext
    · dsimp only; ring
    · dsimp only; ring
    · dsimp only; linear_combination v.z * h1

/-! ### Pictures on objects; the shape of the window -/

/-- C91: if the width of a grey picture is a multiple of four, a texture of at least its size shows it: each pixel in its place, the rest as before. -/
theorem C91_texture (o : Obj) (img : Rovio.Draw.Canvas) (t : Tex) (ht : o.tex = some t) (h4 : 4 ∣ img.cols) (hch : img.ch = 1)
    (hc : img.cols ≤ t.cols) (hr : img.rows ≤ t.rows) :
    ∃ o' t', o.setTexture img = some o' ∧ o'.tex = some t' ∧ t'.cols = t.cols ∧ t'.rows = t.rows ∧
      (∀ y x, y < img.rows → x < img.cols → t'.texel y x = some (img.data (y * img.cols + x))) ∧
      (∀ y x, ¬ (y < img.rows ∧ x < img.cols) → t'.texel y x = t.texel y x) := by
  have hs : Obj.unpackStride img.cols = img.cols := by
    unfold Obj.unpackStride
    omega
  have hno : ¬ ∃ y < img.rows, ∃ x < img.cols, img.rows * img.cols * img.ch ≤ y * Obj.unpackStride img.cols + x := by
    rintro ⟨y, hy, x, hx, h⟩
    rw [hs, hch, Nat.mul_one] at h
    have : (y + 1) * img.cols ≤ img.rows * img.cols := Nat.mul_le_mul_right _ hy
    nlinarith
  refine ⟨{ o with tex := some { t with texel := fun y x =>
    if y < img.rows ∧ x < img.cols then some (img.data (y * Obj.unpackStride img.cols + x)) else t.texel y x } }, _,
    by rw [Obj.setTexture, if_neg hno, ht]; exact if_pos ⟨hc, hr⟩, rfl, rfl, rfl, ?_, ?_⟩
  · intro y x hy hx
    simp only [hs, if_pos (And.intro hy hx)]
  · intro y x h
    simp only [if_neg h]

/-- C91_texture is not vacuous: the patches of the default configuration are 48 pixels wide. -/
example : ∃ o t, (Obj.new.initTexture 48 48) = o ∧ o.tex = some t ∧ 4 ∣ (Rovio.Draw.zeros 48 48 1).cols ∧ (Rovio.Draw.zeros 48 48 1).ch = 1 ∧
    (Rovio.Draw.zeros 48 48 1).cols ≤ t.cols ∧ (Rovio.Draw.zeros 48 48 1).rows ≤ t.rows :=
  ⟨_, _, rfl, rfl, by simp [Rovio.Draw.zeros], rfl, le_refl _, le_refl _⟩

/-- Finding (C91): rows are expected to start at multiples of four bytes; a picture of one level of six pixels is read beyond its end. -/
theorem C91_finding_texture_alignment (o : Obj) : o.setTexture (Rovio.Draw.zeros 6 6 1) = none := by
  rw [Obj.setTexture, if_pos]
  exact ⟨5, by simp [Rovio.Draw.zeros], 5, by simp [Rovio.Draw.zeros], by simp [Rovio.Draw.zeros, Obj.unpackStride]⟩

/-- Finding (C91): the projection is set up for 1280 by 960 pixels but the window has 1600 by 900: what is `r` wide appears 4/3 as long as what is
`r` high. -/
theorem C91_finding_aspect (r z : ℝ) (hz : z < 0) :
    (window 1600 900 (clipOf PersProj.default ⟨r, 0, z⟩)).x - (window 1600 900 (clipOf PersProj.default ⟨0, 0, z⟩)).x =
      4 / 3 * ((window 1600 900 (clipOf PersProj.default ⟨0, r, z⟩)).y - (window 1600 900 (clipOf PersProj.default ⟨0, 0, z⟩)).y) := by
  have := hz.ne
  simp only [window, clipOf, PersProj.default]
  rw [show Real.pi / 2 / 2 = Real.pi / 4 by ring, Real.tan_pi_div_four]
  field_simp
  ring

end Rovio.Scene3D
