import Verif.Spec.RovioScene
import Verif.Lemmas.FeatureCoordinates
import Verif.Lemmas.Scene3D
import Verif.Lemmas.Draw

namespace Rovio.RovioScene

open Rovio.Scene3D Rovio.Scene3D.Spec Rovio.Distance Rovio.Draw.Spec Rovio.RovioScene.Spec Rovio.Stat

variable {n nCam nPose : ℕ}

/-! ### Queries of coordinates -/

/-- The bearing is computed: what `com_nor` leaves. -/
lemma comNor_true {c : FC} (h : c.comNor.map Prod.snd = some true) :
    ∃ c1, c.comNor = some (c1, true) ∧ c1.validNor = true ∧ c1.cam = c.cam ∧ c1.camID = c.camID ∧
      ((c.validNor = true ∧ c1 = c) ∨ (c.validNor = false ∧ c.validC = true ∧ c1 = { c with nor := c1.nor, validNor := true })) := by
  unfold FC.comNor at h ⊢
  by_cases hv : c.validNor = true
  · simp only [hv, if_true]
    exact ⟨c, rfl, hv, rfl, rfl, Or.inl ⟨trivial, rfl⟩⟩
  · simp only [hv, if_false] at h ⊢
    cases hc : c.cam with
    | none => simp [hc] at h
    | some cam =>
      simp only [hc] at h ⊢
      by_cases hC : c.validC = true
      · have h : (cam.p2b c.c).2 = true := by simpa [hC] using h
        simp only [hC, if_true, Bool.false_eq_true, if_false]
        refine ⟨{ c with nor := (cam.p2b c.c).1, validNor := true }, ?_, rfl, hc, rfl, Or.inr ⟨by simp, trivial, by rw [← hc, ← hC]⟩⟩
        rw [h, ← hc, ← hC]
      · simp [hC] at h

lemma comNor_valid {c : FC} (h : c.validNor = true) : c.comNor = some (c, true) := by
  unfold FC.comNor; simp [h]

lemma getNor_valid {c : FC} (h : c.validNor = true) : c.getNor = some (c, c.nor) := by
  unfold FC.getNor; simp [comNor_valid h]

lemma comWarpNor_valid {c : FC} (h : c.validWarpNor = true) : c.comWarpNor = some (c, true) := by
  unfold FC.comWarpNor; simp [h]

lemma comC_camID {c c' : FC} {b : Bool} (h : c.comC = some (c', b)) : c'.camID = c.camID := by
  unfold FC.comC at h
  split at h
  · simp at h; rw [← h.1]
  · split at h
    · simp at h
    · split at h
      · split at h <;> · simp at h; rw [← h.1]
      · simp at h; rw [← h.1]

/-- The deformation asked for when the bearing is known. -/
lemma comWarpNor_known {c : FC} {cam : CamI} (hcam : c.cam = some cam) (hn : c.validNor = true) :
    ∃ c2 h, c.comWarpNor = some (c2, h) ∧ c2.validNor = true ∧ c2.nor = c.nor ∧ c2.cam = c.cam ∧ c2.camID = c.camID ∧
      c2.validWarpNor = h ∧ c2.comWarpNor.map Prod.snd = some h := by
  by_cases hw : c.validWarpNor = true
  · exact ⟨c, true, comWarpNor_valid hw, hn, rfl, rfl, rfl, hw, by rw [comWarpNor_valid hw]; rfl⟩
  · by_cases hc : c.validWarpC = true
    · obtain ⟨⟨c1, b1⟩, h1⟩ := FC.comC_total hcam
      obtain ⟨s1, s2, s3, s4, s5⟩ := FC.comC_spec h1
      have hid := comC_camID h1
      by_cases hb : b1 = true
      · subst hb
        have hn1 : c1.validNor = true := s3.trans hn
        have hJ : c1.getJ = some (match cam.b2pJ c1.nor with
            | some (px, J) => ({ c1 with c := px }, J)
            | none => (c1, M2.zero)) := by
          simp only [FC.getJ, s1.cam.trans hcam, getNor_valid hn1, Option.bind_eq_bind, Option.bind_some]
          cases cam.b2pJ c1.nor <;> rfl
        obtain ⟨c2, J, hc2, hp⟩ : ∃ c2 J, (match cam.b2pJ c1.nor with
            | some (px, J) => (({ c1 with c := px } : FC), J)
            | none => (c1, M2.zero)) = (c2, J) ∧ (c2.validNor = true ∧ c2.nor = c.nor ∧ c2.cam = c.cam ∧ c2.camID = c.camID ∧ c2.validC = true ∧
              c2.validWarpNor = c.validWarpNor ∧ c2.validWarpC = c.validWarpC ∧ c2.warpC = c.warpC ∧ J = cam.J c.nor) := by
          cases hb : cam.b2pJ c1.nor with
          | none => exact ⟨_, _, rfl, hn1, s2, s1.cam, hid, s4, s1.validWarpNor, s1.validWarpC, s1.warpC, by rw [← s2, CamI.J, hb]⟩
          | some q =>
            exact ⟨_, _, rfl, hn1, s2, s1.cam, hid, s4, s1.validWarpNor, s1.validWarpC, s1.warpC, by rw [← s2, CamI.J, hb]⟩
        rw [hc2] at hJ
        obtain ⟨p1, p2, p3, p4, p5, p6, p7, p8, p9⟩ := hp
        by_cases hd : J.det ≠ 0
        · refine ⟨{ c2 with warpNor := J.inv.mul c2.warpC, validWarpNor := true }, true, ?_, p1, p2, p3, p4, rfl, ?_⟩
          · unfold FC.comWarpNor
            simp [hw, hc, h1, comNor_valid hn1, hJ, hd]
          · rw [comWarpNor_valid rfl]; rfl
        · refine ⟨c2, false, ?_, p1, p2, p3, p4, by rw [p6]; simpa using hw, ?_⟩
          · unfold FC.comWarpNor
            simp only [hw, hc, h1, comNor_valid hn1, hJ, hd, if_true, if_false, Option.bind_eq_bind, Option.bind_some, Option.pure_def]
            simp [p6, hw]
          · have hJ2 : ∃ c3, c2.getJ = some (c3, J) ∧ c3.validWarpNor = c2.validWarpNor := by
              simp only [FC.getJ, p3.trans hcam, getNor_valid p1, Option.bind_eq_bind, Option.bind_some]
              rw [p9, CamI.J, p2]
              cases cam.b2pJ c.nor <;> exact ⟨_, rfl, rfl⟩
            obtain ⟨c3, e3, e4⟩ := hJ2
            have hC2 : c2.comC = some (c2, true) := by unfold FC.comC; simp [p5]
            unfold FC.comWarpNor
            simp only [p6, p7, hw, hc, hC2, comNor_valid p1, e3, hd, if_true, if_false, Option.bind_eq_bind, Option.bind_some, Option.pure_def]
            simp [e4, p6, hw]
      · have hb' : b1 = false := by simpa using hb
        subst hb'
        have hval : c.validC = false := by
          cases hv : c.validC with
          | false => rfl
          | true => rw [s5 hv] at s4; rw [hv] at s4; simp at s4
        have hc1 : c1 = c := by
          unfold FC.comC at h1
          simp only [hval, hcam] at h1
          by_cases hn' : c.validNor = true
          · simp only [hn', if_true] at h1
            cases hb2 : cam.b2p c.nor with
            | none => simp [hb2] at h1; exact h1.symm
            | some q => simp [hb2] at h1
          · exact absurd hn hn'
        subst hc1
        have e : c1.comWarpNor = some (c1, false) := by
          unfold FC.comWarpNor
          simp only [hw, hc, h1, if_true, if_false, Option.bind_eq_bind, Option.bind_some, Option.pure_def]
          simp [hw]
        exact ⟨c1, false, e, hn, rfl, rfl, rfl, by simpa using hw, by rw [e]; rfl⟩
    · have e : c.comWarpNor = some (c, false) := by
        unfold FC.comWarpNor
        simp [hw, hc]
      exact ⟨c, false, e, hn, rfl, rfl, rfl, by simpa using hw, by rw [e]; rfl⟩

/-- Asking for the bearing first does not change what is told of the deformation. -/
lemma comWarpNor_after {c c1 : FC} (h : c.comNor = some (c1, true)) :
    c1.comWarpNor.map (fun r => (r.2, r.1.warpNor)) = c.comWarpNor.map (fun r => (r.2, r.1.warpNor)) := by
  obtain ⟨c1', e1, -, -, -, e5⟩ := comNor_true (c := c) (by rw [h]; rfl)
  obtain rfl : c1' = c1 := by rw [h] at e1; simpa using e1.symm
  rcases e5 with ⟨-, e⟩ | ⟨hn, hC, e⟩
  · rw [e]
  · have k1 : c.comC = some (c, true) := by unfold FC.comC; simp [hC]
    have k2 : c1'.comC = some (c1', true) := by unfold FC.comC; rw [e]; simp [hC]
    have k3 : c1'.comNor = some (c1', true) := comNor_valid (by rw [e])
    have k4 : c1'.validWarpNor = c.validWarpNor := by rw [e]
    have k5 : c1'.validWarpC = c.validWarpC := by rw [e]
    have k6 : c1'.warpNor = c.warpNor := by rw [e]
    unfold FC.comWarpNor
    simp only [k1, k2, k3, k4, k5, h, Option.bind_eq_bind, Option.bind_some, Bool.not_true, Bool.false_eq_true, if_false]
    split
    · simp [k6]
    · split
      · rfl
      · simp [k6]

/-- What happens to the coordinates of a feature while it is drawn. -/
lemma tells_steps {c : FC} {nor : Nor} {has : Bool} {warp : M2} (hcam : c.cam.isSome = true) (h : Tells c nor has warp) :
    ∃ c1 c2, c.getNor = some (c1, nor) ∧ c1.comWarpNor = some (c2, has) ∧ c2.camID = c.camID ∧ c2.cam = c.cam ∧ Tells c2 nor has warp ∧
      c2.validNor = true ∧ c2.nor = nor ∧ (has = true → c2.validWarpNor = true ∧ c2.warpNor = warp) := by
  obtain ⟨cam, hcam⟩ := Option.isSome_iff_exists.mp hcam
  obtain ⟨h1, h2, h3, h4⟩ := h
  obtain ⟨c1, e1, e2, e3, e4, -⟩ := comNor_true h1
  have en : c.getNor = some (c1, c1.nor) := by unfold FC.getNor; simp [e1]
  have hnor : c1.nor = nor := by rw [en] at h2; simpa using h2
  obtain ⟨c2, hb, f1, f2, f3, f4, f5, f6, f7⟩ := comWarpNor_known (e3.trans hcam) e2
  have hk := comWarpNor_after e1
  obtain ⟨⟨d, b⟩, hd⟩ := FC.comWarpNor_total hcam
  rw [f1, hd] at hk
  simp only [Option.map_some, Option.some.injEq, Prod.mk.injEq] at hk
  have hh : hb = has := by
    rw [hd] at h3
    simp at h3
    rw [hk.1, h3]
  subst hh
  have hw : hb = true → c2.warpNor = warp := by
    intro ht
    have := h4 ht
    simp only [FC.getWarpNor, hd, Option.bind_eq_bind, Option.bind_some, Option.pure_def, Option.map_some, Option.some.injEq] at this
    rw [hk.2, this]
  refine ⟨c1, c2, by rw [en, hnor], f1, f5.trans e4, f4.trans e3, ⟨?_, ?_, f7, fun ht => ?_⟩, f2, f3.trans hnor, fun ht => ⟨f6.trans ht, hw ht⟩⟩
  · rw [comNor_valid f2]; rfl
  · rw [getNor_valid f2]; simp [f3, hnor]
  · rw [FC.getWarpNor, comWarpNor_valid (f6.trans ht)]
    simp [hw ht]

/-- The features in use of a filter state that can be drawn tell something. -/
lemma exists_sees {p L : ℕ} {S : Snapshot n nCam nPose} (h : Ready p L S) : ∃ g, Sees S g := by
  have key : ∀ i, ∃ x : Nor × Bool × M2, S.valid i = true → Tells (S.state.fea i).c x.1 x.2.1 x.2.2 := by
    intro i
    by_cases hv : S.valid i = true
    · obtain ⟨h1, h2, -⟩ := h i hv
      obtain ⟨cam, hcam⟩ := Option.isSome_iff_exists.mp h1
      obtain ⟨c1, e1, e2, -, -, -⟩ := comNor_true h2
      obtain ⟨⟨c2, b⟩, hc2⟩ := FC.comWarpNor_total hcam
      refine ⟨(c1.nor, b, c2.warpNor), fun _ => ⟨h2, ?_, ?_, fun _ => ?_⟩⟩
      · simp [FC.getNor, e1]
      · simp [hc2]
      · simp [FC.getWarpNor, hc2]
    · exact ⟨(⟨Quat.one⟩, false, M2.one), fun h => absurd h hv⟩
  choose f hf using key
  exact ⟨⟨fun i => (f i).1, fun i => (f i).2.1, fun i => (f i).2.2⟩, hf⟩

/-! ### Corners -/

/-- The corner in the camera's frame. -/
noncomputable def cornerC (p L : ℕ) (S : Snapshot n nCam nPose) (g : Sight n) (i : Fin n) (sx sy : ℝ) : V3 :=
  let half : ℝ := p * (2 : ℝ) ^ ((L : ℤ) - 1) / 2
  dist S i • ((g.nor i).boxPlus ((g.warp i).mulVec ⟨sx * half, sy * half⟩)).vec

lemma cornerVec_known {c : FC} (junk : FC) (s d : ℝ) (hn : c.validNor = true) (hw : c.validWarpNor = true) (x y : ℕ) :
    cornerVec junk s d c x y = some (c, d • (c.nor.boxPlus (c.warpNor.mulVec ⟨s * (2 * x - 1), s * (2 * y - 1)⟩)).vec) := by
  have e1 : c.getWarpNor = some (c, c.warpNor) := by unfold FC.getWarpNor; simp [comWarpNor_valid hw]
  unfold cornerVec FC.getPatchCorner
  simp only [e1, getNor_valid hn, Option.bind_eq_bind, Option.bind_some, Option.pure_def]
  rw [getNor_valid]
  · simp only [Option.bind_some, Option.some.injEq, Prod.mk.injEq, true_and]
    unfold FC.setNor
    simp only
    split <;> rfl
  · unfold FC.setNor
    simp only
    split <;> rfl

lemma halfSide_eq (p L : ℕ) : halfSide p L = p * (2 : ℝ) ^ ((L : ℤ) - 1) / 2 := by
  unfold halfSide
  rw [show ((L : ℤ) - 2) = ((L : ℤ) - 1) - 1 by ring, zpow_sub_one₀ (by norm_num)]
  ring

lemma corners_known {p L : ℕ} {S : Snapshot n nCam nPose} {g : Sight n} {i : Fin n} {c : FC} (junk : FC) (hn : c.validNor = true)
    (hw : c.validWarpNor = true) (e1 : c.nor = g.nor i) (e2 : c.warpNor = g.warp i) :
    corners junk (halfSide p L) (getDistance (S.state.fea i).d) c =
      some (c, cornerC p L S g i (-1) (-1), cornerC p L S g i 1 (-1), cornerC p L S g i (-1) 1, cornerC p L S g i 1 1) := by
  unfold corners
  simp only [cornerVec_known junk _ _ hn hw, Option.bind_eq_bind, Option.bind_some, Option.pure_def, Option.some.injEq, Prod.mk.injEq, true_and,
    e1, e2, halfSide_eq, cornerC, Spec.dist]
  refine ⟨?_, ?_, ?_, ?_⟩ <;> congr 4 <;> push_cast <;> ring_nf

/-! ### Objects made of segments -/

/-- A vertex with a colour. -/
def vtx (c : V4) (P : V3) : Vertex := ⟨P, ⟨0, 0, 1⟩, c⟩

/-- An object that draws the vertices `acc` one after the other, from the pose `r`, `q` if there are any. -/
structure Line (o : Obj) (acc : List Vertex) (r : V3) (q : Quat) : Prop where
  verts : o.verts = acc
  inds : o.inds = List.range acc.length
  mode : o.mode = .lines
  draw : o.draw = true
  tex : o.useTexture = false
  up : acc = [] ∨ (o.vbo = o.verts ∧ o.ibo = o.inds ∧ o.pos = r ∧ o.q = q)

lemma Line.elements {o : Obj} {acc : List Vertex} {r : V3} {q : Quat} (h : Line o acc r q) : o.elements = some acc := by
  have ok : o.Ok := ⟨by rw [h.inds, h.verts]; simp, by
    rcases h.up with h0 | ⟨h1, h2, -, -⟩
    · left; rw [h.inds, h0]; rfl
    · right; exact ⟨h2, h1⟩⟩
  rw [ok.elements, h.inds, h.verts, filterMap_range]

/-- Prolongation by several points. -/
lemma prolonge_fold (ps : List V3) : ∀ (o : Obj), o.inds = List.range o.verts.length →
    ∃ vbo ibo, ps.foldl Obj.prolonge1 o =
      { o with verts := o.verts ++ ps.map Vertex.ofPos, inds := List.range (o.verts.length + ps.length), vbo := vbo, ibo := ibo } := by
  induction ps with
  | nil =>
    intro o h
    exact ⟨o.vbo, o.ibo, by simp [← h]⟩
  | cons P ps ih =>
    intro o h
    have e : (o.prolonge1 P).verts = o.verts ++ [Vertex.ofPos P] := rfl
    have e' : (o.prolonge1 P).inds = List.range (o.prolonge1 P).verts.length := by
      rw [e]
      simp only [Obj.prolonge1, Obj.prolonge, Obj.allocateBuffer, h, List.length_append, List.length_cons, List.length_nil, zero_add]
      simp [List.range_succ]
    obtain ⟨vbo, ibo, hf⟩ := ih (o.prolonge1 P) e'
    refine ⟨vbo, ibo, ?_⟩
    rw [List.foldl_cons, hf, e]
    simp only [List.append_assoc, List.cons_append, List.nil_append, List.length_append, List.length_cons, List.length_nil, List.map_cons]
    rw [show o.verts.length + (0 + 1) + ps.length = o.verts.length + (ps.length + 1) by ring]
    rfl

/-- New vertices in a colour, then uploaded: what is left of an object after a feature was drawn into it. -/
lemma Line.add {o : Obj} {acc : List Vertex} {r r' : V3} {q q' : Quat} (h : Line o acc r' q') (ps : List V3) (k : ℕ) (hk : ps.length = k) (c : V4) :
    Line (Obj.allocateBuffer { colorLast (ps.foldl Obj.prolonge1 o) k c with pos := r, q := q }) (acc ++ ps.map (vtx c)) r q := by
  obtain ⟨vbo, ibo, hf⟩ := prolonge_fold ps o (by rw [h.inds, h.verts])
  rw [hf]
  have e : (colorLast { o with verts := o.verts ++ ps.map Vertex.ofPos, inds := List.range (o.verts.length + ps.length), vbo := vbo, ibo := ibo } k c).verts
      = acc ++ ps.map (vtx c) := by
    simp only [colorLast, List.length_append, List.length_map, hk, Nat.add_sub_cancel, List.take_left, List.drop_left, h.verts]
    simp [vtx, Vertex.ofPos]
  refine ⟨e, ?_, h.mode, h.draw, h.tex, Or.inr ⟨rfl, rfl, rfl, rfl⟩⟩
  change List.range (o.verts.length + ps.length) = _
  rw [h.verts]; simp

lemma Line.upload {o : Obj} {acc : List Vertex} {r r' : V3} {q q' : Quat} (h : Line o acc r' q') :
    Line (Obj.allocateBuffer { o with pos := r, q := q }) acc r q :=
  ⟨h.verts, h.inds, h.mode, h.draw, h.tex, Or.inr ⟨rfl, rfl, rfl, rfl⟩⟩

lemma Line.clear {o : Obj} (hm : o.mode = .lines) (hd : o.draw = true) (ht : o.useTexture = false) (r : V3) (q : Quat) : Line o.clear [] r q :=
  ⟨rfl, rfl, hm, hd, ht, Or.inl rfl⟩

/-! ### The picture of a feature -/

/-- A rectangle's object with other corners. -/
lemma quad_elements (o : Obj) (k0 k1 k2 k3 r : V3) (q : Quat) (tex : Option Tex) :
    ∃ o', { (setPositions { o.clear.makeTexturedRectangle 1 1 with tex := tex } [k0, k1, k2, k3]).allocateBuffer with pos := r, q := q } = o' ∧
      o'.mode = .triangles ∧ o'.cull = false ∧ o'.useTexture = o.useTexture ∧ o'.draw = o.draw ∧ o'.tex = tex ∧ o'.pos = r ∧ o'.q = q ∧ o'.Ok ∧
      ∃ vs, o'.elements = some vs ∧ vs.map (fun v => (v.pos, (v.color.x, v.color.y))) =
        [(k0, ((0 : ℝ), (0 : ℝ))), (k1, (1, 0)), (k2, (0, 1)), (k3, (1, 1)), (k1, (1, 0)), (k2, (0, 1))] := by
  have ev : (setPositions { o.clear.makeTexturedRectangle 1 1 with tex := tex } [k0, k1, k2, k3]).verts =
      [{ Obj.texCoord (Vertex.ofPos k0) 0 0 with pos := k0 }, { Obj.texCoord (Vertex.ofPos k1) 1 0 with pos := k1 },
       { Obj.texCoord (Vertex.ofPos k2) 0 1 with pos := k2 }, { Obj.texCoord (Vertex.ofPos k3) 1 1 with pos := k3 }] := rfl
  have ei : (setPositions { o.clear.makeTexturedRectangle 1 1 with tex := tex } [k0, k1, k2, k3]).inds = [0, 1, 2, 3, 1, 2] := rfl
  have ok : Obj.Ok { (setPositions { o.clear.makeTexturedRectangle 1 1 with tex := tex } [k0, k1, k2, k3]).allocateBuffer with pos := r, q := q } := by
    refine ⟨?_, Or.inr ⟨rfl, rfl⟩⟩
    intro i hi
    change i ∈ (setPositions { o.clear.makeTexturedRectangle 1 1 with tex := tex } [k0, k1, k2, k3]).inds at hi
    change i < (setPositions { o.clear.makeTexturedRectangle 1 1 with tex := tex } [k0, k1, k2, k3]).verts.length
    rw [ei] at hi
    rw [ev]
    fin_cases hi <;> simp
  refine ⟨_, rfl, rfl, rfl, rfl, rfl, rfl, rfl, rfl, ok, _, ok.elements, ?_⟩
  change List.map _ ((setPositions { o.clear.makeTexturedRectangle 1 1 with tex := tex } [k0, k1, k2, k3]).inds.filterMap fun i =>
    (setPositions { o.clear.makeTexturedRectangle 1 1 with tex := tex } [k0, k1, k2, k3]).verts[i]?) = _
  rw [ei, ev]
  rfl

/-! ### The loops -/

/-- The same filter state up to caches. -/
structure Rel (S0 S : Snapshot n nCam nPose) : Prop where
  eq : S = { S0 with state := { S0.state with fea := S.state.fea } }
  dist : ∀ i, (S.state.fea i).d = (S0.state.fea i).d
  camID : ∀ i, (S.state.fea i).c.camID = (S0.state.fea i).c.camID
  cam : ∀ i, (S.state.fea i).c.cam = (S0.state.fea i).c.cam

lemma Rel.refl (S : Snapshot n nCam nPose) : Rel S S := ⟨rfl, fun _ => rfl, fun _ => rfl, fun _ => rfl⟩

lemma Rel.cache {S0 S : Snapshot n nCam nPose} (h : Rel S0 S) {i : Fin n} {c : FC} (h1 : c.camID = (S.state.fea i).c.camID)
    (h2 : c.cam = (S.state.fea i).c.cam) : Rel S0 (S.cache i c) := by
  refine ⟨?_, fun j => ?_, fun j => ?_, fun j => ?_⟩
  · conv_lhs => rw [h.eq]
    rfl
  · simp only [Snapshot.cache, Function.update_apply]
    split
    · rename_i e; subst e; exact h.dist _
    · exact h.dist _
  · simp only [Snapshot.cache, Function.update_apply]
    split
    · rename_i e; subst e; exact h1.trans (h.camID _)
    · exact h.camID _
  · simp only [Snapshot.cache, Function.update_apply]
    split
    · rename_i e; subst e; exact h2.trans (h.cam _)
    · exact h.cam _

lemma Sees.cache {S : Snapshot n nCam nPose} {g : Sight n} (h : Sees S g) {i : Fin n} {c : FC} (h1 : Tells c (g.nor i) (g.has i) (g.warp i)) :
    Sees (S.cache i c) g := by
  intro j hj
  simp only [Snapshot.cache, Function.update_apply]
  split
  · rename_i e; subst e; exact h1
  · exact h j hj

open Classical in
/-- The vertices of the outline of a feature. -/
noncomputable def lineVerts (p L : ℕ) (S : Snapshot n nCam nPose) (g : Sight n) (c : Fin nCam) (i : Fin n) : List Vertex :=
  if Drawn S g c i then
    ([cornerC p L S g i (-1) (-1), cornerC p L S g i 1 (-1), cornerC p L S g i 1 (-1), cornerC p L S g i 1 1, cornerC p L S g i 1 1,
      cornerC p L S g i (-1) 1, cornerC p L S g i (-1) 1, cornerC p L S g i (-1) (-1)]).map (vtx (colorOf (S.stat i)))
  else []

open Classical in
/-- The vertices of the depth segment of a feature. -/
noncomputable def rayVerts (S : Snapshot n nCam nPose) (g : Sight n) (c : Fin nCam) (i : Fin n) : List Vertex :=
  if Drawn S g c i then
    ([(depthRange (S.state.fea i).d (S.var i)).1 • (g.nor i).vec, (depthRange (S.state.fea i).d (S.var i)).2 • (g.nor i).vec]).map
      (vtx (colorOf (S.stat i)))
  else []

/-- The canvas for textures. -/
def IsTexture (p L : ℕ) (m : Rovio.Draw.Canvas) : Prop := m.rows = p * 2 ^ (L - 1) ∧ m.cols = p * 2 ^ (L - 1) ∧ m.ch = 1

/-- The pictures of the features after the pairs `Pr` of camera and feature. -/
structure Pictures (p L : ℕ) (S : Snapshot n nCam nPose) (g : Sight n) (Pr : Fin nCam → Fin n → Prop) (V : Display n nCam) : Prop where
  draw : ∀ i, (V.patches i).draw = true ↔ ∃ c, Pr c i ∧ Drawn S g c i
  shown : ∀ i c, Pr c i → Drawn S g c i → PatchShown p L S g c i (V.patches i)
  use : ∀ i, (V.patches i).useTexture = true
  tex : ∀ i, ∃ t, (V.patches i).tex = some t ∧ t.cols = p * 2 ^ (L - 1) ∧ t.rows = p * 2 ^ (L - 1)
  ok : ∀ i, (V.patches i).Ok

/-- Invariant of the loop over the features in camera `cam`: `done` are those passed, `V0` is the display before the loop. -/
structure FInv (p L : ℕ) (S0 : Snapshot n nCam nPose) (g : Sight n) (V0 : Display n nCam) (cam : Fin nCam) (Pr : Fin nCam → Fin n → Prop)
    (done : List (Fin n)) (V : Display n nCam) (S : Snapshot n nCam nPose) : Prop where
  rel : Rel S0 S
  sees : Sees S g
  sensor : V.sensor = V0.sensor
  fixed : V.plane1 = V0.plane1 ∧ V.plane2 = V0.plane2 ∧ V.groundtruth = V0.groundtruth
  others : ∀ c ≠ cam, V.lines c = V0.lines c ∧ V.depth c = V0.depth c
  lines : Line (V.lines cam) (done.flatMap (lineVerts p L S0 g cam)) (V0.sensor cam).pos (V0.sensor cam).q
  depth : Line (V.depth cam) (done.flatMap (rayVerts S0 g cam)) (V0.sensor cam).pos (V0.sensor cam).q
  canvas : IsTexture p L V.patch
  pictures : Pictures p L S0 g (fun c i => Pr c i ∨ (c = cam ∧ i ∈ done)) V

lemma setTexture_ok {p L : ℕ} (h4 : 4 ∣ p * 2 ^ (L - 1)) {m : Rovio.Draw.Canvas} (hm : IsTexture p L m) {o : Obj} {t : Tex} (ht : o.tex = some t)
    (hc : t.cols = p * 2 ^ (L - 1)) (hr : t.rows = p * 2 ^ (L - 1)) :
    ∃ t', o.setTexture m = some { o with tex := some t' } ∧ t'.cols = p * 2 ^ (L - 1) ∧ t'.rows = p * 2 ^ (L - 1) ∧
      ∀ y < p * 2 ^ (L - 1), ∀ x < p * 2 ^ (L - 1), t'.texel y x = some (at' m y x 0) := by
  obtain ⟨m1, m2, m3⟩ := hm
  have hs : Obj.unpackStride m.cols = m.cols := by
    unfold Obj.unpackStride
    rw [m2]
    omega
  have hno : ¬ ∃ y < m.rows, ∃ x < m.cols, m.rows * m.cols * m.ch ≤ y * Obj.unpackStride m.cols + x := by
    rintro ⟨y, hy, x, hx, h⟩
    rw [hs, m3, mul_one] at h
    have : y * m.cols + x < m.rows * m.cols := by
      calc y * m.cols + x < y * m.cols + m.cols := by omega
        _ = (y + 1) * m.cols := by ring
        _ ≤ m.rows * m.cols := Nat.mul_le_mul_right _ hy
    omega
  rw [Obj.setTexture, if_neg hno, ht]
  simp only
  rw [if_pos ⟨by rw [m2, hc], by rw [m1, hr]⟩]
  refine ⟨_, rfl, hc, hr, fun y hy x hx => ?_⟩
  simp only
  rw [if_pos ⟨by rw [m1]; exact hy, by rw [m2]; exact hx⟩, hs, at', m3, mul_one, add_zero]

/-- Drawing one feature. -/
lemma feature_step {p L : ℕ} (hp : Even p) (hL : 0 < L) (h4 : 4 ∣ p * 2 ^ (L - 1)) (junk : FC) {S0 S : Snapshot n nCam nPose} {g : Sight n}
    {V0 V : Display n nCam} {cam : Fin nCam} {Pr : Fin nCam → Fin n → Prop} {done : List (Fin n)} (hR : Ready p L S0)
    (h : FInv p L S0 g V0 cam Pr done V S) (hV0 : (V0.sensor cam).pos = S0.state.WrWC cam ∧ (V0.sensor cam).q = S0.state.qCW cam) (i : Fin n) :
    ∃ V' S', feature p L junk cam (V, S) i = some (V', S') ∧ FInv p L S0 g V0 cam Pr (done ++ [i]) V' S' := by
  have hval : S.valid = S0.valid := by rw [h.rel.eq]
  have hvar : S.var = S0.var := by rw [h.rel.eq]
  have hstat : S.stat = S0.stat := by rw [h.rel.eq]
  have hmlp : S.mlp = S0.mlp := by rw [h.rel.eq]
  unfold feature
  simp only
  by_cases hc : S.valid i = true ∧ (S.state.fea i).c.camID = cam.val
  · rw [if_pos hc]
    obtain ⟨r1, r2, r3⟩ := hR i (by rw [← hval]; exact hc.1)
    have hcam : (S.state.fea i).c.cam.isSome = true := by rw [h.rel.cam]; exact r1
    obtain ⟨c1, c2, e1, e2, e3, e4, e5, e6, e7, e8⟩ := tells_steps hcam (h.sees i hc.1)
    simp only [e1, e2, Option.bind_eq_bind, Option.bind_some]
    by_cases hh : g.has i = true
    · rw [if_pos hh]
      have hD : Drawn S0 g cam i := ⟨by rw [← hval]; exact hc.1, by rw [← h.rel.camID]; exact hc.2, hh⟩
      obtain ⟨w1, w2⟩ := e8 hh
      have hcor := corners_known (p := p) (L := L) (S := S) (g := g) (i := i) junk e6 w1 e7 w2
      have hdist : ∀ a b, cornerC p L S g i a b = cornerC p L S0 g i a b := by
        intro a b
        simp only [cornerC, Spec.dist, h.rel.dist]
      obtain ⟨m1, m2, m3⟩ := h.canvas
      obtain ⟨m', hm', hsh⟩ := Rovio.Draw.draw_shows (p := p) (L := L) (mp := S.mlp i) (cx := 0) (cy := 0) (m := V.patch) hp (Or.inl m3)
        (by rw [m2]; omega) (by rw [m1]; omega) (by rw [hmlp]; exact r3)
      have hm'' : Rovio.Draw.drawTexture p L V.patch (S.mlp i) = some m' := hm'
      have hcan : IsTexture p L m' := ⟨by rw [hsh.rows, m1], by rw [hsh.cols, m2], by rw [hsh.ch, m3]⟩
      obtain ⟨t, t1, t2, t3⟩ := h.pictures.tex i
      obtain ⟨t', u1, u2, u3, u4⟩ := setTexture_ok h4 hcan (o := ({ V.patches i with draw := true } : Obj).clear.makeTexturedRectangle 1 1)
        (t := t) t1 t2 t3
      unfold drawFeature
      simp only [Function.update_self, hcor, hm'', u1, Option.bind_eq_bind, Option.bind_some, Option.pure_def]
      refine ⟨_, _, rfl, ?_⟩
      obtain ⟨o', o1, o2, o3, o4, o5, o6, o7, o8, oOk, vs, o9, o10⟩ := quad_elements ({ V.patches i with draw := true } : Obj)
        (cornerC p L S g i (-1) (-1)) (cornerC p L S g i 1 (-1)) (cornerC p L S g i (-1) 1) (cornerC p L S g i 1 1)
        (V.sensor cam).pos (V.sensor cam).q (some t')
      have hshown : PatchShown p L S0 g cam i o' := by
        refine ⟨o2, o3, by rw [o4]; exact h.pictures.use i, ⟨vs, o9, ?_⟩, t', V.patch, m', o6, u2, u3, m3, m1, m2, by rw [← hmlp]; exact hsh, u4⟩
        have : vs.map (fun v => (worldPoint o'.pos o'.q v.pos, (v.color.x, v.color.y))) =
            (vs.map (fun v => (v.pos, (v.color.x, v.color.y)))).map (fun x => (worldPoint o'.pos o'.q x.1, x.2)) := by
          rw [List.map_map]; rfl
        rw [this, o10, o7, o8, h.sensor, hV0.1, hV0.2]
        simp only [hdist]
        rfl
      have heq : (S.cache i c2).state.fea i = { S.state.fea i with c := c2 } := by simp [Snapshot.cache]
      rw [o1]
      refine ⟨h.rel.cache e3 e4, Sees.cache h.sees e5, h.sensor, h.fixed, fun c hcc => ?_, ?_, ?_, hcan, ?_⟩
      · simp only [place, Function.update_of_ne hcc]
        exact h.others c hcc
      · have hl : lineVerts p L S0 g cam i = ([cornerC p L S g i (-1) (-1), cornerC p L S g i 1 (-1), cornerC p L S g i 1 (-1), cornerC p L S g i 1 1,
            cornerC p L S g i 1 1, cornerC p L S g i (-1) 1, cornerC p L S g i (-1) 1, cornerC p L S g i (-1) (-1)]).map (vtx (colorOf (S.stat i))) := by
          rw [lineVerts, if_pos hD]
          simp only [hdist, hstat]
        simp only [place, Function.update_self, List.flatMap_append, List.flatMap_cons, List.flatMap_nil, List.append_nil, hl]
        rw [h.sensor]
        exact h.lines.add _ 8 rfl _
      · have hl : rayVerts S0 g cam i = ([(depthRange (S.state.fea i).d (S.var i)).1 • (g.nor i).vec,
            (depthRange (S.state.fea i).d (S.var i)).2 • (g.nor i).vec]).map (vtx (colorOf (S.stat i))) := by
          rw [rayVerts, if_pos hD]
          simp only [h.rel.dist, hstat, hvar]
        simp only [place, Function.update_self, List.flatMap_append, List.flatMap_cons, List.flatMap_nil, List.append_nil, hl]
        rw [h.sensor]
        exact h.depth.add _ 2 rfl _
      · have hpat : ∀ j, (place ({ V with
            patch := m'
            lines := Function.update V.lines cam (colorLast ([cornerC p L S g i (-1) (-1), cornerC p L S g i 1 (-1), cornerC p L S g i 1 (-1),
              cornerC p L S g i 1 1, cornerC p L S g i 1 1, cornerC p L S g i (-1) 1, cornerC p L S g i (-1) 1,
              cornerC p L S g i (-1) (-1)].foldl Obj.prolonge1 (V.lines cam)) 8 (colorOf (S.stat i)))
            depth := Function.update V.depth cam (colorLast ([(depthRange (S.state.fea i).d (S.var i)).1 • (g.nor i).vec,
              (depthRange (S.state.fea i).d (S.var i)).2 • (g.nor i).vec].foldl Obj.prolonge1 (V.depth cam)) 2 (colorOf (S.stat i)))
            patches := Function.update (Function.update V.patches i { V.patches i with draw := true }) i o' } : Display n nCam) cam).patches j =
              if j = i then o' else V.patches j := by
          intro j
          simp only [place, Function.update_apply]
          split <;> rfl
        refine ⟨fun j => ?_, fun j c hPr hDr => ?_, fun j => ?_, fun j => ?_, fun j => ?_⟩
        · rw [hpat j]
          by_cases hj : j = i
          · subst hj
            rw [if_pos rfl, o5]
            exact ⟨fun _ => ⟨cam, Or.inr ⟨rfl, by simp⟩, hD⟩, fun _ => rfl⟩
          · rw [if_neg hj, h.pictures.draw j]
            simp [hj]
        · rw [hpat j]
          by_cases hj : j = i
          · subst hj
            have : c = cam := Fin.ext (by
              have := hDr.2.1.symm.trans hD.2.1
              exact_mod_cast this)
            subst this
            rw [if_pos rfl]
            exact hshown
          · rw [if_neg hj]
            exact h.pictures.shown j c (by simpa [hj] using hPr) hDr
        · rw [hpat j]
          by_cases hj : j = i
          · subst hj
            rw [if_pos rfl, o4]; exact h.pictures.use j
          · rw [if_neg hj]; exact h.pictures.use j
        · rw [hpat j]
          by_cases hj : j = i
          · subst hj
            rw [if_pos rfl]; exact ⟨t', o6, u2, u3⟩
          · rw [if_neg hj]; exact h.pictures.tex j
        · rw [hpat j]
          by_cases hj : j = i
          · subst hj
            rw [if_pos rfl]; exact oOk
          · rw [if_neg hj]; exact h.pictures.ok j
    · rw [if_neg hh]
      have hno : ∀ c, ¬ Drawn S0 g c i := fun c hd => hh hd.2.2
      have hl : lineVerts p L S0 g cam i = [] := by rw [lineVerts, if_neg (hno cam)]
      have hr : rayVerts S0 g cam i = [] := by rw [rayVerts, if_neg (hno cam)]
      refine ⟨_, _, rfl, h.rel.cache e3 e4, Sees.cache h.sees e5, h.sensor, h.fixed, h.others, ?_, ?_, h.canvas, ?_⟩
      · simpa [hl] using h.lines
      · simpa [hr] using h.depth
      · refine ⟨fun j => ?_, fun j c hPr hDr => ?_, fun j => ?_, fun j => ?_, fun j => ?_⟩
        · by_cases hj : j = i
          · subst hj
            simp [hno]
          · simp only [Function.update_of_ne hj]
            rw [h.pictures.draw j]
            simp [hj]
        · by_cases hj : j = i
          · subst hj
            exact absurd hDr (hno c)
          · simp only [Function.update_of_ne hj]
            exact h.pictures.shown j c (by simpa [hj] using hPr) hDr
        · by_cases hj : j = i
          · subst hj
            simp only [Function.update_self]; exact h.pictures.use j
          · simp only [Function.update_of_ne hj]; exact h.pictures.use j
        · by_cases hj : j = i
          · subst hj
            simp only [Function.update_self]; exact h.pictures.tex j
          · simp only [Function.update_of_ne hj]; exact h.pictures.tex j
        · by_cases hj : j = i
          · subst hj
            simp only [Function.update_self]
            exact ⟨(h.pictures.ok j).range, (h.pictures.ok j).ibo⟩
          · simp only [Function.update_of_ne hj]; exact h.pictures.ok j
  · rw [if_neg hc]
    have hno : ¬ Drawn S0 g cam i := fun hd => hc ⟨by rw [hval]; exact hd.1, by rw [h.rel.camID]; exact hd.2.1⟩
    have hl : lineVerts p L S0 g cam i = [] := by rw [lineVerts, if_neg hno]
    have hr : rayVerts S0 g cam i = [] := by rw [rayVerts, if_neg hno]
    refine ⟨_, _, rfl, h.rel, h.sees, h.sensor, h.fixed, fun c hcc => ?_, ?_, ?_, h.canvas, ?_⟩
    · simp only [place, Function.update_of_ne hcc]
      exact h.others c hcc
    · simp only [place, Function.update_self, List.flatMap_append, List.flatMap_cons, List.flatMap_nil, List.append_nil, hl]
      rw [h.sensor]
      exact h.lines.upload
    · simp only [place, Function.update_self, List.flatMap_append, List.flatMap_cons, List.flatMap_nil, List.append_nil, hr]
      rw [h.sensor]
      exact h.depth.upload
    · have key : ∀ (c : Fin nCam) (j : Fin n), Drawn S0 g c j →
          ((Pr c j ∨ (c = cam ∧ j ∈ done ++ [i])) ↔ (Pr c j ∨ (c = cam ∧ j ∈ done))) := by
        intro c j hd
        simp only [List.mem_append, List.mem_singleton]
        constructor
        · rintro (h1 | ⟨h1, h2 | h2⟩)
          · exact Or.inl h1
          · exact Or.inr ⟨h1, h2⟩
          · subst h1 h2; exact absurd hd hno
        · rintro (h1 | ⟨h1, h2⟩)
          · exact Or.inl h1
          · exact Or.inr ⟨h1, Or.inl h2⟩
      refine ⟨fun j => ?_, fun j c hPr hDr => ?_, h.pictures.use, h.pictures.tex, h.pictures.ok⟩
      · change (V.patches j).draw = true ↔ _
        rw [h.pictures.draw j]
        exact exists_congr fun c => ⟨fun ⟨a, b⟩ => ⟨(key c j b).2 a, b⟩, fun ⟨a, b⟩ => ⟨(key c j b).1 a, b⟩⟩
      · exact h.pictures.shown j c ((key c j hDr).1 hPr) hDr

/-- Drawing all features in a camera. -/
lemma features_loop {p L : ℕ} (hp : Even p) (hL : 0 < L) (h4 : 4 ∣ p * 2 ^ (L - 1)) (junk : FC) {S0 : Snapshot n nCam nPose} {g : Sight n}
    {V0 : Display n nCam} {cam : Fin nCam} {Pr : Fin nCam → Fin n → Prop} (hR : Ready p L S0)
    (hV0 : (V0.sensor cam).pos = S0.state.WrWC cam ∧ (V0.sensor cam).q = S0.state.qCW cam) (l : List (Fin n)) :
    ∀ (done : List (Fin n)) (V : Display n nCam) (S : Snapshot n nCam nPose), FInv p L S0 g V0 cam Pr done V S →
      ∃ V' S', l.foldlM (feature p L junk cam) (V, S) = some (V', S') ∧ FInv p L S0 g V0 cam Pr (done ++ l) V' S' := by
  induction l with
  | nil => intro done V S h; exact ⟨V, S, rfl, by simpa using h⟩
  | cons i l ih =>
    intro done V S h
    obtain ⟨V1, S1, e1, h1⟩ := feature_step hp hL h4 junk hR h hV0 i
    obtain ⟨V2, S2, e2, h2⟩ := ih _ V1 S1 h1
    refine ⟨V2, S2, ?_, by simpa using h2⟩
    rw [List.foldlM_cons, e1]
    exact e2

/-- An object for segments. -/
def Style (o : Obj) : Prop := o.mode = .lines ∧ o.draw = true ∧ o.useTexture = false

/-- What holds of the display between drawings. -/
structure DInv (p L : ℕ) (V : Display n nCam) : Prop where
  planes : V.plane1 = plane 0.25 40 0.6 1 ∧ V.plane2 = plane 1 10 0.8 3
  sensor : ∀ c, ∃ r q, V.sensor c = { frame with pos := r, q := q }
  lines : ∀ c, Style (V.lines c) ∧ (V.lines c).Ok
  depth : ∀ c, Style (V.depth c) ∧ (V.depth c).Ok
  groundtruth : ∃ r q b, V.groundtruth = { darkFrame with pos := r, q := q, draw := b }
  canvas : IsTexture p L V.patch
  patches : ∀ i, (V.patches i).useTexture = true ∧ (V.patches i).Ok ∧ ∃ t, (V.patches i).tex = some t ∧ t.cols = p * 2 ^ (L - 1) ∧ t.rows = p * 2 ^ (L - 1)

lemma Line.ok {o : Obj} {acc : List Vertex} {r : V3} {q : Quat} (h : Line o acc r q) : Style o ∧ o.Ok :=
  ⟨⟨h.mode, h.draw, h.tex⟩, by rw [h.inds, h.verts]; simp, by
    rcases h.up with h0 | ⟨h1, h2, -, -⟩
    · left; rw [h.inds, h0]; rfl
    · right; exact ⟨h2, h1⟩⟩

/-- Invariant of the loop over the cameras: `dc` are those passed. -/
structure CInv (p L : ℕ) (S0 : Snapshot n nCam nPose) (g : Sight n) (gt : Obj) (dc : List (Fin nCam)) (V : Display n nCam)
    (S : Snapshot n nCam nPose) : Prop where
  rel : Rel S0 S
  sees : Sees S g
  planes : V.plane1 = plane 0.25 40 0.6 1 ∧ V.plane2 = plane 1 10 0.8 3
  groundtruth : V.groundtruth = gt
  sensor : ∀ c, ∃ r q, V.sensor c = { frame with pos := r, q := q } ∧ (c ∈ dc → r = S0.state.WrWC c ∧ q = S0.state.qCW c)
  lines : ∀ c, (Style (V.lines c) ∧ (V.lines c).Ok) ∧
    (c ∈ dc → Line (V.lines c) ((List.finRange n).flatMap (lineVerts p L S0 g c)) (S0.state.WrWC c) (S0.state.qCW c))
  depth : ∀ c, (Style (V.depth c) ∧ (V.depth c).Ok) ∧
    (c ∈ dc → Line (V.depth c) ((List.finRange n).flatMap (rayVerts S0 g c)) (S0.state.WrWC c) (S0.state.qCW c))
  canvas : IsTexture p L V.patch
  pictures : Pictures p L S0 g (fun c _ => c ∈ dc) V

lemma camera_step {p L : ℕ} (hp : Even p) (hL : 0 < L) (h4 : 4 ∣ p * 2 ^ (L - 1)) (junk : FC) {S0 S : Snapshot n nCam nPose} {g : Sight n} {gt : Obj}
    {dc : List (Fin nCam)} {V : Display n nCam} (hR : Ready p L S0) (h : CInv p L S0 g gt dc V S) (cam : Fin nCam) :
    ∃ V' S', camera p L junk (V, S) cam = some (V', S') ∧ CInv p L S0 g gt (dc ++ [cam]) V' S' := by
  have hW : S.state.WrWC cam = S0.state.WrWC cam := by rw [h.rel.eq]; rfl
  have hq : S.state.qCW cam = S0.state.qCW cam := by rw [h.rel.eq]; rfl
  obtain ⟨r0, q0, hs0, -⟩ := h.sensor cam
  obtain ⟨⟨l1, l2, l3⟩, -⟩ := (h.lines cam).1
  obtain ⟨⟨d1, d2, d3⟩, -⟩ := (h.depth cam).1
  obtain ⟨V1, hV1⟩ : ∃ V1 : Display n nCam, V1 = { V with
    sensor := Function.update V.sensor cam { V.sensor cam with pos := S.state.WrWC cam, q := S.state.qCW cam }
    lines := Function.update V.lines cam (V.lines cam).clear
    depth := Function.update V.depth cam (V.depth cam).clear } := ⟨_, rfl⟩
  have hs1 : (V1.sensor cam).pos = S0.state.WrWC cam ∧ (V1.sensor cam).q = S0.state.qCW cam := by
    rw [hV1]; simp only [Function.update_self]; exact ⟨hW, hq⟩
  have inv : FInv p L S0 g V1 cam (fun c _ => c ∈ dc) [] V1 S := by
    refine ⟨h.rel, h.sees, rfl, ⟨rfl, rfl, rfl⟩, fun c _ => ⟨rfl, rfl⟩, ?_, ?_, ?_, ?_⟩
    · rw [hV1]; simp only [Function.update_self]; exact Line.clear l1 l2 l3 _ _
    · rw [hV1]; simp only [Function.update_self]; exact Line.clear d1 d2 d3 _ _
    · rw [hV1]; exact h.canvas
    · have := h.pictures
      refine ⟨fun i => ?_, fun i c hPr hD => ?_, ?_, ?_, ?_⟩
      · rw [hV1]; simp only [List.not_mem_nil, and_false, or_false]; exact this.draw i
      · rw [hV1]; exact this.shown i c (by simpa using hPr) hD
      · rw [hV1]; exact this.use
      · rw [hV1]; exact this.tex
      · rw [hV1]; exact this.ok
  obtain ⟨V', S', e, h'⟩ := features_loop hp hL h4 junk hR hs1 (List.finRange n) [] V1 S inv
  refine ⟨V', S', by unfold camera; simp only; rw [← hV1]; exact e, ?_⟩
  rw [List.nil_append] at h'
  refine ⟨h'.rel, h'.sees, ?_, ?_, fun c => ?_, fun c => ?_, fun c => ?_, h'.canvas, ?_⟩
  · rw [h'.fixed.1, h'.fixed.2.1, hV1]; exact h.planes
  · rw [h'.fixed.2.2, hV1]; exact h.groundtruth
  · rw [h'.sensor, hV1]
    by_cases hc : c = cam
    · subst hc
      simp only [Function.update_self]
      exact ⟨_, _, by rw [hs0], fun _ => ⟨hW, hq⟩⟩
    · simp only [Function.update_of_ne hc]
      obtain ⟨r, q, e1, e2⟩ := h.sensor c
      exact ⟨r, q, e1, fun hm => e2 (by simpa [hc] using hm)⟩
  · by_cases hc : c = cam
    · subst hc
      have := h'.lines
      rw [hs1.1, hs1.2] at this
      exact ⟨this.ok, fun _ => this⟩
    · rw [(h'.others c hc).1, hV1]
      simp only [Function.update_of_ne hc]
      exact ⟨(h.lines c).1, fun hm => (h.lines c).2 (by simpa [hc] using hm)⟩
  · by_cases hc : c = cam
    · subst hc
      have := h'.depth
      rw [hs1.1, hs1.2] at this
      exact ⟨this.ok, fun _ => this⟩
    · rw [(h'.others c hc).2, hV1]
      simp only [Function.update_of_ne hc]
      exact ⟨(h.depth c).1, fun hm => (h.depth c).2 (by simpa [hc] using hm)⟩
  · refine ⟨fun i => ?_, fun i c hPr hD => ?_, h'.pictures.use, h'.pictures.tex, h'.pictures.ok⟩
    · rw [h'.pictures.draw i]
      exact exists_congr fun c => by simp
    · exact h'.pictures.shown i c (by simpa using hPr) hD

lemma cameras_loop {p L : ℕ} (hp : Even p) (hL : 0 < L) (h4 : 4 ∣ p * 2 ^ (L - 1)) (junk : FC) {S0 : Snapshot n nCam nPose} {g : Sight n} {gt : Obj}
    (hR : Ready p L S0) (l : List (Fin nCam)) : ∀ (dc : List (Fin nCam)) (V : Display n nCam) (S : Snapshot n nCam nPose), CInv p L S0 g gt dc V S →
      ∃ V' S', l.foldlM (camera p L junk) (V, S) = some (V', S') ∧ CInv p L S0 g gt (dc ++ l) V' S' := by
  induction l with
  | nil => intro dc V S h; exact ⟨V, S, rfl, by simpa using h⟩
  | cons i l ih =>
    intro dc V S h
    obtain ⟨V1, S1, e1, h1⟩ := camera_step hp hL h4 junk hR h i
    obtain ⟨V2, S2, e2, h2⟩ := ih _ V1 S1 h1
    refine ⟨V2, S2, ?_, by simpa using h2⟩
    rw [List.foldlM_cons, e1]
    exact e2

/-! ### From vertices to segments in the world -/

lemma colorOf_unique {S : Snapshot n nCam nPose} {i : Fin n} {col : V4} (h : ColorOf S i col) : col = colorOf (S.stat i) := by
  obtain ⟨h1, h2, h3⟩ := h
  have ht : trackedInSomeFrame (S.stat i) = true ↔ ∃ c, (S.stat i).status c = .tracked := by
    simp [trackedInSomeFrame]
  have hi : inSomeFrame (S.stat i) = true ↔ ∃ c, (S.stat i).status c = .failedAlignment ∨ (S.stat i).status c = .failedTracking ∨ (S.stat i).status c = .tracked := by
    simp [inSomeFrame, visible, or_assoc]
  unfold colorOf
  by_cases a : ∃ c, (S.stat i).status c = .tracked
  · rw [if_pos (ht.2 a), h1 a]
  · rw [if_neg (fun e => a (ht.1 e))]
    push Not at a
    by_cases b : ∃ c, (S.stat i).status c = .failedAlignment ∨ (S.stat i).status c = .failedTracking
    · obtain ⟨c, hc⟩ := b
      rw [if_pos (hi.2 ⟨c, by tauto⟩), h2 a ⟨c, hc⟩]
    · rw [if_neg]
      · rw [h3 (fun c => ⟨a c, fun e => b ⟨c, Or.inl e⟩, fun e => b ⟨c, Or.inr e⟩⟩)]
        norm_num
      · intro e
        obtain ⟨c, hc⟩ := hi.1 e
        rcases hc with e | e | e
        · exact b ⟨c, Or.inl e⟩
        · exact b ⟨c, Or.inr e⟩
        · exact a c e

/-- The segments of vertices that come in groups of even size. -/
lemma segments_flatMap {α β : Type} (f : α → List β) (hf : ∀ a, Even (f a).length) (l : List α) :
    segments (l.flatMap f) = l.flatMap fun a => segments (f a) := by
  have app : ∀ (k : ℕ) (a b : List β), a.length = 2 * k → segments (a ++ b) = segments a ++ segments b := by
    intro k
    induction k with
    | zero =>
      intro a b h
      obtain rfl : a = [] := List.length_eq_zero_iff.1 (by simpa using h)
      rfl
    | succ k ih =>
      intro a b h
      match a, h with
      | x :: y :: a, h =>
        have := ih a b (by simp at h; omega)
        simp [segments, this]
  induction l with
  | nil => rfl
  | cons a l ih =>
    obtain ⟨k, hk⟩ := hf a
    rw [List.flatMap_cons, app k _ _ (by omega), ih, List.flatMap_cons]

lemma line_segments {o : Obj} {r : V3} {q : Quat} {l : List (Fin n)} {f : Fin n → List Vertex} (h : Line o (l.flatMap f) r q)
    (hf : ∀ a, Even (f a).length) :
    drawnSegments o (l.flatMap fun i => segments ((f i).map fun v => (worldPoint r q v.pos, v.color))) := by
  refine ⟨h.draw, h.mode, h.tex, _, h.elements, ?_⟩
  have : (l.flatMap f).map (fun v => (worldPoint o.pos o.q v.pos, v.color)) = (l.flatMap f).map (fun v => (worldPoint r q v.pos, v.color)) := by
    rcases h.up with h0 | ⟨-, -, h1, h2⟩
    · rw [h0]; rfl
    · rw [h1, h2]
  rw [this, List.map_flatMap, segments_flatMap]
  intro a
  rw [List.length_map]
  exact hf a

lemma frame_ok : frame.Ok := by
  have := Obj.Ok.frame Obj.new 1
  exact ⟨this.range, this.ibo⟩

lemma darkFrame_ok : darkFrame.Ok := by
  refine Obj.Ok.alloc fun i hi => ?_
  have := frame_ok.range i hi
  simpa using this

lemma frame_segments (r : V3) (q : Quat) : drawnSegments { frame with pos := r, q := q } (axes r q 1) := by
  have ok : Obj.Ok { frame with pos := r, q := q } := ⟨frame_ok.range, frame_ok.ibo⟩
  refine ⟨rfl, rfl, rfl, _, ok.elements, ?_⟩
  have ev : frame.verts = [⟨⟨0, 0, 0⟩, ⟨0, 0, 1⟩, Obj.axisColor 0 1⟩, ⟨(1 : ℝ) • Obj.axis 0, ⟨0, 0, 1⟩, Obj.axisColor 0 1⟩,
    ⟨⟨0, 0, 0⟩, ⟨0, 0, 1⟩, Obj.axisColor 1 1⟩, ⟨(1 : ℝ) • Obj.axis 1, ⟨0, 0, 1⟩, Obj.axisColor 1 1⟩,
    ⟨⟨0, 0, 0⟩, ⟨0, 0, 1⟩, Obj.axisColor 2 1⟩, ⟨(1 : ℝ) • Obj.axis 2, ⟨0, 0, 1⟩, Obj.axisColor 2 1⟩] := rfl
  have ei : frame.inds = [0, 1, 2, 3, 4, 5] := rfl
  change segments (List.map _ (frame.inds.filterMap fun i => frame.verts[i]?)) = _
  rw [ei, ev]
  have h0 : worldPoint r q ⟨0, 0, 0⟩ = r := by
    ext <;> simp [worldPoint, Quat.rotate]
  have h1 : ∀ v : V3, (1 : ℝ) • v = v := fun v => by ext <;> simp
  simp [segments, axes, Obj.axisColor, Obj.axis, h0, h1]

lemma darkFrame_segments (r : V3) (q : Quat) : drawnSegments { darkFrame with pos := r, q := q, draw := true } (axes r q 0.6) := by
  have ok : Obj.Ok { darkFrame with pos := r, q := q, draw := true } := ⟨darkFrame_ok.range, darkFrame_ok.ibo⟩
  refine ⟨rfl, rfl, rfl, _, ok.elements, ?_⟩
  have ev : darkFrame.verts = [⟨⟨0, 0, 0⟩, ⟨0, 0, 1⟩, Obj.axisColor 0 0.6⟩, ⟨(1 : ℝ) • Obj.axis 0, ⟨0, 0, 1⟩, Obj.axisColor 0 0.6⟩,
    ⟨⟨0, 0, 0⟩, ⟨0, 0, 1⟩, Obj.axisColor 1 0.6⟩, ⟨(1 : ℝ) • Obj.axis 1, ⟨0, 0, 1⟩, Obj.axisColor 1 0.6⟩,
    ⟨⟨0, 0, 0⟩, ⟨0, 0, 1⟩, Obj.axisColor 2 0.6⟩, ⟨(1 : ℝ) • Obj.axis 2, ⟨0, 0, 1⟩, Obj.axisColor 2 0.6⟩] := rfl
  have ei : darkFrame.inds = [0, 1, 2, 3, 4, 5] := rfl
  change segments (List.map _ (darkFrame.inds.filterMap fun i => darkFrame.verts[i]?)) = _
  rw [ei, ev]
  have h0 : worldPoint r q ⟨0, 0, 0⟩ = r := by
    ext <;> simp [worldPoint, Quat.rotate]
  have h1 : ∀ v : V3, (1 : ℝ) • v = v := fun v => by ext <;> simp
  simp [segments, axes, Obj.axisColor, Obj.axis, h0, h1]

/-- One drawing of the scene. -/
lemma drawScene_spec {p L : ℕ} (hp : Even p) (hL : 0 < L) (h4 : 4 ∣ p * 2 ^ (L - 1)) (junk : FC) {S : Snapshot n nCam nPose} {g : Sight n}
    {V : Display n nCam} (hR : Ready p L S) (hg : Sees S g) (hV : DInv p L V) :
    ∃ V' S', drawScene p L junk V S = some (V', S') ∧ DInv p L V' ∧ Depicts p L S g V' ∧ Rel S S' ∧ Sees S' g := by
  obtain ⟨V1, hV1⟩ : ∃ V1 : Display n nCam, V1 = { V with
    groundtruth := if S.plotPoseMeas then { V.groundtruth with q := S.state.aux.poseMeasRot, pos := S.state.aux.poseMeasLin, draw := true }
      else { V.groundtruth with draw := false }
    patches := fun i => { V.patches i with draw := false } } := ⟨_, rfl⟩
  have inv : CInv p L S g V1.groundtruth [] V1 S := by
    refine ⟨Rel.refl _, hg, ?_, rfl, fun c => ?_, fun c => ?_, fun c => ?_, ?_, ?_⟩
    · rw [hV1]; exact hV.planes
    · obtain ⟨r, q, e⟩ := hV.sensor c
      rw [hV1]
      exact ⟨r, q, e, by simp⟩
    · rw [hV1]; exact ⟨hV.lines c, by simp⟩
    · rw [hV1]; exact ⟨hV.depth c, by simp⟩
    · rw [hV1]; exact hV.canvas
    · refine ⟨fun i => ?_, fun i c hc => by simp at hc, fun i => ?_, fun i => ?_, fun i => ?_⟩
      · rw [hV1]; simp
      · rw [hV1]; exact (hV.patches i).1
      · rw [hV1]; exact (hV.patches i).2.2
      · rw [hV1]; exact ⟨(hV.patches i).2.1.range, (hV.patches i).2.1.ibo⟩
  obtain ⟨V', S', e, h⟩ := cameras_loop hp hL h4 junk hR (List.finRange nCam) [] V1 S inv
  obtain ⟨r0, q0, b0, hgt⟩ := hV.groundtruth
  have hgt' : V'.groundtruth = if S.plotPoseMeas then { darkFrame with pos := S.state.aux.poseMeasLin, q := S.state.aux.poseMeasRot, draw := true }
      else { darkFrame with pos := r0, q := q0, draw := false } := by
    rw [h.groundtruth, hV1]
    simp only [hgt]
  refine ⟨V', S', by unfold drawScene; rw [← hV1]; exact e, ?_, ?_, h.rel, h.sees⟩
  · refine ⟨h.planes, fun c => ?_, fun c => (h.lines c).1, fun c => (h.depth c).1, ?_, h.canvas, fun i => ⟨h.pictures.use i, h.pictures.ok i, h.pictures.tex i⟩⟩
    · obtain ⟨r, q, e, -⟩ := h.sensor c
      exact ⟨r, q, e⟩
    · rw [hgt']
      split <;> exact ⟨_, _, _, rfl⟩
  · refine ⟨fun c => ?_, fun col hcol c => ?_, fun col hcol c => ?_, ⟨?_, fun hpm => ?_⟩, fun i => ⟨?_, fun c hD => ?_⟩⟩
    · obtain ⟨r, q, e, hrq⟩ := h.sensor c
      obtain ⟨rfl, rfl⟩ := hrq (by simp)
      rw [e]
      exact frame_segments _ _
    · have := line_segments ((h.lines c).2 (by simp)) (fun i => by unfold lineVerts; split <;> simp <;> decide)
      convert this using 1
      unfold forDrawn
      congr 1
      funext i
      unfold lineVerts
      split
      · simp only
        rw [colorOf_unique (hcol i)]; rfl
      · rfl
    · have := line_segments ((h.depth c).2 (by simp)) (fun i => by unfold rayVerts; split <;> simp)
      convert this using 1
      unfold forDrawn
      congr 1
      funext i
      unfold rayVerts
      split
      · simp only
        rw [colorOf_unique (hcol i)]; rfl
      · rfl
    · rw [hgt']
      cases S.plotPoseMeas <;> rfl
    · rw [hgt', if_pos hpm]
      exact darkFrame_segments _ _
    · rw [h.pictures.draw i]
      simp
    · exact h.pictures.shown i c (by simp) hD

lemma initScene_inv (n nCam p L : ℕ) : DInv p L (initScene n nCam p L) := by
  refine ⟨⟨rfl, rfl⟩, fun c => ⟨_, _, rfl⟩, fun c => ⟨⟨rfl, rfl, rfl⟩, ?_⟩, fun c => ⟨⟨rfl, rfl, rfl⟩, ?_⟩, ⟨_, _, _, rfl⟩, ⟨rfl, rfl, rfl⟩,
    fun i => ⟨rfl, ⟨by simp [initScene, Obj.initTexture, Obj.new], Or.inl rfl⟩, _, rfl, rfl, rfl⟩⟩
  · exact ⟨by simp [initScene, emptyLines, Obj.makeLine, Obj.prolonge, Obj.clear, Obj.allocateBuffer], Or.inl rfl⟩
  · exact ⟨by simp [initScene, emptyLines, Obj.makeLine, Obj.prolonge, Obj.clear, Obj.allocateBuffer], Or.inl rfl⟩

end Rovio.RovioScene
