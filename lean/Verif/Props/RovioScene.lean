import Verif.Lemmas.RovioScene

/-!
# C92: the 3D view shows the current estimate
-/

namespace Rovio.RovioScene

open Rovio.Scene3D Rovio.Scene3D.Spec Rovio.Distance Rovio.Draw.Spec Rovio.RovioScene.Spec Rovio.Stat

variable {n nCam nPose : ℕ}

lemma drawAll_spec {p L : ℕ} (hp : Even p) (hL : 0 < L) (h4 : 4 ∣ p * 2 ^ (L - 1)) (junk : FC) (Ss : List (Snapshot n nCam nPose)) :
    ∀ V : Display n nCam, DInv p L V → (∀ S ∈ Ss, Ready p L S) → ∃ V', drawAll p L junk V Ss = some V' ∧ DInv p L V' := by
  induction Ss with
  | nil => intro V h _; exact ⟨V, rfl, h⟩
  | cons S Ss ih =>
    intro V h hS
    obtain ⟨g, hg⟩ := exists_sees (hS S (by simp))
    obtain ⟨V1, S1, e1, h1, -⟩ := drawScene_spec hp hL h4 junk (hS S (by simp)) hg h
    obtain ⟨V2, e2, h2⟩ := ih V1 h1 fun S' hS' => hS S' (by simp [hS'])
    exact ⟨V2, by simp [drawAll, e1, e2], h2⟩

lemma DInv.objects {p L : ℕ} {V : Display n nCam} (h : DInv p L V) : ∀ o ∈ V.objects, o.Ok := by
  intro o ho
  have mesh : ∀ l N g w, (plane l N g w).Ok := by
    intro l N g w
    have := Obj.Ok.groundPlaneMesh Obj.new l N
    refine ⟨fun i hi => ?_, Or.inr ⟨rfl, rfl⟩⟩
    have := this.range i hi
    simpa [plane, Obj.setColorFull, Obj.allocateBuffer] using this
  simp only [Display.objects, List.mem_append, List.mem_cons, List.not_mem_nil, or_false, List.mem_flatMap, List.mem_finRange, true_and, List.mem_map] at ho
  rcases ho with (((rfl | rfl) | ⟨c, rfl | rfl | rfl⟩) | rfl) | ⟨i, rfl⟩
  · rw [h.planes.1]; exact mesh _ _ _ _
  · rw [h.planes.2]; exact mesh _ _ _ _
  · obtain ⟨r, q, e⟩ := h.sensor c
    rw [e]; exact ⟨frame_ok.range, frame_ok.ibo⟩
  · exact (h.lines c).2
  · exact (h.depth c).2
  · obtain ⟨r, q, b, e⟩ := h.groundtruth
    rw [e]; exact ⟨darkFrame_ok.range, darkFrame_ok.ibo⟩
  · exact (h.patches i).2.1

lemma render_total (s : View) : ∀ (os : List Obj), (∀ o ∈ os, o.Ok) → ∃ ds, s.render os = some ds ∧ ds.length = (os.filter Obj.draw).length := by
  intro os h
  have : ∀ o ∈ os.filter Obj.draw, (s.drawObj o).isSome := by
    intro o ho
    have ok := h o (List.mem_filter.1 ho).1
    simp [View.drawObj, ok.elements]
  refine ⟨_, mapM_some this, ?_⟩
  rw [List.length_filterMap_eq_countP, List.countP_eq_length.2 (fun o ho => this o ho)]

/-- C92: after any history of drawings the next drawing works, shows the filter state it is given — every camera's frame at its estimated pose, the
outline, the depth segment and the picture of every feature in use with its camera and nothing else, the pose measurement if wanted — and the window
can be rendered from every view point. -/
theorem C92_draw {p L : ℕ} (hp : Even p) (hL : 0 < L) (h4 : 4 ∣ p * 2 ^ (L - 1)) (junk : FC) (Ss : List (Snapshot n nCam nPose))
    (hSs : ∀ S ∈ Ss, Ready p L S) (S : Snapshot n nCam nPose) (hS : Ready p L S) (g : Sight n) (hg : Sees S g) :
    ∃ V V' S', drawAll p L junk (initScene n nCam p L) Ss = some V ∧ drawScene p L junk V S = some (V', S') ∧ Depicts p L S g V' ∧
      ∀ s : View, ∃ ds, s.render V'.objects = some ds ∧ ds.length = (V'.objects.filter Obj.draw).length := by
  obtain ⟨V, e, h⟩ := drawAll_spec hp hL h4 junk Ss _ (initScene_inv n nCam p L) hSs
  obtain ⟨V', S', e', h1, h2, -⟩ := drawScene_spec hp hL h4 junk hS hg h
  exact ⟨V, V', S', e, e', h2, fun s => render_total s _ h1.objects⟩

/-- C92: a filter state that can be drawn tells what is to be seen, and this is determined for the features in use. -/
theorem C92_sight {p L : ℕ} (S : Snapshot n nCam nPose) (hS : Ready p L S) :
    ∃ g, Sees S g ∧ ∀ g', Sees S g' → ∀ i, S.valid i = true → g'.nor i = g.nor i ∧ g'.has i = g.has i ∧ (g.has i = true → g'.warp i = g.warp i) := by
  obtain ⟨g, hg⟩ := exists_sees hS
  refine ⟨g, hg, fun g' hg' i hi => ?_⟩
  obtain ⟨-, a2, a3, a4⟩ := hg i hi
  obtain ⟨-, b2, b3, b4⟩ := hg' i hi
  rw [a2] at b2
  rw [a3] at b3
  simp only [Option.some.injEq] at b2 b3
  refine ⟨b2.symm, b3.symm, fun hh => ?_⟩
  have := b4 (by rw [← b3]; exact hh)
  rw [a4 hh] at this
  simpa using this.symm

/-- C92: drawing changes nothing of the filter state but the caches of coordinates; bearing, deformation and distance stay what they were. -/
theorem C92_state {p L : ℕ} (hp : Even p) (hL : 0 < L) (h4 : 4 ∣ p * 2 ^ (L - 1)) (junk : FC) (Ss : List (Snapshot n nCam nPose))
    (hSs : ∀ S ∈ Ss, Ready p L S) (S : Snapshot n nCam nPose) (hS : Ready p L S) (g : Sight n) (hg : Sees S g) :
    ∃ V V' S', drawAll p L junk (initScene n nCam p L) Ss = some V ∧ drawScene p L junk V S = some (V', S') ∧
      S' = { S with state := { S.state with fea := S'.state.fea } } ∧ Sees S' g ∧
      ∀ i, (S'.state.fea i).d = (S.state.fea i).d ∧ (S'.state.fea i).c.camID = (S.state.fea i).c.camID ∧
        (S'.state.fea i).c.cam = (S.state.fea i).c.cam := by
  obtain ⟨V, e, h⟩ := drawAll_spec hp hL h4 junk Ss _ (initScene_inv n nCam p L) hSs
  obtain ⟨V', S', e', h1, h2, h3, h4⟩ := drawScene_spec hp hL h4 junk hS hg h
  exact ⟨V, V', S', e, e', h3.eq, h4, fun i => ⟨h3.dist i, h3.camID i, h3.cam i⟩⟩

lemma Rel.valid {S S' : Snapshot n nCam nPose} (h : Rel S S') : S'.valid = S.valid := by rw [h.eq]
lemma Rel.drawn {S S' : Snapshot n nCam nPose} (h : Rel S S') (g : Sight n) (c : Fin nCam) (i : Fin n) : Spec.Drawn S' g c i ↔ Spec.Drawn S g c i := by
  unfold Spec.Drawn
  rw [h.valid, h.camID]

lemma Rel.world {S S' : Snapshot n nCam nPose} (h : Rel S S') : Spec.world S' = Spec.world S := by
  funext c P
  unfold Spec.world
  rw [h.eq]
  rfl

lemma Rel.cornerAt {S S' : Snapshot n nCam nPose} (h : Rel S S') (p L : ℕ) (g : Sight n) : Spec.cornerAt p L S' g = Spec.cornerAt p L S g := by
  funext c i sx sy
  simp only [Spec.cornerAt, h.world, Spec.dist, h.dist]

lemma Rel.depicts {p L : ℕ} {S S' : Snapshot n nCam nPose} (h : Rel S S') {g : Sight n} {V : Display n nCam} (hd : Depicts p L S' g V) :
    Depicts p L S g V := by
  have hv : S'.var = S.var := by rw [h.eq]
  have hst : S'.stat = S.stat := by rw [h.eq]
  have hm : S'.mlp = S.mlp := by rw [h.eq]
  have hpm : S'.plotPoseMeas = S.plotPoseMeas := by rw [h.eq]
  have hW : S'.state.WrWC = S.state.WrWC := by rw [h.eq]; rfl
  have hQ : S'.state.qCW = S.state.qCW := by rw [h.eq]; rfl
  have ha : S'.state.aux = S.state.aux := by rw [h.eq]
  have hcol : ∀ i col, ColorOf S i col → ColorOf S' i col := by
    intro i col hc
    unfold ColorOf at hc ⊢
    rw [hst]
    exact hc
  have hfor : ∀ (c : Fin nCam) (f : Fin n → List ((V3 × V4) × (V3 × V4))), forDrawn S' g c f = forDrawn S g c f := by
    intro c f
    unfold forDrawn
    congr 1
    funext i
    by_cases hD : Spec.Drawn S g c i
    · rw [if_pos hD, if_pos ((h.drawn g c i).2 hD)]
    · rw [if_neg hD, if_neg fun e => hD ((h.drawn g c i).1 e)]
  refine ⟨fun c => ?_, fun col hc c => ?_, fun col hc c => ?_, ?_, fun i => ⟨?_, fun c hD => ?_⟩⟩
  · have := hd.sensor c
    rw [hW, hQ] at this
    exact this
  · have := hd.lines col (fun i => hcol i _ (hc i)) c
    rw [hfor] at this
    simp only [outline, h.cornerAt] at this
    exact this
  · have := hd.depth col (fun i => hcol i _ (hc i)) c
    rw [hfor] at this
    simp only [ray, h.world, h.dist, hv] at this
    exact this
  · have := hd.groundtruth
    rw [hpm, ha] at this
    exact this
  · rw [(hd.patches i).1]
    exact exists_congr fun c => h.drawn g c i
  · have := (hd.patches i).2 c ((h.drawn g c i).2 hD)
    unfold PatchShown at this ⊢
    rw [h.cornerAt, hm] at this
    exact this

lemma Rel.ready {p L : ℕ} {S S' : Snapshot n nCam nPose} (h : Rel S S') {g : Sight n} (hg : Sees S' g) (hR : Ready p L S) : Ready p L S' := by
  intro i hi
  have hm : S'.mlp = S.mlp := by rw [h.eq]
  obtain ⟨r1, -, r3⟩ := hR i (by rw [← h.valid]; exact hi)
  exact ⟨by rw [h.cam]; exact r1, (hg i hi).1, by rw [hm]; exact r3⟩

/-- C92: as long as there is no new estimate, drawing again and again shows the same. -/
theorem C92_redraw {p L : ℕ} (hp : Even p) (hL : 0 < L) (h4 : 4 ∣ p * 2 ^ (L - 1)) (junk : FC) (Ss : List (Snapshot n nCam nPose))
    (hSs : ∀ S ∈ Ss, Ready p L S) (S : Snapshot n nCam nPose) (hS : Ready p L S) (g : Sight n) (hg : Sees S g) (k : ℕ) :
    ∃ V V' S', drawAll p L junk (initScene n nCam p L) Ss = some V ∧
      (List.range (k + 1)).foldlM (fun (x : Display n nCam × Snapshot n nCam nPose) _ => drawScene p L junk x.1 x.2) (V, S) = some (V', S') ∧
      Depicts p L S g V' := by
  obtain ⟨V, e, h⟩ := drawAll_spec hp hL h4 junk Ss _ (initScene_inv n nCam p L) hSs
  have key : ∀ k : ℕ, ∃ V' S', (List.range (k + 1)).foldlM (fun (x : Display n nCam × Snapshot n nCam nPose) _ => drawScene p L junk x.1 x.2) (V, S)
      = some (V', S') ∧ DInv p L V' ∧ Depicts p L S g V' ∧ Rel S S' ∧ Sees S' g := by
    intro k
    induction k with
    | zero =>
      obtain ⟨V', S', e', r⟩ := drawScene_spec hp hL h4 junk hS hg h
      exact ⟨V', S', by simp [List.range_succ, e'], r⟩
    | succ k ih =>
      obtain ⟨V1, S1, e1, d1, -, r1, g1⟩ := ih
      obtain ⟨V2, S2, e2, d2, p2, r2, g2⟩ := drawScene_spec hp hL h4 junk (r1.ready g1 hS) g1 d1
      refine ⟨V2, S2, ?_, d2, r1.depicts p2, ?_, g2⟩
      · rw [List.range_succ, List.foldlM_append, e1]
        simp [e2]
      · refine ⟨?_, fun i => (r2.dist i).trans (r1.dist i), fun i => (r2.camID i).trans (r1.camID i), fun i => (r2.cam i).trans (r1.cam i)⟩
        conv_lhs => rw [r2.eq, r1.eq]
  obtain ⟨V', S', e', -, h2, -⟩ := key k
  exact ⟨V, V', S', e, e', h2⟩

/-! ### A filter state that can be drawn -/

/-- A camera that projects onto the plane. -/
noncomputable def demoCam : CamI := ⟨fun _ => none, fun _ => none, fun _ => (⟨Quat.one⟩, false)⟩

/-- Coordinates with a bearing and a deformation. -/
noncomputable def demoFC : FC :=
  { cam := some demoCam, c := ⟨0, 0⟩, validC := false, nor := ⟨Quat.one⟩, validNor := true, camID := 0, warpC := M2.one, validWarpC := false,
    warpNor := M2.one, validWarpNor := true, isWarpIdentity := false, trackWarping := true }

/-- Two features (the second not in use) and two cameras. -/
noncomputable def demoSnapshot : Snapshot 2 2 0 :=
  { state :=
      { pos := ⟨0, 0, 0⟩, vel := ⟨0, 0, 0⟩, acb := ⟨0, 0, 0⟩, gyb := ⟨0, 0, 0⟩, att := Quat.one, vep := fun _ => ⟨0, 0, 0⟩, vea := fun _ => Quat.one,
        fea := fun _ => ⟨demoFC, ⟨.inverse, 1⟩⟩, pop := fun _ => ⟨0, 0, 0⟩, poa := fun _ => Quat.one,
        aux := { MwWMest := ⟨0, 0, 0⟩, MwWMmeas := ⟨0, 0, 0⟩, wMeasCov := M3.one, doVE := false, qCM := fun _ => Quat.one, MrMC := fun _ => ⟨0, 0, 0⟩,
                 tInertial := 0, tImage := 0, poseMeasRot := Quat.one, poseMeasLin := ⟨0, 0, 0⟩ } }
    var := fun _ => 0.1
    valid := fun i => i = 0
    stat := fun _ => Stat.init 40 100 100 0
    mlp := fun _ => { patches := fun _ => { patch := fun _ => 100, dx := fun _ => 0, dy := fun _ => 0, border := fun _ => 100, H := M3.one, s := 0, e0 := 0, e1 := 0, validGradient := false }, isValidPatch := fun _ => true, H := M3.one, e0 := 0, e1 := 0, s := 0 }
    plotPoseMeas := true }

/-- What it tells. -/
noncomputable def demoSight : Sight 2 := ⟨fun _ => ⟨Quat.one⟩, fun _ => true, fun _ => M2.one⟩

lemma demo_tells : Tells demoFC ⟨Quat.one⟩ true M2.one := by
  refine ⟨?_, ?_, ?_, fun _ => ?_⟩
  · rw [comNor_valid rfl]; rfl
  · rw [getNor_valid rfl]; rfl
  · rw [comWarpNor_valid rfl]; rfl
  · rw [FC.getWarpNor, comWarpNor_valid rfl]; rfl

/-- The hypotheses of C92_draw, C92_sight, C92_state and C92_redraw are met by a filter state with a feature that is drawn and one that is not. -/
example : Ready 6 4 demoSnapshot ∧ Sees demoSnapshot demoSight ∧ Even 6 ∧ 4 ∣ 6 * 2 ^ (4 - 1) ∧ Drawn demoSnapshot demoSight 0 0 ∧
    ¬ Drawn demoSnapshot demoSight 1 0 ∧ ¬ Drawn demoSnapshot demoSight 0 1 := by
  refine ⟨fun i _ => ⟨rfl, ?_, fun l _ _ k _ => ?_⟩, fun i _ => demo_tells, by decide, by decide, ⟨rfl, rfl, rfl⟩, fun h => ?_, fun h => ?_⟩
  · change demoFC.comNor.map Prod.snd = _
    exact demo_tells.1
  · constructor <;> norm_num [demoSnapshot]
  · have := h.2.1
    norm_num [demoSnapshot, demoFC] at this
  · have := h.1
    simp [demoSnapshot] at this

/-! ### The ground and the depth segment -/

lemma plane_segments (l : ℝ) (N : ℕ) (b w : ℝ) : drawnSegments (plane l N b w) ((List.range (N + 1)).flatMap fun (i : ℕ) =>
      [((⟨l * i - l * N / 2, -(l * N / 2), -1⟩, ⟨b, b, b, 1⟩), (⟨l * i - l * N / 2, l * N / 2, -1⟩, ⟨b, b, b, 1⟩)),
       ((⟨-(l * N / 2), l * i - l * N / 2, -1⟩, ⟨b, b, b, 1⟩), (⟨l * N / 2, l * i - l * N / 2, -1⟩, ⟨b, b, b, 1⟩))]) := by
  have hv : (plane l N b w).verts = (List.range (N + 1)).flatMap fun (i : ℕ) =>
      [vtx ⟨b, b, b, 1⟩ ⟨-0.5 * l * N + l * i, -0.5 * l * N, 0⟩, vtx ⟨b, b, b, 1⟩ ⟨-0.5 * l * N + l * i, -0.5 * l * N + l * N, 0⟩,
       vtx ⟨b, b, b, 1⟩ ⟨-0.5 * l * N, -0.5 * l * N + l * i, 0⟩, vtx ⟨b, b, b, 1⟩ ⟨-0.5 * l * N + l * N, -0.5 * l * N + l * i, 0⟩] := by
    change List.map _ (List.flatMap _ _) = _
    rw [List.map_flatMap]
    rfl
  have hlen : (plane l N b w).verts.length = 4 * (N + 1) := by
    rw [hv, length_flatMap_const _ 4, List.length_range, Nat.mul_comm]
    intro x _
    rfl
  have ei : (plane l N b w).inds = List.range (plane l N b w).verts.length := by
    rw [hlen]
    have : ∀ n : ℕ, ((List.range n).flatMap fun (i : ℕ) => [i * 4, i * 4 + 1, i * 4 + 2, i * 4 + 3]) = List.range (4 * n) := by
      intro n
      induction n with
      | zero => rfl
      | succ n ih =>
        rw [List.range_succ, List.flatMap_append, ih, show 4 * (n + 1) = 4 * n + 1 + 1 + 1 + 1 by ring, List.range_succ, List.range_succ,
          List.range_succ, List.range_succ]
        simp [Nat.mul_comm]
    exact this (N + 1)
  have hL : Line (plane l N b w) (plane l N b w).verts ⟨0, 0, -1⟩ Quat.one := ⟨rfl, ei, rfl, rfl, rfl, Or.inr ⟨rfl, rfl, rfl, rfl⟩⟩
  rw [hv] at hL
  refine ⟨rfl, rfl, rfl, _, hL.elements, ?_⟩
  rw [List.map_flatMap, segments_flatMap _ (fun a => by simp; decide)]
  congr 1
  funext i
  have hw : ∀ P : V3, worldPoint (plane l N b w).pos (plane l N b w).q P = ⟨P.x, P.y, P.z - 1⟩ := by
    intro P
    change worldPoint ⟨0, 0, -1⟩ Quat.one P = _
    ext <;> simp [worldPoint, Quat.rotate, Quat.inv, Quat.one]
    ring
  simp only [List.map_cons, List.map_nil, segments, hw, vtx, List.cons.injEq, Prod.mk.injEq, V3.mk.injEq, and_true]
  refine ⟨⟨⟨?_, ?_, ?_⟩, ?_, ?_, ?_⟩, ⟨?_, ?_, ?_⟩, ?_, ?_, ?_⟩ <;> ring

/-- C92: two grids, of 40 by 40 squares of a quarter metre and of 10 by 10 squares of a metre, are shown one metre below the origin, always. -/
theorem C92_ground {p L : ℕ} (hp : Even p) (hL : 0 < L) (h4 : 4 ∣ p * 2 ^ (L - 1)) (junk : FC) (Ss : List (Snapshot n nCam nPose))
    (hSs : ∀ S ∈ Ss, Ready p L S) : ∃ V, drawAll p L junk (initScene n nCam p L) Ss = some V ∧
    let grid (l : ℝ) (N : ℕ) (b : ℝ) : List ((V3 × V4) × (V3 × V4)) := (List.range (N + 1)).flatMap fun (i : ℕ) =>
      [((⟨l * i - l * N / 2, -(l * N / 2), -1⟩, ⟨b, b, b, 1⟩), (⟨l * i - l * N / 2, l * N / 2, -1⟩, ⟨b, b, b, 1⟩)),
       ((⟨-(l * N / 2), l * i - l * N / 2, -1⟩, ⟨b, b, b, 1⟩), (⟨l * N / 2, l * i - l * N / 2, -1⟩, ⟨b, b, b, 1⟩))]
    drawnSegments V.plane1 (grid 0.25 40 0.6) ∧ drawnSegments V.plane2 (grid 1 10 0.8) := by
  obtain ⟨V, e, h⟩ := drawAll_spec hp hL h4 junk Ss _ (initScene_inv n nCam p L) hSs
  refine ⟨V, e, ?_⟩
  simp only
  rw [h.planes.1, h.planes.2]
  have h1 := plane_segments 0.25 40 0.6 1
  have h2 := plane_segments 1 10 0.8 3
  push_cast at h1 h2 ⊢
  exact ⟨h1, h2⟩

/-- C92: the depth segment runs along the bearing through the feature's estimated position, if the variance is not negative and — for inverse
distances — the estimate is between 0 and 1000. -/
theorem C92_depth (d : FeatureDistance) (v : ℝ) (hv : 0 ≤ v) (hd : d.type = .inverse → 0 < getDistance d ∧ getDistance d ≤ 1000) :
    let r := depthRange d v
    min r.1 r.2 ≤ getDistance d ∧ getDistance d ≤ max r.1 r.2 := by
  obtain ⟨t, p⟩ := d
  cases t with
  | regular =>
    simp only [depthRange, getDistance]
    simp only [reduceCtorEq, false_and, if_false]
    exact ⟨min_le_of_left_le (by linarith), le_max_of_le_right (by linarith)⟩
  | log =>
    simp only [depthRange, getDistance]
    simp only [reduceCtorEq, false_and, if_false]
    exact ⟨min_le_of_left_le (Real.exp_le_exp.2 (by linarith)), le_max_of_le_right (Real.exp_le_exp.2 (by linarith))⟩
  | hyperbolic =>
    simp only [depthRange, getDistance]
    simp only [reduceCtorEq, false_and, if_false]
    exact ⟨min_le_of_left_le (Real.sinh_le_sinh.2 (by linarith)), le_max_of_le_right (Real.sinh_le_sinh.2 (by linarith))⟩
  | inverse =>
    obtain ⟨h0, h1⟩ := hd rfl
    simp only [depthRange, getDistance] at h0 h1 ⊢
    simp only [true_and]
    have hm0 : 0 < makeNonZero p := by simpa using h0
    have hm1 : 1 / 1000 ≤ makeNonZero p := by
      rw [div_le_iff₀ hm0] at h1
      linarith
    have hp : makeNonZero p = p := by
      unfold makeNonZero at hm1 ⊢
      split_ifs at hm1 ⊢ <;> norm_num at hm1 <;> rfl
    have hge : ∀ x : ℝ, 1 / 1000 ≤ x → makeNonZero x = x := by
      intro x hx
      unfold makeNonZero
      rw [if_neg]
      norm_num
      linarith
    rw [hp] at hm0 hm1 h1 ⊢
    rw [hge (p - v + 2 * v) (by linarith)]
    constructor
    · refine min_le_of_right_le ?_
      exact one_div_le_one_div_of_le hm0 (by linarith)
    · refine le_max_of_le_left ?_
      split_ifs with h
      · exact h1
      · push Not at h
        obtain ⟨h2, h3⟩ := h
        have hq : 0 < makeNonZero (p - v) := by simpa using h3
        have hq1 : 1 / 1000 ≤ makeNonZero (p - v) := by
          rw [div_le_iff₀ hq] at h2
          linarith
        have hq2 : makeNonZero (p - v) = p - v := by
          unfold makeNonZero at hq1 ⊢
          split_ifs at hq1 ⊢ <;> norm_num at hq1 <;> rfl
        rw [hq2] at hq ⊢
        exact one_div_le_one_div_of_le hq (by linarith)

/-- C92_depth is not vacuous: an inverse distance of two metres. -/
example : (⟨.inverse, 1 / 2⟩ : FeatureDistance).type = .inverse ∧ 0 < getDistance ⟨.inverse, 1 / 2⟩ ∧ getDistance ⟨.inverse, 1 / 2⟩ ≤ 1000 := by
  refine ⟨rfl, ?_, ?_⟩ <;> norm_num [getDistance, makeNonZero]

/-- Finding (C92): the variance of the distance parameter is used as if it were its standard deviation: for a regular distance with standard
deviation 0.2 the segment reaches 0.04 to both sides. -/
theorem C92_finding_variance (p s : ℝ) : depthRange ⟨.regular, p⟩ (s ^ 2) = (p - s ^ 2, p + s ^ 2) := by
  simp only [depthRange, getDistance]
  simp
  ring

/-- Finding (C92): features estimated beyond 1000 metres lie outside their depth segment. -/
theorem C92_finding_far : let r := depthRange ⟨.inverse, 1 / 2000⟩ (1 / 10000)
    getDistance ⟨.inverse, 1 / 2000⟩ = 2000 ∧ r.1 = 1000 ∧ r.2 < 2000 := by
  simp only [depthRange, getDistance, makeNonZero]
  norm_num

end Rovio.RovioScene
