import Verif.Props.FilterCov
import Verif.Props.ImuPrediction

/-! # C78: the filter keeps running; non-vacuity of C46 and C77 -/

namespace Rovio

open Matrix Spec Distance State

variable {n nCam nPose : ℕ}

/-- Specification: a filter that can go on.  Rotations and bearings are proper, patches can be warped, the covariance is one. -/
structure FSt.Live (x : FSt n nCam nPose) : Prop where
  ok : x.s.Ok
  ready : Ready x.s
  cov : IsCov x.P
  unitVM : x.u.qVM.IsUnit

/-- Specification: proper inputs.  Time goes forward, measurement noise is positive definite, measured attitudes are unit quaternions,
corrections are about features of an existing camera, new features are proper. -/
def Step.Live (u : PoseUpd nPose) : Step n nCam nPose → Prop
  | .predict _ dt => 0 < dt
  | .image alg => ∀ o P c, alg o P = some c → IsCov c.R ∧ StrictPos c.R ∧ (c.lin.fea c.i).c.validNor = true ∧
      ∃ a, camIdx nCam (c.lin.fea c.i).c.camID = some a
  | .manage alg => ∀ o P, o.Ok → Ready o →
      (∀ i, ((alg o P).fea i).c.validNor = true ∧ ((alg o P).fea i).c.nor.q.IsUnit ∧ ((alg o P).fea i).c.Proj ∧
        (∀ a, camIdx nCam ((alg o P).fea i).c.camID = some a → ((alg o P).fea i).c.trackWarping = true → ((alg o P).fea i).c.validWarpNor = true ∨ ((alg o P).fea i).c.cam.isSome)) ∧
      (∀ c, ((alg o P).aux.qCM c).IsUnit) ∧ ∀ r ∈ (alg o P).reset, IsCov r.2
  | .pose meas => meas.att.IsUnit ∧ IsCov (u.setNoise meas).noise ∧ StrictPos (u.setNoise meas).noise
  | _ => True

lemma colMat_of {ρ : Type} {f : Ix n nCam nPose → Option (ρ → ℝ)} (h : ∀ b, ∃ r, f b = some r) : ∃ M, colMat f = some M := by
  classical
  have hs : ∀ b, (f b).isSome := fun b => by obtain ⟨r, hr⟩ := h b; rw [hr]; rfl
  unfold colMat
  rw [dif_pos hs]
  exact ⟨_, rfl⟩

namespace State

variable {s : State n nCam nPose}

lemma feaJac_some (h : Ready s) (m : ImuMeas) (dt : ℝ) (i : Fin n) (δ : DState n nCam nPose) : ∃ r, s.feaJac m dt i δ = some r := by
  unfold State.feaJac
  cases hc : camIdx nCam (s.fea i).c.camID with
  | none => simp only [hc]; exact ⟨_, rfl⟩
  | some a =>
    simp only [hc, MultiCamera.getNor_of_valid (h.nor i), Option.bind_eq_bind, Option.bind_some, Option.pure_def]
    exact ⟨_, rfl⟩

lemma feaNoise_some (h : Ready s) (m : ImuMeas) (dt : ℝ) (i : Fin n) (δ : DState n nCam nPose) : ∃ r, s.feaNoise m dt i δ = some r := by
  unfold State.feaNoise
  cases hc : camIdx nCam (s.fea i).c.camID with
  | none => simp only [hc]; exact ⟨_, rfl⟩
  | some a =>
    simp only [hc, MultiCamera.getNor_of_valid (h.nor i), Option.bind_eq_bind, Option.bind_some, Option.pure_def]
    exact ⟨_, rfl⟩

lemma featureJac_some {sfv : V3 → Nor} {ig : Bool} {i : Fin n} {b : Fin nCam} (hn : (s.fea i).c.validNor = true) (hc : ∃ a, camIdx nCam (s.fea i).c.camID = some a)
    (δ : DState n nCam nPose) : ∃ r, s.featureJac sfv ig i b δ = some r := by
  obtain ⟨a, ha⟩ := hc
  unfold State.featureJac
  by_cases h : (s.fea i).c.camID ≠ b.val
  · rw [if_pos h]
    simp only [ha, MultiCamera.getNor_of_valid hn, Option.bind_eq_bind, Option.bind_some, Option.pure_def]
    exact ⟨_, rfl⟩
  · rw [if_neg h]; exact ⟨_, rfl⟩

lemma ready_boxPlus (h : Ready s) (δ : DState n nCam nPose) : Ready (s.boxPlus δ) := by
  refine ⟨boxPlus_nor δ, fun i a ha hw => ?_⟩
  have := h.warp i a
  simp only [State.boxPlus, Fea.boxPlus, FC.setNor, Bool.and_false, Bool.false_eq_true, if_false] at ha hw ⊢
  exact this ha hw

lemma ready_fixed (h : Ready s) : Ready s.fixed := by
  refine ⟨fun i => by simp [fixed, Fea.fixed, FC.setNor], fun i a ha hw => ?_⟩
  have := h.warp i a
  simp only [fixed, Fea.fixed, FC.setNor, Bool.and_false, Bool.false_eq_true, if_false] at ha hw ⊢
  exact this ha hw

lemma ready_odo (h : Ready s) : Ready s.odo :=
  ⟨h.nor, fun i a ha hw => h.warp i a ha hw⟩

end State

namespace FSt

lemma finish_live {m : ℕ} {x : FSt n nCam nPose} (h : x.Live) {gate : Gate m} {v : Fin m → ℝ} {H : Matrix (Fin m) (Ix n nCam nPose) ℝ}
    {R : Matrix (Fin m) (Fin m) ℝ} (hR : IsCov R) (hR' : StrictPos R) {post : State n nCam nPose → State n nCam nPose}
    (hp : ∀ s, UnitState s → Ready s → UnitState (post s) ∧ Ready (post s)) : ∃ x', x.finish gate v H R post = some x' ∧ x'.Live ∧ x'.u = x.u := by
  obtain ⟨r, hr⟩ := correct_isSome (gate := gate) (y := v) (H := H) h.cov hR'
  obtain ⟨h1, h2⟩ := hp _ (boxPlus_unit h.ok.unit (DState.ofFn r.1)) (ready_boxPlus h.ready _)
  unfold finish
  simp only [hr, Option.bind_eq_bind, Option.bind_some, Option.pure_def, fix_eq h1 h2.nor]
  refine ⟨_, rfl, ⟨fixed_ok h1, ready_fixed h2, ?_, h.unitVM⟩, rfl⟩
  have := (correct_cov h.cov hR hr).1
  simp only [symm_cov this]; exact this

lemma step_live {cfg : FCfg n (nCam + 1) nPose} (hc : cfg.NoiseOk) (hv : StrictPos cfg.velR) (hz : StrictPos cfg.zeroR) {e : Step n (nCam + 1) nPose}
    {x : FSt n (nCam + 1) nPose} (he : e.Live x.u) (h : x.Live) : ∃ x', x.step cfg e = some x' ∧ x'.Live ∧ x'.u.SameSettings x.u := by
  have fin : ∀ {x : FSt n (nCam + 1) nPose}, x.Live → ∀ {m : ℕ} {gate : Gate m} {v : Fin m → ℝ} {H : Matrix (Fin m) (Ix n (nCam + 1) nPose) ℝ} {R : Matrix (Fin m) (Fin m) ℝ}
      (_ : IsCov R) (_ : StrictPos R) {post : State n (nCam + 1) nPose → State n (nCam + 1) nPose}
      (_ : ∀ s, UnitState s → Ready s → UnitState (post s) ∧ Ready (post s)), ∃ x', x.finish gate v H R post = some x' ∧ x'.Live ∧ x'.u.SameSettings x.u := by
    intro x h m gate v H R hR hR' post hp
    obtain ⟨x', a, b, c⟩ := finish_live (gate := gate) (v := v) (H := H) h hR hR' hp
    exact ⟨x', a, b, c ▸ ⟨rfl, rfl, rfl, rfl⟩⟩
  cases e with
  | predict m dt =>
    have hdt : 0 < dt := he
    obtain ⟨F, hF⟩ := colMat_of (f := fun b => (x.s.predJac m dt (DState.unit b)).map DState.get) (fun b => by
      choose g hg using fun i => feaJac_some h.ready m dt i (DState.unit b)
      simp only [State.predJac, optAll_some hg]; exact ⟨_, rfl⟩)
    obtain ⟨G, hG⟩ := colMat_of (f := fun b => (x.s.noiseJac m dt (DState.unit b)).map DState.get) (fun b => by
      choose g hg using fun i => feaNoise_some h.ready m dt i (DState.unit b)
      simp only [State.noiseJac, optAll_some hg]; exact ⟨_, rfl⟩)
    obtain ⟨s', hs, f⟩ := evalPrediction_facts h.ready h.ok.unit cfg.pred m x.s (DState.ofFn 0) hdt
    obtain ⟨-, -, -, hok, -⟩ := evalPrediction_congr ⟨rfl, rfl, rfl, rfl, rfl, rfl, rfl, fun _ => rfl, rfl⟩ h.ok h.ok hs
    simp only [step, predict, hF, hG, hs, Option.bind_eq_bind, Option.bind_some, Option.pure_def]
    have hP := (h.cov.conj F).add ((IsCov.diagonal hc.q).conj G)
    refine ⟨_, rfl, ⟨hok, ⟨hok.nor, fun i a ha hw => ?_⟩, ?_, h.unitVM⟩, ⟨rfl, rfl, rfl, rfl⟩⟩
    · simp only at ha hw ⊢
      cases hcam : camIdx (nCam + 1) (x.s.fea i).c.camID with
      | none =>
        rw [f.unused i hcam] at ha
        have : camIdx (nCam + 1) (x.s.fea i).c.camID = some a := by
          simpa only [FC.setNor, Bool.and_false, Bool.false_eq_true, if_false] using ha
        rw [hcam] at this; cases this
      | some a' =>
        have ff := f.fea i a' hcam
        rw [ff.track] at hw
        exact .inl (ff.warp hw).1
    · simp only [symm_cov hP]; exact hP
  | velocity meas => exact fin h hc.velR hv (fun s a b => ⟨a, b⟩)
  | zeroVel tr =>
    simp only [step, zeroVel]
    split_ifs
    · exact fin h hc.zeroR hz (fun s a b => ⟨a, b⟩)
    · exact ⟨_, rfl, h, ⟨rfl, rfl, rfl, rfl⟩⟩
  | image alg =>
    simp only [step]
    cases ha : alg x.s.odo x.P.odo with
    | none => exact ⟨_, rfl, h, ⟨rfl, rfl, rfl, rfl⟩⟩
    | some c =>
      obtain ⟨h1, h2, h3, h4⟩ := he _ _ _ ha
      obtain ⟨J, hJ⟩ := colMat_of (f := fun b => ((x.s.withOdo c.lin).featureJac cfg.sfv true c.i c.b (DState.unit b)).map fun r => r.1.at) (fun b => by
        obtain ⟨r, hr⟩ := featureJac_some (s := x.s.withOdo c.lin) (sfv := cfg.sfv) (ig := true) (b := c.b) h3 h4 (DState.unit b)
        rw [hr]; exact ⟨_, rfl⟩)
      simp only [image, hJ, Option.bind_eq_bind, Option.bind_some]
      exact fin h h1 h2 (fun s a b => ⟨a, b⟩)
  | manage alg =>
    obtain ⟨h1, h2, h3⟩ := he x.s.odo x.P.odo (odo_ok h.ok) (ready_odo h.ready)
    refine ⟨_, rfl, ⟨⟨⟨h.ok.unit.att, h.ok.unit.vea, h2, h.ok.unit.poa, fun i => (h1 i).2.1⟩, fun i => (h1 i).1, fun i => (h1 i).2.2.1⟩,
      ⟨fun i => (h1 i).1, fun i a ha hw => (h1 i).2.2.2 a ha hw⟩, ?_, h.unitVM⟩, ⟨rfl, rfl, rfl, rfl⟩⟩
    have hx := h.cov
    simp only [manage]
    generalize (alg x.s.odo x.P.odo).reset = l at h3
    generalize x.P = P at hx
    induction l generalizing P with
    | nil => exact hx
    | cons r l ih => exact ih (fun a ha => h3 a (by simp [ha])) _ (C52_cov hx r.1 (h3 r (by simp)))
  | pose meas =>
    obtain ⟨hm, hn, hn'⟩ := he
    obtain ⟨hsame, hok, -, hvm⟩ := preProcess_same (u := x.u) (meas := meas) (s := x.s) h.ok h.unitVM hm
    obtain ⟨hs, he⟩ := x.u.preProcess_settings meas x.s
    have hready : Ready (x.u.preProcess meas x.s).2 := by
      refine ⟨hok.nor, fun i a ha hw => ?_⟩
      obtain ⟨p, v, e⟩ := Fea.noPix_eq (hsame.fea i)
      have := h.ready.warp i a
      rw [e] at this
      exact this ha hw
    obtain ⟨x', a, b, c⟩ := fin (x := { x with s := (x.u.preProcess meas x.s).2, u := (x.u.preProcess meas x.s).1 }) ⟨hok, hready, h.cov, hvm ▸ h.unitVM⟩
      (gate := cfg.gateP)
      (v := DPose.row ⟨((x.u.preProcess meas x.s).1.innov meas (x.u.preProcess meas x.s).2 ⟨0, 0⟩).pos, cfg.log ((x.u.preProcess meas x.s).1.innov meas (x.u.preProcess meas x.s).2 ⟨0, 0⟩).att⟩)
      (H := Matrix.of fun k b => ((x.u.preProcess meas x.s).1.jacState (x.u.preProcess meas x.s).2 (DState.unit b)).row k)
      (R := Matrix.of fun k l => (x.u.preProcess meas x.s).1.noise (poseRow k) (poseRow l))
      (post := (x.u.preProcess meas x.s).1.postProcess meas)
      (by rw [he]; exact Spec.IsCov.submatrix hn poseRow) (by rw [he]; exact poseNoise_pos hn') (fun s a b => ⟨⟨a.att, a.vea, a.aux, a.poa, a.nor⟩, ⟨b.nor, b.warp⟩⟩)
    exact ⟨x', a, b, ⟨c.cov.trans hs.cov, c.noise.trans hs.noise, c.pos.trans hs.pos, c.att.trans hs.att⟩⟩

end FSt

/-- C78: with proper inputs and positive definite noise no sequence of predictions, updates and feature management makes the filter
fail, and it always ends in a state from which it can go on. -/
theorem C78_run_succeeds (cfg : FCfg n (nCam + 1) nPose) (hc : cfg.NoiseOk) (hv : StrictPos cfg.velR) (hz : StrictPos cfg.zeroR) (es : List (Step n (nCam + 1) nPose))
    (x : FSt n (nCam + 1) nPose) (he : ∀ e ∈ es, e.Live x.u) (hx : x.Live) : ∃ x', x.run cfg es = some x' ∧ x'.Live := by
  have key : ∀ (es : List (Step n (nCam + 1) nPose)) (y : FSt n (nCam + 1) nPose), y.u.SameSettings x.u → (∀ e ∈ es, e.Live x.u) → y.Live →
      ∃ x', y.run cfg es = some x' ∧ x'.Live := by
    intro es
    induction es with
    | nil => intro y _ _ hy; exact ⟨y, rfl, hy⟩
    | cons e es ih =>
      intro y hs he hy
      have hn : e.Live y.u := by
        have := he e (by simp)
        cases e with
        | pose meas =>
          simp only [Step.Live] at this ⊢
          rwa [setNoise_congr hs.cov hs.noise hs.pos hs.att meas]
        | _ => exact this
      obtain ⟨z, h1, h2, h3⟩ := FSt.step_live hc hv hz hn hy
      obtain ⟨x', h4, h5⟩ := ih z ⟨h3.cov.trans hs.cov, h3.noise.trans hs.noise, h3.pos.trans hs.pos, h3.att.trans hs.att⟩ (fun a ha => he a (by simp [ha])) h2
      refine ⟨x', ?_, h5⟩
      simp only [FSt.run, List.foldlM_cons, Option.bind_eq_bind]
      rw [h1, Option.bind_some]; exact h4
  exact key es x ⟨rfl, rfl, rfl, rfl⟩ he hx

/-! ### A concrete run -/

/-- A pose update that estimates the inertial alignment without feedback. -/
noncomputable def demoNoFeedback : PoseUpd 1 :=
  { inertial := some 0, body := none, qVM := Quat.one, MrMV := 0, qWI := Quat.one, IrIW := 0, defaultNoise := 1, noise := 1, enablePosition := true
    enableAttitude := true, noFeedback := true, doAlign := true, didAlign := false, useOdometryCov := false }

/-- A filter with two cameras, a feature in the first, and unit covariance. -/
noncomputable def demoFilter : FSt 1 2 1 := ⟨demoState true 0, 1, demoNoFeedback⟩

/-- A configuration. -/
noncomputable def demoFCfg : FCfg 1 2 1 where
  pred := ⟨0.1, 0.1, M3.one⟩
  q := fun _ => 1
  qAM := Quat.one
  velR := 1
  zeroR := 1
  sfv := fun _ => ⟨Quat.one⟩
  log := fun q => ⟨q.x, q.y, q.z⟩
  gateV := fun _ _ _ => false
  gateZ := fun y _ i => decide (i = 0)
  gateP := fun _ _ i => decide (i = 3)

/-- A pose measurement half a turn away. -/
noncomputable def demoMeas : PoseMeas := ⟨⟨1, 2, 3⟩, ⟨0, 0, 1, 0⟩, 1⟩

/-- A run with every kind of step; the image correction uses the other camera. -/
noncomputable def demoSteps : List (Step 1 2 1) :=
  [.predict ⟨⟨0, 0, 10⟩, ⟨0.1, 0, 0⟩⟩ 0.01, .pose demoMeas, .velocity ⟨1, 0, 0⟩,
   .image fun _ _ => some { m := 2, i := 0, b := 1, lin := (demoState true 0).odo, A := 1, y := fun _ => 1, R := 1, gate := fun _ _ _ => false },
   .manage fun o _ => ⟨o.fea, o.aux, [(0, 1)]⟩, .zeroVel fun _ => true, .pose demoMeas]

lemma strictPos_one {m : Type} [Fintype m] [DecidableEq m] : StrictPos (1 : Matrix m m ℝ) := by
  intro v hv
  rw [one_mulVec]
  refine lt_of_le_of_ne (Finset.sum_nonneg fun i _ => mul_self_nonneg _) fun h => hv (funext fun i => ?_)
  exact mul_self_eq_zero.mp ((Finset.sum_eq_zero_iff_of_nonneg fun i _ => mul_self_nonneg _).mp h.symm i (Finset.mem_univ i))

lemma demoFilter_ok : demoFilter.s.Ok := ⟨demoState_unit _ _, fun _ => rfl, fun _ => fun h => by cases h⟩

lemma demoSteps_live : ∀ e ∈ demoSteps, e.Live demoFilter.u := by
  have hp : (Step.pose demoMeas : Step 1 2 1).Live demoFilter.u :=
    ⟨by norm_num [demoMeas, Quat.IsUnit, Quat.normSq], isCov_one, strictPos_one⟩
  intro e he
  simp only [demoSteps, List.mem_cons, List.not_mem_nil, or_false] at he
  rcases he with rfl | rfl | rfl | rfl | rfl | rfl | rfl
  · show (0 : ℝ) < 0.01; norm_num
  · exact hp
  · trivial
  · intro o P c h
    simp only [Option.some.injEq] at h
    subst h
    exact ⟨isCov_one, strictPos_one, rfl, 0, rfl⟩
  · intro o P ho hr
    refine ⟨fun i => ⟨ho.nor i, ho.unit.nor i, ho.proj i, hr.warp i⟩, ho.unit.aux, fun r hr => ?_⟩
    · simp only [List.mem_singleton] at hr; subst hr; exact isCov_one
  · trivial
  · exact hp

lemma demoFilter_live : demoFilter.Live := ⟨demoFilter_ok, demoState_ready _ _, isCov_one, Quat.isUnit_one⟩

lemma demoFCfg_ok : demoFCfg.NoiseOk := ⟨fun _ => zero_le_one, isCov_one, isCov_one⟩

/-- Non-vacuity of `C78_run_succeeds`. -/
example : ∃ x', demoFilter.run demoFCfg demoSteps = some x' ∧ x'.Live :=
  C78_run_succeeds _ demoFCfg_ok strictPos_one strictPos_one _ _ demoSteps_live demoFilter_live

lemma demoFilter_good : demoFilter.Good := by
  refine ⟨demoFilter_ok, fun a b h => ?_, transpose_one, rfl, Quat.isUnit_one⟩
  exact one_apply_ne fun e => h (by rw [e])

lemma demoSteps_good : ∀ e ∈ demoSteps, e.Good := by
  have hp : (Step.pose demoMeas : Step 1 2 1).Good := by norm_num [Step.Good, demoMeas, Quat.IsUnit, Quat.normSq]
  intro e he
  simp only [demoSteps, List.mem_cons, List.not_mem_nil, or_false] at he
  rcases he with rfl | rfl | rfl | rfl | rfl | rfl | rfl
  · trivial
  · exact hp
  · trivial
  · trivial
  · intro o P ho hr
    refine ⟨fun i => ⟨ho.nor i, ho.unit.nor i, ho.proj i⟩, ho.unit.aux, fun r hr => ?_⟩
    simp only [List.mem_singleton] at hr; subst hr; exact transpose_one
  · trivial
  · exact hp

/-- Non-vacuity of `C46_noninterference`: the run succeeds, and so does the one without the two pose measurements, with the same odometry part. -/
example : ∃ x' y, demoFilter.run demoFCfg demoSteps = some x' ∧ demoFilter.run demoFCfg (demoSteps.filter fun e => !e.isPose) = some y ∧ x'.s.odo = y.s.odo ∧
    (demoSteps.filter fun e => !e.isPose).length = 5 := by
  obtain ⟨x', hx, -⟩ := C78_run_succeeds _ demoFCfg_ok strictPos_one strictPos_one _ _ demoSteps_live demoFilter_live
  obtain ⟨y, hy, h, -⟩ := C46_noninterference _ _ demoSteps_good _ _ demoFilter_good hx
  exact ⟨x', y, hx, hy, h, rfl⟩

/-- Non-vacuity of `C77_valid`. -/
example : ∃ x', demoFilter.run demoFCfg demoSteps = some x' ∧ IsCov x'.P := by
  obtain ⟨x', hx, -⟩ := C78_run_succeeds _ demoFCfg_ok strictPos_one strictPos_one _ _ demoSteps_live demoFilter_live
  refine ⟨x', hx, C77_valid _ demoFCfg_ok _ _ _ (fun e he => ?_) isCov_one hx⟩
  have h := demoSteps_live e he
  cases e with
  | image alg => exact fun o P c hc => (h o P c hc).1
  | manage alg =>
    simp only [demoSteps, List.mem_cons, List.not_mem_nil, or_false, reduceCtorEq, Step.manage.injEq, false_or] at he
    subst he
    intro o P r hr
    simp only [List.mem_singleton] at hr; subst hr; exact isCov_one
  | pose meas => exact h.2.1
  | _ => trivial

/-- Non-vacuity of `C77_update_reduces` and `C77_updates_succeed`. -/
example : ∃ x', demoFilter.step demoFCfg (.pose demoMeas) = some x' ∧ ∀ v, v ⬝ᵥ x'.P.mulVec v ≤ v ⬝ᵥ demoFilter.P.mulVec v := by
  obtain ⟨x', hx⟩ := (C77_updates_succeed demoFCfg demoFilter isCov_one demoFilter_ok).2.2 demoMeas (by norm_num [demoMeas, Quat.IsUnit, Quat.normSq]) Quat.isUnit_one
    strictPos_one
  exact ⟨x', hx, C77_update_reduces _ demoFCfg_ok (.pose demoMeas) rfl _ _ (show IsCov _ from isCov_one) isCov_one hx⟩

end Rovio
