import Verif.Spec.AtRest
import Verif.Props.Influence

/-! # C110: measurements that agree with the estimate leave it alone, and none touches what it has nothing to do with -/

namespace Rovio

open Matrix Spec State

variable {n nCam nPose : ℕ}

/-- A change by nothing only writes the bearings back. -/
lemma boxPlus_nothing (s : State n nCam nPose) : s.boxPlus (DState.ofFn 0) = s.fixed := by
  have h3 : (⟨0, 0, 0⟩ : V3) = 0 := rfl
  have hN : ∀ q : Nor, q.N ⟨0, 0⟩ = 0 := fun q => by unfold Nor.N; ext <;> simp
  have hb : ∀ q : Nor, q.boxPlus ⟨0, 0⟩ = q := fun q => by unfold Nor.boxPlus; rw [hN, Quat.exp_zero, Quat.one_mul']
  have hq : ∀ q : Quat, q.boxPlus 0 = q := fun q => by unfold Quat.boxPlus; rw [Quat.exp_zero, Quat.one_mul']
  unfold State.boxPlus State.fixed DState.ofFn Fea.boxPlus Fea.fixed
  simp only [Pi.zero_apply, h3, V3.add_zero', hq, hb, add_zero]

lemma fixed_fixed (s : State n nCam nPose) (a : Aux nCam) : State.fixed { s.fixed with aux := a } = { s.fixed with aux := a } := by
  unfold State.fixed
  simp [Fea.fixed, FC.setNor]

lemma Spec.SamePlatformNumbers.refl (s : State n nCam nPose) : SamePlatformNumbers s s :=
  ⟨rfl, rfl, rfl, rfl, rfl, fun _ => rfl, fun _ => rfl, fun _ => rfl, fun _ => rfl⟩

lemma Spec.SamePlatformNumbers.trans {s t r : State n nCam nPose} (h : SamePlatformNumbers s t) (g : SamePlatformNumbers t r) : SamePlatformNumbers s r :=
  ⟨g.pos.trans h.pos, g.vel.trans h.vel, g.acb.trans h.acb, g.gyb.trans h.gyb, g.att.trans h.att, fun c => (g.qCM c).trans (h.qCM c), fun c => (g.MrMC c).trans (h.MrMC c),
    fun c => (g.pop c).trans (h.pop c), fun c => (g.poa c).trans (h.poa c)⟩

lemma Spec.SameLandmarks.refl (s : State n nCam nPose) : SameLandmarks s s := ⟨fun _ => rfl, fun _ => rfl, fun _ => rfl⟩

lemma Spec.SameLandmarks.trans {s t r : State n nCam nPose} (h : SameLandmarks s t) (g : SameLandmarks t r) : SameLandmarks s r :=
  ⟨fun i => (g.camID i).trans (h.camID i), fun i => (g.nor i).trans (h.nor i), fun i => (g.d i).trans (h.d i)⟩

/-- A correction with innovation zero. -/
lemma FSt.finish_nothing {m : ℕ} {x x' : FSt n nCam nPose} {gate : Gate m} {y : Fin m → ℝ} {H : Matrix (Fin m) (Ix n nCam nPose) ℝ} {R : Matrix (Fin m) (Fin m) ℝ}
    {post : State n nCam nPose → State n nCam nPose} (hu : UnitState x.s) (hy : y = 0) {a : Aux nCam} (ha : ∀ c, a.qCM c = x.s.aux.qCM c)
    (hpost : post x.s.fixed = { x.s.fixed with aux := a }) (hf : x.finish gate y H R post = some x') : x'.s = { x.s.fixed with aux := a } := by
  unfold FSt.finish at hf
  cases hc : correct gate y H R x.P with
  | none => simp [hc] at hf
  | some r =>
    obtain ⟨-, h1, -⟩ := correct_some hc
    rw [hy, mulVec_zero, neg_zero] at h1
    simp only [hc, Option.bind_eq_bind, Option.bind_some, Option.pure_def, h1, boxPlus_nothing, hpost] at hf
    have hu' : UnitState ({ x.s.fixed with aux := a } : State n nCam nPose) := by
      refine ⟨hu.att, hu.vea, fun c => ?_, hu.poa, fun i => ?_⟩
      · show (a.qCM c).IsUnit
        rw [ha]; exact hu.aux c
      · simpa [State.fixed, Fea.fixed, FC.setNor] using hu.nor i
    rw [fix_eq hu' (fun i => by simp [State.fixed, Fea.fixed, FC.setNor]), fixed_fixed, Option.bind_some, Option.some.injEq] at hf
    rw [← hf]

lemma fixed_same (s : State n nCam nPose) {a : Aux nCam} (h1 : a.doVE = s.aux.doVE) (h2 : ∀ c, a.qCM c = s.aux.qCM c) (h3 : ∀ c, a.MrMC c = s.aux.MrMC c) :
    SamePlatformNumbers s { s.fixed with aux := a } ∧ SameLandmarks s { s.fixed with aux := a } := by
  refine ⟨⟨rfl, rfl, rfl, rfl, rfl, fun c => ?_, fun c => ?_, fun _ => rfl, fun _ => rfl⟩, ⟨fun i => ?_, fun i => ?_, fun i => rfl⟩⟩
  · simp [State.qCM, State.fixed, h1, h2]
  · simp [State.MrMC, State.fixed, h1, h3]
  · simp [State.fixed, Fea.fixed, FC.setNor]
  · simp [State.fixed, Fea.fixed, FC.setNor]

/-- The prediction of a platform at rest. -/
lemma predict_rest {s s' : State n nCam nPose} {cfg : PredCfg} {m : ImuMeas} {dt : ℝ} (hu : s.att.IsUnit) (hv : s.vel = 0) (hg : m.gyr = s.gyb)
    (ha : s.att.rotate (m.acc - s.acb) = ⟨0, 0, 9.81⟩) (h : PredFacts cfg m s 0 dt s') : SamePlatformNumbers s s' ∧ SameLandmarks s s' := by
  have hacc : m.acc - s.acb = -(s.att.inv.rotate gravity) := by
    have : s.att.inv.rotate (s.att.rotate (m.acc - s.acb)) = m.acc - s.acb := Quat.rotate_inv_rotate hu _
    rw [← this, ha, ← Quat.rotate_neg]
    congr 1
    unfold gravity; ext <;> norm_num
  have hrot : m.gyr - s.gyb + (1 / Real.sqrt dt) • (0 : DState n nCam nPose).att = 0 := by
    rw [hg, DState.zero_att]; ext <;> simp
  have hcv : ∀ a, s.camVel a 0 = 0 := fun a => by
    unfold State.camVel; rw [hv]; ext <;> simp [V3.cross, Quat.rotate]
  have hcr : ∀ a, s.camRor a 0 = 0 := fun a => by
    unfold State.camRor; ext <;> simp [Quat.rotate]
  refine ⟨⟨?_, ?_, ?_, ?_, ?_, fun c => ?_, fun c => ?_, fun k => ?_, fun k => ?_⟩, ⟨fun i => ?_, fun i => ?_, fun i => ?_⟩⟩
  · rw [h.pos, hv]; simp only [DState.zero_pos]; ext <;> simp [Quat.rotate]
  · rw [h.vel, hrot, hv, hacc, DState.zero_vel]
    generalize s.att.inv.rotate gravity = g
    ext <;> simp [M3.mulVec, V3.dot]
  · rw [h.acb]; ext <;> simp
  · rw [h.gyb]; ext <;> simp
  · rw [h.att, hrot, V3.smul_zero', Quat.exp_zero, Quat.mul_one']
  · rw [h.qCM]; simp only [DState.zero_vea, V3.smul_zero', Quat.exp_zero, Quat.one_mul']
  · rw [h.MrMC]; simp only [DState.zero_vep, V3.smul_zero', V3.add_zero']
  · rw [h.pop]; simp only [DState.zero_pop, V3.smul_zero', V3.add_zero']
  · rw [h.poa]; simp only [DState.zero_poa, V3.smul_zero', Quat.exp_zero, Quat.one_mul']
  · cases hc : camIdx nCam (s.fea i).c.camID with
    | none => rw [h.unused i hc]; simp [FC.setNor]
    | some a => exact (h.fea i a hc).camID
  · cases hc : camIdx nCam (s.fea i).c.camID with
    | none => rw [h.unused i hc]; simp [FC.setNor]
    | some a =>
      have hN : ∀ q : Nor, q.N 0 = 0 := fun q => by unfold Nor.N; ext <;> simp
      have hdm : s.predDm a 0 dt 0 i = 0 := by
        unfold State.predDm bearingStep
        rw [hcv, hcr]
        simp only [DState.zero_nor, hN]
        ext <;> simp [M3.mulVec, V3.dot]
      rw [(h.fea i a hc).nor, hrot, hdm, Quat.exp_zero]
      unfold Nor.rotated
      rw [Quat.one_mul']
  · cases hc : camIdx nCam (s.fea i).c.camID with
    | none => rw [h.unused i hc]
    | some a =>
      rw [(h.fea i a hc).d, hrot]
      unfold State.predDep
      rw [hcv]
      simp [V3.dot]

/-- The frames of a pose update. -/
structure SameFrames (u v : PoseUpd nPose) : Prop where
  inertial : v.inertial = u.inertial
  body : v.body = u.body
  qVM : v.qVM = u.qVM
  MrMV : v.MrMV = u.MrMV
  qWI : v.qWI = u.qWI
  IrIW : v.IrIW = u.IrIW
  pos : v.enablePosition = u.enablePosition
  att : v.enableAttitude = u.enableAttitude

lemma preProcess_settled {u : PoseUpd nPose} (hn : ¬ (u.didAlign = false ∧ u.doAlign = true)) (meas : PoseMeas) (s : State n nCam nPose) :
    (u.preProcess meas s).2 = s ∧ SameFrames u (u.preProcess meas s).1 := by
  unfold PoseUpd.preProcess
  rw [align_not hn]
  obtain ⟨N, e⟩ := setNoise_fields u meas
  rw [e]
  exact ⟨rfl, ⟨rfl, rfl, rfl, rfl, rfl, rfl, rfl, rfl⟩⟩

lemma agrees_congr {cfg : FCfg n nCam nPose} {u v : PoseUpd nPose} {s t : State n nCam nPose} (h : SameFrames u v) (hs : SamePlatformNumbers s t) {e : Step n nCam nPose}
    (he : Agrees cfg u s e) : Agrees cfg v t e := by
  cases e with
  | pose m =>
    obtain ⟨h1, h2⟩ := he
    refine ⟨fun hp => ?_, fun hp => ?_⟩
    · rw [h1 (h.pos ▸ hp)]
      unfold PoseUpd.getIrIW PoseUpd.getqWI PoseUpd.getMrMV
      rw [h.inertial, h.body, h.qWI, h.IrIW, h.MrMV, hs.pos, hs.att]
      simp only [hs.pop, hs.poa]
    · rw [h2 (h.att ▸ hp)]
      unfold PoseUpd.getqVM PoseUpd.getqWI
      rw [h.inertial, h.body, h.qWI, h.qVM, hs.att]
      simp only [hs.poa]
  | predict m dt => simp only [Agrees, hs.vel, hs.gyb, hs.acb, hs.att]; exact he
  | velocity v => simp only [Agrees, hs.vel]; exact he
  | zeroVel tr => simp only [Agrees, hs.vel]; exact he
  | image alg => exact he
  | manage alg => exact he

/-- One step. -/
lemma step_agrees {cfg : FCfg n (nCam + 1) nPose} (hlog : cfg.log Quat.one = 0) {e : Step n (nCam + 1) nPose} {x x' : FSt n (nCam + 1) nPose} (he : e.Live x.u) (hx : x.Live)
    (hn : ¬ (x.u.didAlign = false ∧ x.u.doAlign = true)) (ha : Agrees cfg x.u x.s e) (hf : x.step cfg e = some x') :
    SamePlatformNumbers x.s x'.s ∧ SameFrames x.u x'.u ∧ (¬ IsManage e → SameLandmarks x.s x'.s) := by
  have hu := hx.ok.unit
  have frames : SameFrames x.u x.u := ⟨rfl, rfl, rfl, rfl, rfl, rfl, rfl, rfl⟩
  have fin : ∀ {m : ℕ} {gate : Gate m} {y : Fin m → ℝ} {H : Matrix (Fin m) (Ix n (nCam + 1) nPose) ℝ} {R : Matrix (Fin m) (Fin m) ℝ}, y = 0 →
      x.finish gate y H R id = some x' → SamePlatformNumbers x.s x'.s ∧ SameFrames x.u x'.u ∧ (¬ IsManage e → SameLandmarks x.s x'.s) := by
    intro m gate y H R hy h
    have h1 := FSt.finish_nothing (post := id) hu hy (a := x.s.aux) (fun _ => rfl) rfl h
    obtain ⟨h2, h3⟩ := fixed_same x.s (a := x.s.aux) rfl (fun _ => rfl) (fun _ => rfl)
    rw [h1, ImgFull.finish_u h]
    exact ⟨h2, frames, fun _ => h3⟩
  cases e with
  | predict m dt =>
    obtain ⟨s', h1, h2⟩ := evalPrediction_facts hx.ready hu cfg.pred m x.s 0 he
    have h0 : (DState.ofFn 0 : DState n (nCam + 1) nPose) = 0 := rfl
    simp only [FSt.step, FSt.predict, Option.bind_eq_bind, Option.pure_def] at hf
    obtain ⟨F, -, hf⟩ := Option.bind_eq_some_iff.mp hf
    obtain ⟨G, -, hf⟩ := Option.bind_eq_some_iff.mp hf
    rw [h0, h1, Option.bind_some, Option.some.injEq] at hf
    obtain ⟨h3, h4⟩ := predict_rest hu.att ha.1 ha.2.1 ha.2.2 h2
    rw [← hf]
    exact ⟨h3, frames, fun _ => h4⟩
  | velocity v =>
    refine fin ?_ hf
    unfold velInnov
    rw [show v = -cfg.qAM.rotate x.s.vel from ha]
    generalize cfg.qAM.rotate x.s.vel = w
    funext k
    fin_cases k <;> simp [V3.at]
  | zeroVel tr =>
    simp only [FSt.step, FSt.zeroVel] at hf
    split at hf
    · refine fin ?_ hf
      unfold zeroVelInnov
      rw [show x.s.vel = 0 from ha]
      funext k
      fin_cases k <;> simp [V3.at]
    · cases hf; exact ⟨.refl _, frames, fun _ => .refl _⟩
  | image alg =>
    simp only [FSt.step] at hf
    cases hc : alg x.s.odo x.P.odo with
    | none => simp only [hc, Option.some.injEq] at hf; subst hf; exact ⟨.refl _, frames, fun _ => .refl _⟩
    | some c =>
      simp only [hc, FSt.image, Option.bind_eq_bind] at hf
      obtain ⟨J, -, hf⟩ := Option.bind_eq_some_iff.mp hf
      exact fin (ha _ _ _ hc) hf
  | manage alg =>
    cases hf
    have h := ha x.s.odo x.P.odo
    refine ⟨⟨rfl, rfl, rfl, rfl, rfl, fun c => ?_, fun c => ?_, fun _ => rfl, fun _ => rfl⟩, frames, fun h => absurd trivial h⟩
    · simp only [State.qCM, FSt.manage, h]; rfl
    · simp only [State.MrMC, FSt.manage, h]; rfl
  | pose meas =>
    simp only [FSt.step, FSt.pose] at hf
    obtain ⟨h1, h2⟩ := preProcess_settled hn meas x.s
    rw [h1] at hf
    obtain ⟨a1, a2⟩ := agrees_congr h2 (.refl x.s) ha
    have hi : (x.u.preProcess meas x.s).1.innov meas x.s ⟨0, 0⟩ = ⟨0, Quat.one⟩ := by
      unfold PoseUpd.innov
      congr 1
      · split_ifs with hp
        · rw [a1 hp]
          generalize (x.u.preProcess meas x.s).1.getIrIW x.s + _ = w
          ext <;> simp
        · rfl
      · rw [Quat.exp_zero]
        split_ifs with hp
        · rw [Quat.one_mul', ← a2 hp]
          exact Quat.mul_inv_self he.1
        · rfl
    have hy : DPose.row ⟨((x.u.preProcess meas x.s).1.innov meas x.s ⟨0, 0⟩).pos, cfg.log ((x.u.preProcess meas x.s).1.innov meas x.s ⟨0, 0⟩).att⟩ = 0 := by
      rw [hi]
      dsimp only
      rw [hlog]
      funext k
      unfold DPose.row
      split <;> (rename_i i _; fin_cases i <;> rfl)
    have h3 := FSt.finish_nothing (x := { x with s := x.s, u := (x.u.preProcess meas x.s).1 }) (post := (x.u.preProcess meas x.s).1.postProcess meas) hu hy
      (a := ((x.u.preProcess meas x.s).1.postProcess meas x.s.fixed).aux) (fun _ => rfl) rfl hf
    obtain ⟨h4, h5⟩ := fixed_same x.s (a := ((x.u.preProcess meas x.s).1.postProcess meas x.s.fixed).aux) rfl (fun _ => rfl) (fun _ => rfl)
    rw [h3, ImgFull.finish_u hf]
    exact ⟨h4, h2, fun _ => h5⟩

/-- C110.  A filter at rest stays where it is: if the IMU measures only its biases and gravity, measured velocities and poses are the predicted ones, absence of motion is
found, and the matches in images are at the predicted places, then over any number of such inputs, in any order and whatever the covariance is, every step succeeds and the
estimate of the platform stays exactly as it is; that of the features, too, except for features that the feature management replaces. -/
theorem C110_rest (cfg : FCfg n (nCam + 1) nPose) (hc : cfg.NoiseOk) (hv : StrictPos cfg.velR) (hz : StrictPos cfg.zeroR) (hlog : cfg.log Quat.one = 0)
    (es : List (Step n (nCam + 1) nPose)) (x : FSt n (nCam + 1) nPose) (he : ∀ e ∈ es, e.Live x.u) (hx : x.Live) (hn : ¬ (x.u.didAlign = false ∧ x.u.doAlign = true))
    (ha : ∀ e ∈ es, Agrees cfg x.u x.s e) :
    ∃ x', x.run cfg es = some x' ∧ SamePlatformNumbers x.s x'.s ∧ ((∀ e ∈ es, ¬ IsManage e) → SameLandmarks x.s x'.s) := by
  have key : ∀ (es : List (Step n (nCam + 1) nPose)) (y : FSt n (nCam + 1) nPose), y.u.SameSettings x.u → SameFrames x.u y.u → SamePlatformNumbers x.s y.s →
      ¬ (y.u.didAlign = false ∧ y.u.doAlign = true) → (∀ e ∈ es, e.Live x.u) → (∀ e ∈ es, Agrees cfg x.u x.s e) → y.Live →
      ∃ x', y.run cfg es = some x' ∧ SamePlatformNumbers x.s x'.s ∧ ((∀ e ∈ es, ¬ IsManage e) → SameLandmarks y.s x'.s) := by
    intro es
    induction es with
    | nil => intro y _ _ hs _ _ _ _; exact ⟨y, rfl, hs, fun _ => .refl _⟩
    | cons e es ih =>
      intro y hs hfr hsame hn he ha hy
      have hl : e.Live y.u := by
        have := he e (by simp)
        cases e with
        | pose meas =>
          simp only [Step.Live] at this ⊢
          rwa [setNoise_congr hs.cov hs.noise hs.pos hs.att meas]
        | _ => exact this
      obtain ⟨z, h1, h2, h3⟩ := FSt.step_live hc hv hz hl hy
      obtain ⟨g1, g2, g3⟩ := step_agrees hlog hl hy hn (agrees_congr hfr hsame (ha e (by simp))) h1
      obtain ⟨x', h4, h5, h6⟩ := ih z ⟨h3.cov.trans hs.cov, h3.noise.trans hs.noise, h3.pos.trans hs.pos, h3.att.trans hs.att⟩
        ⟨g2.inertial.trans hfr.inertial, g2.body.trans hfr.body, g2.qVM.trans hfr.qVM, g2.MrMV.trans hfr.MrMV, g2.qWI.trans hfr.qWI, g2.IrIW.trans hfr.IrIW, g2.pos.trans hfr.pos,
          g2.att.trans hfr.att⟩ (hsame.trans g1) (step_settled h1 hn) (fun a h => he a (by simp [h])) (fun a h => ha a (by simp [h])) h2
      refine ⟨x', ?_, h5, fun hm => (g3 (hm e (by simp))).trans (h6 fun a h => hm a (by simp [h]))⟩
      simp only [FSt.run, List.foldlM_cons, Option.bind_eq_bind]
      rw [h1, Option.bind_some]; exact h4
  exact key es x ⟨rfl, rfl, rfl, rfl⟩ ⟨rfl, rfl, rfl, rfl, rfl, rfl, rfl, rfl⟩ (.refl _) hn he ha hx

/-! ## What a measurement has nothing to do with -/

/-- A correction leaves alone what is not correlated with what is measured. -/
lemma correct_unrelated {m : ℕ} {gate : Gate m} {y : Fin m → ℝ} {H : Matrix (Fin m) (Ix n nCam nPose) ℝ} {R : Matrix (Fin m) (Fin m) ℝ} {P : Cov n nCam nPose}
    {r : (Ix n nCam nPose → ℝ) × Cov n nCam nPose} (h : correct gate y H R P = some r) {a : Ix n nCam nPose} (ha : ∀ b k, P a b = 0 ∨ H k b = 0) :
    r.1 a = 0 ∧ ∀ b, r.2 a b = P a b ∧ r.2 b a = P b a := by
  obtain ⟨-, h1, h2⟩ := correct_some h
  have hz := gain_zero (gate := gate) (y := y) (R := R) ha
  refine ⟨?_, fun b => ⟨?_, ?_⟩⟩
  · rw [h1]; simp [mulVec, dotProduct, hz]
  · rw [h2, Matrix.sub_apply, quad_zero (.inl hz), sub_zero]
  · rw [h2, Matrix.sub_apply, quad_zero (.inr hz), sub_zero]

/-- The derivative of a bearing in a camera with respect to what it does not depend on. -/
lemma featureJac_column (s : State n nCam nPose) (sfv : V3 → Nor) (i : Fin n) (c : Fin nCam) (b : Ix n nCam nPose)
    (hb : (∀ k, b ≠ .nor i k) ∧ b ≠ .dep i ∧ (∀ d k, b ≠ .vep d k) ∧ ∀ d k, b ≠ .vea d k) {v : V2 × ℝ} (h : s.featureJac sfv true i c (DState.unit b) = some v) : v.1 = 0 := by
  obtain ⟨h1, h2, h3, h4⟩ := hb
  have e1 : (DState.unit b : DState n nCam nPose).nor i = 0 := by
    simp only [DState.unit, DState.ofFn, Pi.single_apply, (h1 _).symm, if_false]; rfl
  have e2 : (DState.unit b : DState n nCam nPose).dep i = 0 := by
    simp only [DState.unit, DState.ofFn, Pi.single_apply, h2.symm, if_false]
  have e3 : ∀ d, (DState.unit b : DState n nCam nPose).vep d = 0 := fun d => by
    simp only [DState.unit, DState.ofFn, Pi.single_apply, (h3 d _).symm, if_false]; rfl
  have e4 : ∀ d, (DState.unit b : DState n nCam nPose).vea d = 0 := fun d => by
    simp only [DState.unit, DState.ofFn, Pi.single_apply, (h4 d _).symm, if_false]; rfl
  unfold State.featureJac at h
  split at h
  · simp only [Option.bind_eq_bind, Option.pure_def] at h
    obtain ⟨a, -, h⟩ := Option.bind_eq_some_iff.mp h
    obtain ⟨⟨_, q⟩, -, h⟩ := Option.bind_eq_some_iff.mp h
    simp only [e1, e2, e3, e4, Option.some.injEq] at h
    rw [← h]
    dsimp only
    have hm : ∀ A : M3, A.mulVec 0 = 0 := fun A => by ext <;> simp [M3.mulVec, V3.dot]
    have hq : q.M 0 = 0 := by unfold Nor.M; ext <;> simp
    have hz : ∀ w : V3, (0 : ℝ) • w = 0 := fun w => by ext <;> simp
    have ht : ∀ q : Nor, q.Mt 0 = 0 := fun q => by unfold Nor.Mt; ext <;> simp [V3.dot]
    simp only [hq, hm, hz, V3.smul_zero', V3.add_zero', ite_self, ht]
  · cases h; exact e1

/-- C110.  A measurement leaves alone what it has nothing to do with: every coordinate of the estimate that is not correlated with the coordinates the measurement is about stays
as it is, and so do its variance and its correlations with everything else, whatever is measured and whatever the outlier test says. -/
theorem C110_unrelated (cfg : FCfg n (nCam + 1) nPose) (e : Step n (nCam + 1) nPose) (hu : e.isUpdate = true) (x x' : FSt n (nCam + 1) nPose) (hs : UnitState x.s)
    (hP : x.P.transpose = x.P) (hn : NotPending x.u e) (hf : x.step cfg e = some x') :
    ∃ δ : Ix n (nCam + 1) nPose → ℝ, (δ = 0 ∧ x'.s = x.s ∨ ChangedBy x.s δ x'.s) ∧
      ∀ a, (∀ b, About e b → x.P a b = 0) → δ a = 0 ∧ ∀ b, x'.P a b = x.P a b ∧ x'.P b a = x.P b a := by
  have same : x = x' → ∃ δ : Ix n (nCam + 1) nPose → ℝ, (δ = 0 ∧ x'.s = x.s ∨ ChangedBy x.s δ x'.s) ∧
      ∀ a, (∀ b, About e b → x.P a b = 0) → δ a = 0 ∧ ∀ b, x'.P a b = x.P a b ∧ x'.P b a = x.P b a := by
    rintro rfl
    exact ⟨0, .inl ⟨rfl, rfl⟩, fun a _ => ⟨rfl, fun b => ⟨rfl, rfl⟩⟩⟩
  have fin : ∀ {m : ℕ} {y : FSt n (nCam + 1) nPose} {gate : Gate m} {v : Fin m → ℝ} {H : Matrix (Fin m) (Ix n (nCam + 1) nPose) ℝ} {R : Matrix (Fin m) (Fin m) ℝ}
      {post : State n (nCam + 1) nPose → State n (nCam + 1) nPose}, y.s = x.s → y.P = x.P → (∀ s, ∃ a : Aux (nCam + 1), (∀ c, a.qCM c = s.aux.qCM c) ∧ post s = { s with aux := a }) →
      y.finish gate v H R post = some x' → (∀ k b, ¬ About e b → H k b = 0) →
      ∃ δ : Ix n (nCam + 1) nPose → ℝ, (δ = 0 ∧ x'.s = x.s ∨ ChangedBy x.s δ x'.s) ∧
        ∀ a, (∀ b, About e b → x.P a b = 0) → δ a = 0 ∧ ∀ b, x'.P a b = x.P a b ∧ x'.P b a = x.P b a := by
    intro m y gate v H R post e1 e2 hpost h hH
    unfold FSt.finish at h
    cases hc : correct gate v H R y.P with
    | none => simp [hc] at h
    | some r =>
      simp only [hc, Option.bind_eq_bind, Option.bind_some, Option.pure_def] at h
      obtain ⟨s, hs', h⟩ := Option.bind_eq_some_iff.mp h
      cases h
      rw [e1] at hs'
      rw [e2] at hc
      obtain ⟨a, ha, hp⟩ := hpost (x.s.boxPlus (DState.ofFn r.1))
      rw [hp] at hs'
      have hb := boxPlus_unit hs (DState.ofFn r.1)
      refine ⟨r.1, .inr (changed_of_fix (a := a) ⟨hb.att, hb.vea, fun c => ?_, hb.poa, hb.nor⟩ hs'), fun b hb => ?_⟩
      · show (a.qCM c).IsUnit
        rw [ha]; exact hb.aux c
      · obtain ⟨h1, h2⟩ := correct_unrelated hc (a := b) fun c k => by
          by_cases hA : About e c
          · exact .inl (hb c hA)
          · exact .inr (hH k c hA)
        have hsym : ∀ c, x.P c b = x.P b c := fun c => congrFun (congrFun hP b) c
        refine ⟨h1, fun c => ?_⟩
        simp only [symm, Matrix.smul_apply, Matrix.add_apply, transpose_apply, (h2 c).1, (h2 c).2, hsym, smul_eq_mul]
        constructor <;> ring
  have pid : ∀ s : State n (nCam + 1) nPose, ∃ a : Aux (nCam + 1), (∀ c, a.qCM c = s.aux.qCM c) ∧ id s = { s with aux := a } := fun s => ⟨s.aux, fun _ => rfl, rfl⟩
  cases e with
  | predict m dt => cases hu
  | manage alg => cases hu
  | velocity meas =>
    refine fin rfl rfl pid hf fun k b hb => ?_
    have : (DState.unit b : DState n (nCam + 1) nPose).vel = 0 := by
      cases b <;> first | exact absurd trivial hb | rfl
    simp only [velJac, this, of_apply]
    fin_cases k <;> simp [M3.mulVec, V3.dot, V3.at]
  | zeroVel tr =>
    simp only [FSt.step, FSt.zeroVel] at hf
    split at hf
    · refine fin rfl rfl pid hf fun k b hb => ?_
      have : (DState.unit b : DState n (nCam + 1) nPose).vel = 0 := by
        cases b <;> first | exact absurd trivial hb | rfl
      simp only [zeroVelJac, this, of_apply]
      fin_cases k <;> simp [M3.mulVec, V3.dot, V3.at]
    · exact same (Option.some.inj hf)
  | image alg =>
    simp only [FSt.step] at hf
    cases ha : alg x.s.odo x.P.odo with
    | none => simp only [ha, Option.some.injEq] at hf; exact same hf
    | some c =>
      simp only [ha, FSt.image, Option.bind_eq_bind] at hf
      obtain ⟨J, hJ, hf⟩ := Option.bind_eq_some_iff.mp hf
      refine fin rfl rfl pid hf fun k b hb => ?_
      have h1 := colMat_some hJ b
      rw [mul_apply]
      refine Finset.sum_eq_zero fun l _ => ?_
      obtain ⟨v, hv, h2⟩ := Option.map_eq_some_iff.mp h1
      rw [← congrFun h2 l, featureJac_column _ _ _ _ b ⟨?_, ?_, ?_, ?_⟩ hv]
      · fin_cases l <;> simp [V2.at]
      · rintro k rfl; exact hb ⟨_, _, c, ha, rfl⟩
      · rintro rfl; exact hb ⟨_, _, c, ha, rfl⟩
      · rintro d k rfl; exact hb trivial
      · rintro d k rfl; exact hb trivial
  | pose meas =>
    simp only [FSt.step, FSt.pose] at hf
    obtain ⟨h1, -⟩ := preProcess_settled hn meas x.s
    refine fin (y := { x with s := (x.u.preProcess meas x.s).2, u := (x.u.preProcess meas x.s).1 }) (post := (x.u.preProcess meas x.s).1.postProcess meas) h1 rfl
      (fun s => ⟨((x.u.preProcess meas x.s).1.postProcess meas s).aux, fun _ => rfl, rfl⟩) hf fun k b hb => ?_
    have hz : (x.u.preProcess meas x.s).1.jacState (x.u.preProcess meas x.s).2 (DState.unit b) = ⟨0, 0⟩ := by
      have p1 : (DState.unit b : DState n (nCam + 1) nPose).pos = 0 := by cases b <;> first | exact absurd trivial hb | rfl
      have p2 : (DState.unit b : DState n (nCam + 1) nPose).att = 0 := by cases b <;> first | exact absurd trivial hb | rfl
      have p3 : (DState.unit b : DState n (nCam + 1) nPose).pop = fun _ => 0 := by cases b <;> first | exact absurd trivial hb | rfl
      have p4 : (DState.unit b : DState n (nCam + 1) nPose).poa = fun _ => 0 := by cases b <;> first | exact absurd trivial hb | rfl
      have hm : ∀ A : M3, A.mulVec 0 = 0 := fun A => by ext <;> simp [M3.mulVec, V3.dot]
      have ht : ∀ i j A B, PoseUpd.twoBlocks i j A B (fun _ : Fin nPose => (0 : V3)) = 0 := fun i j A B => by
        unfold PoseUpd.twoBlocks
        cases i <;> cases j <;> simp [hm, V3.add_zero']
      have ho : ∀ i A, PoseUpd.oneBlock i A (fun _ : Fin nPose => (0 : V3)) = 0 := fun i A => by
        unfold PoseUpd.oneBlock; cases i <;> simp [hm]
      unfold PoseUpd.jacState
      simp only [p1, p2, p3, p4, hm, ht, ho, V3.add_zero', ite_self]
    rw [of_apply, hz]
    unfold DPose.row
    split <;> (rename_i i _; fin_cases i <;> rfl)

/-! ## Non-vacuity -/

/-- A filter at rest, aligned with the external poses, unit covariance. -/
noncomputable def stillFilter : FSt 1 2 1 := ⟨{ demoFilter.s with vel := 0 }, 1, alignedFilter.u⟩

lemma stillFilter_live : stillFilter.Live := by
  have h := demoFilter_ok
  exact ⟨⟨⟨h.unit.att, h.unit.vea, h.unit.aux, h.unit.poa, h.unit.nor⟩, h.nor, h.proj⟩, ⟨(demoState_ready true 0).nor, (demoState_ready true 0).warp⟩, isCov_one, Quat.isUnit_one⟩

/-- The pose that the estimate of `stillFilter` predicts. -/
noncomputable def stillPose : PoseMeas :=
  ⟨stillFilter.u.getIrIW stillFilter.s + (stillFilter.u.getqWI stillFilter.s).inv.rotate (stillFilter.s.pos + stillFilter.s.att.rotate (stillFilter.u.getMrMV stillFilter.s)),
    stillFilter.u.getqVM stillFilter.s * stillFilter.s.att.inv * stillFilter.u.getqWI stillFilter.s, 1⟩

/-- Every kind of input, in agreement with the estimate. -/
noncomputable def stillSteps : List (Step 1 2 1) :=
  [.predict ⟨stillFilter.s.acb + stillFilter.s.att.inv.rotate ⟨0, 0, 9.81⟩, stillFilter.s.gyb⟩ 0.01, .pose stillPose, .velocity 0,
   .image fun _ _ => some { m := 2, i := 0, b := 1, lin := (demoState true 0).odo, A := 1, y := 0, R := 1, gate := fun _ _ _ => false }, .zeroVel fun _ => true]

lemma stillSteps_ok : ∀ e ∈ stillSteps, e.Live stillFilter.u ∧ Agrees demoFCfg stillFilter.u stillFilter.s e ∧ ¬ IsManage e := by
  have hatt : stillFilter.s.att.IsUnit := stillFilter_live.ok.unit.att
  intro e he
  simp only [stillSteps, List.mem_cons, List.not_mem_nil, or_false] at he
  rcases he with rfl | rfl | rfl | rfl | rfl
  · refine ⟨by norm_num [Step.Live], ⟨rfl, rfl, ?_⟩, fun h => h⟩
    have e1 : ∀ a b : V3, a + b - a = b := fun a b => by ext <;> simp
    rw [e1, Quat.rotate_rotate_inv hatt]
  · refine ⟨⟨?_, isCov_one, strictPos_one⟩, ⟨fun _ => rfl, fun _ => rfl⟩, fun h => h⟩
    exact (((Quat.isUnit_one : Quat.one.IsUnit).mul hatt.inv).mul (stillFilter_live.ok.unit.poa 0))
  · refine ⟨trivial, ?_, fun h => h⟩
    show (0 : V3) = -demoFCfg.qAM.rotate 0
    ext <;> simp [Quat.rotate]
  · refine ⟨fun o P c h => ?_, fun o P c h => ?_, fun h => h⟩ <;> (simp only [Option.some.injEq] at h; subst h)
    · exact ⟨isCov_one, strictPos_one, rfl, 0, rfl⟩
    · rfl
  · exact ⟨trivial, rfl, fun h => h⟩

/-- Non-vacuity of `C110_rest`: a thousand rounds of inputs of every kind; the feature management may act in between. -/
example : ∃ x', stillFilter.run demoFCfg (List.replicate 1000 stillSteps).flatten = some x' ∧ x'.s.pos = stillFilter.s.pos ∧ x'.s.att = stillFilter.s.att ∧
    (x'.s.fea 0).c.nor = (stillFilter.s.fea 0).c.nor := by
  have hm : ∀ e ∈ (List.replicate 1000 stillSteps).flatten, e ∈ stillSteps := fun e he => by
    obtain ⟨l, h1, h2⟩ := List.mem_flatten.mp he
    rwa [(List.mem_replicate.mp h1).2] at h2
  obtain ⟨x', h1, h2, h3⟩ := C110_rest demoFCfg ⟨fun _ => zero_le_one, isCov_one, isCov_one⟩ strictPos_one strictPos_one rfl _ stillFilter
    (fun e he => (stillSteps_ok e (hm e he)).1) stillFilter_live (by simp [stillFilter, alignedFilter]) (fun e he => (stillSteps_ok e (hm e he)).2.1)
  exact ⟨x', h1, h2.pos, h2.att, (h3 fun e he => (stillSteps_ok e (hm e he)).2.2).nor 0⟩

/-- Non-vacuity of `C110_unrelated`: with unit covariance a velocity does not move the position. -/
example : ∃ x', alignedFilter.step gatedFCfg (.velocity ⟨1, 0, 0⟩) = some x' ∧ x'.s.pos = alignedFilter.s.pos ∧ x'.P (.pos 0) (.pos 0) = 1 ∧ x'.P (.pos 0) (.vel 0) = 0 := by
  obtain ⟨x', hx, -⟩ := FSt.step_live gatedFCfg_ok (cfg := gatedFCfg) strictPos_one strictPos_one (e := .velocity ⟨1, 0, 0⟩) trivial alignedFilter_live
  obtain ⟨δ, h1, h2⟩ := C110_unrelated gatedFCfg (.velocity ⟨1, 0, 0⟩) rfl alignedFilter x' demoFilter_ok.unit Matrix.transpose_one trivial hx
  have h3 : ∀ k, δ (.pos k) = 0 ∧ ∀ b, x'.P (.pos k) b = alignedFilter.P (.pos k) b ∧ x'.P b (.pos k) = alignedFilter.P b (.pos k) := fun k =>
    h2 _ fun b hb => Matrix.one_apply_ne (by cases b <;> first | exact hb.elim | simp)
  refine ⟨x', hx, ?_, ((h3 0).2 (.pos 0)).1.trans (Matrix.one_apply_eq _), ((h3 0).2 (.vel 0)).1.trans (Matrix.one_apply_ne (by simp))⟩
  rcases h1 with h1 | h1
  · rw [h1.2]
  · rw [h1.pos]
    ext <;> simp [three, (h3 _).1]

end Rovio
