import Verif.Lemmas.Influence
import Verif.Props.FilterLive
import Verif.Props.PixelCov

/-! # C109: a measurement moves the estimate no further than its outlier test and the uncertainty allow -/

namespace Rovio

open Matrix Spec State

variable {n nCam nPose : ℕ}

lemma align_not {u : PoseUpd nPose} (h : ¬ (u.didAlign = false ∧ u.doAlign = true)) (meas : PoseMeas) (s : State n nCam nPose) : u.align meas s = (u, s) := by
  unfold PoseUpd.align; rw [if_neg h]

/-- Normalisation of a corrected estimate of unit rotations. -/
lemma changed_of_fix {s s' : State n nCam nPose} {δ : Ix n nCam nPose → ℝ} {a : Aux nCam} (ha : UnitState { s.boxPlus (DState.ofFn δ) with aux := a })
    (h : ({ s.boxPlus (DState.ofFn δ) with aux := a } : State n nCam nPose).fix = some s') : ChangedBy s δ s' := by
  rw [fix_eq ha (boxPlus_nor (s := s) (DState.ofFn δ))] at h
  cases h
  refine ⟨rfl, rfl, rfl, rfl, rfl, fun _ => rfl, fun _ => rfl, fun i => ?_, fun _ => rfl, fun _ => rfl, fun _ => rfl⟩
  simp [fixed, Fea.fixed, FC.setNor, State.boxPlus, Fea.boxPlus, DState.ofFn]

/-- What an update step is. -/
lemma update_size (cfg : FCfg n (nCam + 1) nPose) (hc : cfg.NoiseOk) (e : Step n (nCam + 1) nPose) (hu : e.isUpdate = true) (x x' : FSt n (nCam + 1) nPose)
    (he : e.NoiseOk x.u) (hx : IsCov x.P) (hn : NotPending x.u e) (hf : x.step cfg e = some x') :
    ∃ (δ : Ix n (nCam + 1) nPose → ℝ) (B : ℝ), (∀ a, value x'.s a = (value x.s a).map (· + δ a)) ∧ (UnitState x.s → δ = 0 ∧ x'.s = x.s ∨ ChangedBy x.s δ x'.s) ∧
      (∀ th, 0 ≤ th → TestedWith cfg th e → ∀ w : Ix n (nCam + 1) nPose → ℝ, (w ⬝ᵥ δ) ^ 2 ≤ th * (w ⬝ᵥ x.P.mulVec w - w ⬝ᵥ x'.P.mulVec w)) ∧
      ∀ w : Ix n (nCam + 1) nPose → ℝ, (w ⬝ᵥ δ) ^ 2 ≤ B * (w ⬝ᵥ x.P.mulVec w - w ⬝ᵥ x'.P.mulVec w) := by
  have same : x = x' → ∃ (δ : Ix n (nCam + 1) nPose → ℝ) (B : ℝ), (∀ a, value x'.s a = (value x.s a).map (· + δ a)) ∧ (UnitState x.s → δ = 0 ∧ x'.s = x.s ∨ ChangedBy x.s δ x'.s) ∧
      (∀ th, 0 ≤ th → TestedWith cfg th e → ∀ w : Ix n (nCam + 1) nPose → ℝ, (w ⬝ᵥ δ) ^ 2 ≤ th * (w ⬝ᵥ x.P.mulVec w - w ⬝ᵥ x'.P.mulVec w)) ∧
      ∀ w : Ix n (nCam + 1) nPose → ℝ, (w ⬝ᵥ δ) ^ 2 ≤ B * (w ⬝ᵥ x.P.mulVec w - w ⬝ᵥ x'.P.mulVec w) := by
    rintro rfl
    exact ⟨0, 0, fun a => by cases value x.s a <;> simp, fun _ => .inl ⟨rfl, rfl⟩, fun th _ _ w => by simp, fun w => by simp⟩
  have fin : ∀ {m : ℕ} {gate : Gate m} {v : Fin m → ℝ} {H : Matrix (Fin m) (Ix n (nCam + 1) nPose) ℝ} {R : Matrix (Fin m) (Fin m) ℝ}, IsCov R →
      x.finish gate v H R id = some x' → (∀ th, TestedWith cfg th e → gate = mahalanobis th) →
      ∃ (δ : Ix n (nCam + 1) nPose → ℝ) (B : ℝ), (∀ a, value x'.s a = (value x.s a).map (· + δ a)) ∧ (UnitState x.s → δ = 0 ∧ x'.s = x.s ∨ ChangedBy x.s δ x'.s) ∧
      (∀ th, 0 ≤ th → TestedWith cfg th e → ∀ w : Ix n (nCam + 1) nPose → ℝ, (w ⬝ᵥ δ) ^ 2 ≤ th * (w ⬝ᵥ x.P.mulVec w - w ⬝ᵥ x'.P.mulVec w)) ∧
      ∀ w : Ix n (nCam + 1) nPose → ℝ, (w ⬝ᵥ δ) ^ 2 ≤ B * (w ⬝ᵥ x.P.mulVec w - w ⬝ᵥ x'.P.mulVec w) := by
    intro m gate v H R hR h hg
    obtain ⟨δ, B, h1, h2, h3, h4⟩ := FSt.finish_size (fun _ _ => rfl) hx hR h
    exact ⟨δ, B, h1, fun hu => .inr (changed_of_fix (a := x.s.aux) (boxPlus_unit hu _) h2), fun th h0 ht => h3 th h0 (hg th ht), h4⟩
  cases e with
  | predict m dt => cases hu
  | manage alg => cases hu
  | velocity meas => exact fin hc.velR hf fun th h => h
  | zeroVel tr =>
    simp only [FSt.step, FSt.zeroVel] at hf
    split at hf
    · exact fin hc.zeroR hf fun th h => h
    · exact same (Option.some.inj hf)
  | image alg =>
    simp only [FSt.step] at hf
    cases ha : alg x.s.odo x.P.odo with
    | none => simp only [ha, Option.some.injEq] at hf; exact same hf
    | some c =>
      simp only [ha, FSt.image, Option.bind_eq_bind] at hf
      obtain ⟨J, -, hf⟩ := Option.bind_eq_some_iff.mp hf
      exact fin (he _ _ _ ha) hf fun th h => h _ _ _ ha
  | pose meas =>
    simp only [FSt.step, FSt.pose] at hf
    obtain ⟨-, hn'⟩ := x.u.preProcess_settings meas x.s
    have hs : (x.u.preProcess meas x.s).2 = x.s := by unfold PoseUpd.preProcess; rw [align_not hn]
    obtain ⟨δ, B, h1, h2, h3, h4⟩ := FSt.finish_size (x := { x with s := (x.u.preProcess meas x.s).2, u := (x.u.preProcess meas x.s).1 })
      (fun s a => by cases a <;> rfl) hx (by rw [hn']; exact Spec.IsCov.submatrix he poseRow) hf
    simp only [hs] at h1 h2
    refine ⟨δ, B, h1, fun hu => .inr ?_, fun th h0 ht => h3 th h0 ht, h4⟩
    have hb := boxPlus_unit hu (DState.ofFn δ)
    exact changed_of_fix (a := ((x.u.preProcess meas x.s).1.postProcess meas (x.s.boxPlus (DState.ofFn δ))).aux) ⟨hb.att, hb.vea, hb.aux, hb.poa, hb.nor⟩ h2

/-- C109.  A velocity, an absence of motion, a match in an image or an external pose changes the estimate by an error vector that is bounded in every direction: its square is
at most the threshold of the outlier test times the variance that is lost in this direction, so at most the threshold times the variance. -/
theorem C109_measurement (cfg : FCfg n (nCam + 1) nPose) (hc : cfg.NoiseOk) (th : ℝ) (hth : 0 ≤ th) (e : Step n (nCam + 1) nPose) (ht : TestedWith cfg th e)
    (x x' : FSt n (nCam + 1) nPose) (hs : UnitState x.s) (he : e.NoiseOk x.u) (hx : IsCov x.P) (hn : NotPending x.u e) (hf : x.step cfg e = some x') :
    ∃ δ : Ix n (nCam + 1) nPose → ℝ, (δ = 0 ∧ x'.s = x.s ∨ ChangedBy x.s δ x'.s) ∧
      ∀ w : Ix n (nCam + 1) nPose → ℝ, (w ⬝ᵥ δ) ^ 2 ≤ th * (w ⬝ᵥ x.P.mulVec w - w ⬝ᵥ x'.P.mulVec w) ∧ (w ⬝ᵥ δ) ^ 2 ≤ th * (w ⬝ᵥ x.P.mulVec w) := by
  have hu : e.isUpdate = true := by cases e <;> first | rfl | exact ht.elim
  obtain ⟨δ, B, -, h2, h3, -⟩ := update_size cfg hc e hu x x' he hx hn hf
  refine ⟨δ, h2 hs, fun w => ⟨h3 th hth ht w, (h3 th hth ht w).trans ?_⟩⟩
  have := (FSt.step_cov hc he hx hf).1.nonneg w
  exact mul_le_mul_of_nonneg_left (by linarith) hth

/-- A settled alignment stays settled. -/
lemma step_settled {cfg : FCfg n (nCam + 1) nPose} {e : Step n (nCam + 1) nPose} {x x' : FSt n (nCam + 1) nPose} (hf : x.step cfg e = some x')
    (hn : ¬ (x.u.didAlign = false ∧ x.u.doAlign = true)) : ¬ (x'.u.didAlign = false ∧ x'.u.doAlign = true) := by
  have fin : ∀ {m : ℕ} {y : FSt n (nCam + 1) nPose} {gate : Gate m} {v H R post}, y.finish gate v H R post = some x' → x'.u = y.u := fun h => ImgFull.finish_u h
  cases e with
  | predict m dt =>
    simp only [FSt.step, FSt.predict, Option.bind_eq_bind, Option.pure_def] at hf
    obtain ⟨_, -, hf⟩ := Option.bind_eq_some_iff.mp hf
    obtain ⟨_, -, hf⟩ := Option.bind_eq_some_iff.mp hf
    obtain ⟨_, -, hf⟩ := Option.bind_eq_some_iff.mp hf
    cases hf; exact hn
  | velocity meas => rw [fin hf]; exact hn
  | zeroVel tr =>
    simp only [FSt.step, FSt.zeroVel] at hf
    split at hf
    · rw [fin hf]; exact hn
    · cases hf; exact hn
  | image alg =>
    simp only [FSt.step] at hf
    cases ha : alg x.s.odo x.P.odo with
    | none => simp only [ha, Option.some.injEq] at hf; subst hf; exact hn
    | some c =>
      simp only [ha, FSt.image, Option.bind_eq_bind] at hf
      obtain ⟨J, -, hf⟩ := Option.bind_eq_some_iff.mp hf
      rw [fin hf]; exact hn
  | manage alg => cases hf; exact hn
  | pose meas =>
    simp only [FSt.step, FSt.pose] at hf
    rw [fin hf]
    show ¬ ((x.u.preProcess meas x.s).1.didAlign = false ∧ (x.u.preProcess meas x.s).1.doAlign = true)
    unfold PoseUpd.preProcess
    rw [align_not hn]
    obtain ⟨N, e⟩ := setNoise_fields x.u meas
    rw [e]; exact hn

/-- The noise of a step with the settings of another pose update. -/
lemma noiseOk_congr {u v : PoseUpd nPose} (h : u.SameSettings v) {e : Step n nCam nPose} (he : e.NoiseOk v) : e.NoiseOk u := by
  cases e with
  | pose meas => simp only [Step.NoiseOk] at he ⊢; rwa [setNoise_congr h.cov h.noise h.pos h.att meas]
  | _ => exact he

/-- C109.  Any number of measurements between two predictions: each number of the platform's estimate moves by no more than the sum of the thresholds times its variance (that
is: by no more than the root of this times its standard deviation); more precisely the sum of the thresholds times the variance that is lost. -/
theorem C109_measurements (cfg : FCfg n (nCam + 1) nPose) (hc : cfg.NoiseOk) (th : Step n (nCam + 1) nPose → ℝ) (es : List (Step n (nCam + 1) nPose))
    (hth : ∀ e ∈ es, 0 ≤ th e ∧ TestedWith cfg (th e) e) (x x' : FSt n (nCam + 1) nPose) (he : ∀ e ∈ es, e.NoiseOk x.u) (hx : IsCov x.P)
    (hn : ¬ (x.u.didAlign = false ∧ x.u.doAlign = true)) (hf : x.run cfg es = some x') (a : Ix n (nCam + 1) nPose) (v : ℝ) (hv : value x.s a = some v) :
    ∃ v', value x'.s a = some v' ∧ (v' - v) ^ 2 ≤ (es.map th).sum * (x.P a a - x'.P a a) ∧ (v' - v) ^ 2 ≤ (es.map th).sum * x.P a a := by
  have key : ∀ (es : List (Step n (nCam + 1) nPose)) (y : FSt n (nCam + 1) nPose), y.u.SameSettings x.u → ¬ (y.u.didAlign = false ∧ y.u.doAlign = true) →
      (∀ e ∈ es, 0 ≤ th e ∧ TestedWith cfg (th e) e) → (∀ e ∈ es, e.NoiseOk x.u) → IsCov y.P →
      y.run cfg es = some x' → 0 ≤ (es.map th).sum ∧ IsCov x'.P ∧ Within (es.map th).sum y.s y.P x'.s x'.P := by
    intro es
    induction es with
    | nil => intro y _ _ _ _ hy h; simp only [FSt.run, List.foldlM_nil, Option.pure_def, Option.some.injEq] at h; subst h; exact ⟨le_rfl, hy, .refl⟩
    | cons e es ih =>
      intro y hs hn ht he hy h
      simp only [FSt.run, List.foldlM_cons, Option.bind_eq_bind] at h
      obtain ⟨z, hz, h⟩ := Option.bind_eq_some_iff.mp h
      obtain ⟨t0, t1⟩ := ht e (by simp)
      have hok : e.NoiseOk y.u := noiseOk_congr hs (he e (by simp))
      have hu : e.isUpdate = true := by cases e <;> first | rfl | exact t1.elim
      obtain ⟨h1, h2, h3⟩ := FSt.step_cov hc hok hy hz
      obtain ⟨δ, B, g1, -, g3, -⟩ := update_size cfg hc e hu y z hok hy (by cases e <;> first | exact hn | trivial) hz
      obtain ⟨k0, k1, k2⟩ := ih z ⟨h3.cov.trans hs.cov, h3.noise.trans hs.noise, h3.pos.trans hs.pos, h3.att.trans hs.att⟩ (step_settled hz hn)
        (fun a ha => ht a (by simp [ha])) (fun a ha => he a (by simp [ha])) h1 h
      rw [List.map_cons, List.sum_cons]
      exact ⟨add_nonneg t0 k0, k1, (Within.of_size (h2 hu) g1 (g3 _ t0 t1)).trans t0 k0 k2⟩
  obtain ⟨k0, k1, k2⟩ := key es x ⟨rfl, rfl, rfl, rfl⟩ hn hth he hx hf
  obtain ⟨v', h1, -, h3⟩ := k2 a v hv
  refine ⟨v', h1, h3, h3.trans (mul_le_mul_of_nonneg_left ?_ k0)⟩
  have := k1.nonneg (Pi.single a 1)
  rw [single_quad] at this
  linarith

/-- C109.  What is known exactly stays: whatever the outlier tests are, measurements do not change a number of the platform's estimate whose variance is zero. -/
theorem C109_known (cfg : FCfg n (nCam + 1) nPose) (hc : cfg.NoiseOk) (es : List (Step n (nCam + 1) nPose)) (hu : ∀ e ∈ es, e.isUpdate = true) (x x' : FSt n (nCam + 1) nPose)
    (he : ∀ e ∈ es, e.NoiseOk x.u) (hx : IsCov x.P) (hn : ¬ (x.u.didAlign = false ∧ x.u.doAlign = true)) (hf : x.run cfg es = some x') (a : Ix n (nCam + 1) nPose) (v : ℝ)
    (hv : value x.s a = some v) (h0 : x.P a a = 0) : value x'.s a = some v ∧ x'.P a a = 0 := by
  have key : ∀ (es : List (Step n (nCam + 1) nPose)) (y : FSt n (nCam + 1) nPose), y.u.SameSettings x.u → ¬ (y.u.didAlign = false ∧ y.u.doAlign = true) →
      (∀ e ∈ es, e.isUpdate = true) → (∀ e ∈ es, e.NoiseOk x.u) → IsCov y.P → value y.s a = some v → y.P a a = 0 →
      y.run cfg es = some x' → value x'.s a = some v ∧ x'.P a a = 0 := by
    intro es
    induction es with
    | nil => intro y _ _ _ _ hy hv h0 h; simp only [FSt.run, List.foldlM_nil, Option.pure_def, Option.some.injEq] at h; subst h; exact ⟨hv, h0⟩
    | cons e es ih =>
      intro y hs hn hu he hy hv h0 h
      simp only [FSt.run, List.foldlM_cons, Option.bind_eq_bind] at h
      obtain ⟨z, hz, h⟩ := Option.bind_eq_some_iff.mp h
      have hok : e.NoiseOk y.u := noiseOk_congr hs (he e (by simp))
      obtain ⟨h1, h2, h3⟩ := FSt.step_cov hc hok hy hz
      obtain ⟨δ, B, g1, -, -, g4⟩ := update_size cfg hc e (hu e (by simp)) y z hok hy (by cases e <;> first | exact hn | trivial) hz
      have p1 := h1.nonneg (Pi.single a 1)
      obtain ⟨v', w1, w2, w3⟩ := Within.of_size (h2 (hu e (by simp))) g1 g4 a v hv
      rw [single_quad] at p1
      have hz0 : z.P a a = 0 := le_antisymm (by linarith) p1
      rw [h0, hz0, sub_zero, mul_zero] at w3
      have : v' = v := by nlinarith
      exact ih z ⟨h3.cov.trans hs.cov, h3.noise.trans hs.noise, h3.pos.trans hs.pos, h3.att.trans hs.att⟩ (step_settled hz hn)
        (fun a ha => hu a (by simp [ha])) (fun a ha => he a (by simp [ha])) h1 (this ▸ w1) hz0 h
  exact key es x ⟨rfl, rfl, rfl, rfl⟩ hn hu he hx hv h0 hf

/-! ## Non-vacuity -/

/-- The settings with outlier tests of thresholds 5 and 12. -/
noncomputable def gatedFCfg : FCfg 1 2 1 := { demoFCfg with gateV := mahalanobis 5, gateZ := mahalanobis 5, gateP := mahalanobis 12 }

lemma gatedFCfg_ok : gatedFCfg.NoiseOk := ⟨fun _ => zero_le_one, isCov_one, isCov_one⟩

/-- A filter that is aligned with the external poses. -/
noncomputable def alignedFilter : FSt 1 2 1 := { demoFilter with u := { demoFilter.u with didAlign := true } }

lemma alignedFilter_live : alignedFilter.Live := ⟨demoFilter_ok, demoState_ready _ _, isCov_one, Quat.isUnit_one⟩

/-- An external pose, a velocity, a match and an absence of motion. -/
noncomputable def gatedSteps : List (Step 1 2 1) :=
  [.pose demoMeas, .velocity ⟨1, 0, 0⟩,
   .image fun _ _ => some { m := 2, i := 0, b := 1, lin := (demoState true 0).odo, A := 1, y := fun _ => 1, R := 1, gate := mahalanobis 5 }, .zeroVel fun _ => true]

/-- The thresholds of these measurements. -/
def gatedTh : Step 1 2 1 → ℝ
  | .pose _ => 12
  | _ => 5

lemma gatedSteps_live : ∀ e ∈ gatedSteps, e.Live alignedFilter.u ∧ e.NoiseOk alignedFilter.u ∧ e.isUpdate = true ∧ 0 ≤ gatedTh e ∧ TestedWith gatedFCfg (gatedTh e) e := by
  intro e he
  simp only [gatedSteps, List.mem_cons, List.not_mem_nil, or_false] at he
  rcases he with rfl | rfl | rfl | rfl
  · exact ⟨⟨by norm_num [demoMeas, Quat.IsUnit, Quat.normSq], isCov_one, strictPos_one⟩, (isCov_one : IsCov (1 : Matrix PoseIx PoseIx ℝ)), rfl, by norm_num [gatedTh], rfl⟩
  · exact ⟨trivial, trivial, rfl, by norm_num [gatedTh], rfl⟩
  · refine ⟨fun o P c h => ?_, fun o P c h => ?_, rfl, by norm_num [gatedTh], fun o P c h => ?_⟩ <;> (simp only [Option.some.injEq] at h; subst h)
    · exact ⟨isCov_one, strictPos_one, rfl, 0, rfl⟩
    · exact isCov_one
    · rfl
  · exact ⟨trivial, trivial, rfl, by norm_num [gatedTh], rfl⟩

/-- Non-vacuity of `C109_measurement`: an external pose half a turn away. -/
example : ∃ x', alignedFilter.step gatedFCfg (.pose demoMeas) = some x' ∧ ∃ δ : Ix 1 2 1 → ℝ, (δ = 0 ∧ x'.s = alignedFilter.s ∨ ChangedBy alignedFilter.s δ x'.s) ∧
    δ (.att 0) ^ 2 ≤ 12 := by
  obtain ⟨x', hx⟩ := (C77_updates_succeed gatedFCfg alignedFilter isCov_one demoFilter_ok).2.2 demoMeas (by norm_num [demoMeas, Quat.IsUnit, Quat.normSq]) Quat.isUnit_one
    strictPos_one
  obtain ⟨δ, h1, h2⟩ := C109_measurement gatedFCfg gatedFCfg_ok 12 (by norm_num) (.pose demoMeas) rfl alignedFilter x' demoFilter_ok.unit (show IsCov _ from isCov_one) isCov_one
    (by simp [NotPending, alignedFilter]) hx
  refine ⟨x', hx, δ, h1, ?_⟩
  have := (h2 (Pi.single (.att 0) 1)).2
  rw [single_one_dotProduct, single_quad] at this
  rwa [show alignedFilter.P (.att 0) (.att 0) = 1 from one_apply_eq _, mul_one] at this

/-- Non-vacuity of `C109_measurements`: four measurements of all kinds with unit covariance move the velocity by no more than the root of 27. -/
example : ∃ x', alignedFilter.run gatedFCfg gatedSteps = some x' ∧ ∃ v', value x'.s (.vel 0) = some v' ∧ (v' - alignedFilter.s.vel.x) ^ 2 ≤ 27 := by
  obtain ⟨x', hx, -⟩ := C78_run_succeeds gatedFCfg gatedFCfg_ok strictPos_one strictPos_one _ _ (fun e he => (gatedSteps_live e he).1) alignedFilter_live
  obtain ⟨v', h1, -, h3⟩ := C109_measurements gatedFCfg gatedFCfg_ok gatedTh gatedSteps (fun e he => (gatedSteps_live e he).2.2.2) alignedFilter x'
    (fun e he => (gatedSteps_live e he).2.1) isCov_one (by simp [alignedFilter]) hx (.vel 0) alignedFilter.s.vel.x rfl
  refine ⟨x', hx, v', h1, h3.trans ?_⟩
  rw [show alignedFilter.P (.vel 0) (.vel 0) = 1 from one_apply_eq _]
  norm_num [gatedSteps, gatedTh]

/-- A filter that knows one coordinate of the additional pose exactly. -/
noncomputable def knowingFilter : FSt 1 2 1 := ⟨alignedFilter.s, diagonal fun a => if a = .pop 0 1 then 0 else 1, alignedFilter.u⟩

lemma knowingFilter_cov : IsCov knowingFilter.P := .diagonal fun a => by split_ifs <;> norm_num

/-- Non-vacuity of `C109_known`. -/
example : ∃ x', knowingFilter.run gatedFCfg gatedSteps = some x' ∧ value x'.s (.pop 0 1) = value knowingFilter.s (.pop 0 1) := by
  obtain ⟨x', hx, -⟩ := C78_run_succeeds gatedFCfg gatedFCfg_ok strictPos_one strictPos_one gatedSteps knowingFilter (fun e he => (gatedSteps_live e he).1)
    ⟨demoFilter_ok, demoState_ready _ _, knowingFilter_cov, Quat.isUnit_one⟩
  exact ⟨x', hx, (C109_known gatedFCfg gatedFCfg_ok gatedSteps (fun e he => (gatedSteps_live e he).2.2.1) knowingFilter x' (fun e he => (gatedSteps_live e he).2.1) knowingFilter_cov
    (by simp [knowingFilter, alignedFilter]) hx (.pop 0 1) _ rfl (by simp [knowingFilter])).1⟩

/-- A filter at rest. -/
noncomputable def restFilter : FSt 1 2 1 := ⟨{ demoFilter.s with vel := 0 }, 1, demoFilter.u⟩

/-- The bound cannot be improved: a filter at rest with unit covariance that measures the velocity (-2, 0, 0) with unit noise and threshold 2 moves by the root of the threshold
times the variance lost. -/
example : ∃ x', restFilter.step { gatedFCfg with gateV := mahalanobis 2 } (.velocity ⟨2, 0, 0⟩) = some x' ∧ x'.s.vel.x = -1 ∧
    (x'.s.vel.x - restFilter.s.vel.x) ^ 2 = 2 * (restFilter.P (.vel 0) (.vel 0) - x'.P (.vel 0) (.vel 0)) := by
  have hd : UnitState restFilter.s := by
    have := demoFilter_ok.unit
    exact ⟨this.att, this.vea, this.aux, this.poa, this.nor⟩
  obtain ⟨x', hx⟩ := FSt.finish_some (x := restFilter) (gate := mahalanobis 2) (v := (velInnov Quat.one ⟨2, 0, 0⟩ restFilter.s 0).at)
    (H := Matrix.of fun k b => (velJac Quat.one (DState.unit b : DState 1 2 1)).at k) (R := 1) (post := id) hd isCov_one strictPos_one (fun s h h' => ⟨h, h'⟩)
  refine ⟨x', hx, ?_⟩
  have hH : (Matrix.of fun k b => (velJac Quat.one (DState.unit b : DState 1 2 1)).at k : Matrix (Fin 3) (Ix 1 2 1) ℝ) = Matrix.of fun k b => if b = .vel k then 1 else 0 := by
    ext k b
    have : velJac Quat.one (DState.unit b : DState 1 2 1) = (DState.unit b : DState 1 2 1).vel := by
      unfold velJac
      apply V3.ext <;> simp [Quat.mat, Quat.one, M3.mulVec, V3.dot]
    rw [of_apply, of_apply, this]
    fin_cases k <;> simp [DState.unit, DState.ofFn, V3.at, Pi.single_apply, eq_comm]
  have hy : (velInnov Quat.one ⟨2, 0, 0⟩ restFilter.s 0).at = ![2, 0, 0] := by
    funext k
    fin_cases k <;> simp [velInnov, Quat.rotate, Quat.one, V3.at, restFilter]
  rw [hH, hy] at hx
  set H : Matrix (Fin 3) (Ix 1 2 1) ℝ := Matrix.of fun k b => if b = .vel k then 1 else 0
  have hHH : H * Hᵀ = 1 := by
    ext k l
    rw [mul_apply]
    simp only [H, transpose_apply, of_apply, ite_mul, one_mul, zero_mul, Finset.sum_ite_eq', Finset.mem_univ, if_true, Ix.vel.injEq, one_apply]
  have hS : H * restFilter.P * Hᵀ + 1 = (2 : ℝ) • (1 : Matrix (Fin 3) (Fin 3) ℝ) := by
    rw [show restFilter.P = 1 from rfl, Matrix.mul_one, hHH, two_smul]
  have hSi : ((2 : ℝ) • (1 : Matrix (Fin 3) (Fin 3) ℝ))⁻¹ = (1 / 2 : ℝ) • 1 := by
    refine inv_eq_right_inv ?_
    rw [smul_mul_smul_comm, Matrix.one_mul]; norm_num
  have hg : ∀ i, mahalanobis 2 ![2, 0, 0] ((2 : ℝ) • (1 : Matrix (Fin 3) (Fin 3) ℝ)) i = false := fun i => by
    unfold mahalanobis
    rw [hSi]
    refine decide_eq_false ?_
    rw [smul_mulVec, one_mulVec, dotProduct_smul]
    have : (![2, 0, 0] : Fin 3 → ℝ) ⬝ᵥ ![2, 0, 0] = 4 := by simp [dotProduct, Fin.sum_univ_three]; norm_num
    rw [this]; norm_num
  unfold FSt.finish at hx
  simp only [Option.bind_eq_bind, Option.pure_def] at hx
  obtain ⟨r, hr, hx⟩ := Option.bind_eq_some_iff.mp hx
  obtain ⟨t, ht, hx⟩ := Option.bind_eq_some_iff.mp hx
  cases hx
  obtain ⟨-, h1, h2⟩ := correct_some hr
  have hI : innS (mahalanobis 2) ![2, 0, 0] H 1 restFilter.P = (2 : ℝ) • 1 := by
    ext i j; simp only [innS, hS, hg, of_apply, Bool.or_self, Bool.false_eq_true, if_false]
  have hJ : innH (mahalanobis 2) ![2, 0, 0] H 1 restFilter.P = H := by
    ext i j; simp only [innH, hS, hg, of_apply, Bool.false_eq_true, if_false]
  have hK : gain (mahalanobis 2) ![2, 0, 0] H 1 restFilter.P = (1 / 2 : ℝ) • Hᵀ := by
    unfold gain
    rw [hI, hJ, hSi, show restFilter.P = 1 from rfl, Matrix.one_mul, Matrix.mul_smul, Matrix.mul_one]
  rw [hK] at h1 h2
  rw [hI] at h2
  have hv : t.vel.x = -1 := by
    rw [(fix_platform ht).2.1]
    show (0 : ℝ) + r.1 (.vel 0) = -1
    rw [h1]
    simp [H, smul_mulVec, mulVec, dotProduct, Pi.smul_apply]
  have hp : r.2 (.vel 0) (.vel 0) = 1 / 2 := by
    rw [h2, show restFilter.P = 1 from rfl, Matrix.sub_apply, one_apply_eq]
    simp only [Matrix.mul_smul, Matrix.mul_one, transpose_smul, transpose_transpose, Matrix.smul_apply, mul_apply, transpose_apply, H, of_apply, Fin.sum_univ_three]
    norm_num
    rw [if_neg (by decide)]; norm_num
  refine ⟨hv, ?_⟩
  show (t.vel.x - 0) ^ 2 = 2 * ((1 : Cov 1 2 1) (.vel 0) (.vel 0) - symm r.2 (.vel 0) (.vel 0))
  rw [hv, one_apply_eq]
  simp only [symm, Matrix.smul_apply, Matrix.add_apply, transpose_apply, hp, smul_eq_mul]
  norm_num

end Rovio

namespace Rovio.ImgFull

open Rovio.Img Matrix Rovio.Spec

variable {n nCam nPose : ℕ}

/-- The zero-velocity update keeps a covariance, and moves the platform by no more than what is learned. -/
lemma zeroUpdate_within {fcfg : FCfg n nCam nPose} (hR : IsCov fcfg.zeroR) (u : PoseUpd nPose) (x : State n nCam nPose) {P : Cov n nCam nPose} (hP : IsCov P) :
    IsCov (zeroUpdate fcfg u x P).2 ∧
      ∀ th, 0 ≤ th → fcfg.gateZ = mahalanobis th → Within th x P (zeroUpdate fcfg u x P).1 (zeroUpdate fcfg u x P).2 := by
  unfold zeroUpdate keepOr
  cases h : Rovio.FSt.zeroVel fcfg (fun _ => true) ⟨x, P, u⟩ with
  | none => exact ⟨hP, fun _ _ _ => .refl⟩
  | some w =>
    unfold Rovio.FSt.zeroVel at h
    rw [if_pos rfl] at h
    obtain ⟨c1, c2, -⟩ := Rovio.FSt.finish_cov (x := ⟨x, P, u⟩) hP hR h
    obtain ⟨δ, B, h1, -, h3, -⟩ := Rovio.FSt.finish_size (fun _ _ => rfl) (x := ⟨x, P, u⟩) hP hR h
    exact ⟨c1, fun th h0 hg => .of_size c2 h1 (h3 th h0 hg)⟩

open Classical in
/-- C109.  One image: with the outlier test of threshold `th`, each number of the platform's estimate moves by no more than the number of visits that got as far as the filter
times `th` times its variance (that is: by no more than the root of this times its standard deviation); the threshold of the zero-velocity update is added if it is due. -/
theorem C109_image (I : USet) (order : Finset (Fin n) → List (Fin n)) (cfg : Cfg) (F : Full n nCam nPose) (hC : IsCov F.C) (h01 : F.C 0 1 = 0) (h02 : F.C 0 2 = 0)
    (fcfg : FCfg n nCam nPose) (hZ : IsCov fcfg.zeroR) (th thZ : ℝ) (hth : 0 ≤ th) (hthZ : 0 ≤ thZ) (hg : fcfg.gateZ = mahalanobis thZ)
    (R : Matrix (Fin 2) (Fin 2) ℝ) (hR : IsCov R) (u : PoseUpd nPose) (mem : FSt n nCam nPose → Mem) (mem' : ℝ → Slot MLP → Mem) (fuel : ℕ) (s s' : FSt n nCam nPose)
    (hP : IsCov s.cov) (h : imageUpdate I order cfg ((F.withFilter fcfg (mahalanobis th) R u).env mem mem') fuel s = some s')
    (a : Ix n nCam nPose) (v : ℝ) (hv : value s.w.x a = some v) :
    ∃ v', value s'.w.x a = some v' ∧
      (v' - v) ^ 2 ≤ ((pairs Reached s'.log).length * th + if ZeroVelocityDue cfg s' then thZ else 0) * (s.cov a a - s'.cov a a) ∧
      (v' - v) ^ 2 ≤ ((pairs Reached s'.log).length * th + if ZeroVelocityDue cfg s' then thZ else 0) * s.cov a a := by
  obtain ⟨l, x, P, -, hl, hb, he⟩ := C102_image I order cfg F fcfg (mahalanobis th) R u mem mem' fuel s s' h
  obtain ⟨c1, c2⟩ := ByMatches.within hb hC h01 h02 hR hP
  obtain ⟨z1, z2⟩ := zeroUpdate_within hZ u x c1
  have hk : (l.length : ℝ) ≤ (pairs Reached s'.log).length := by exact_mod_cast hl.length_le
  have hw := c2 th hth rfl
  have h0 : 0 ≤ (l.length : ℝ) * th := by positivity
  have main : IsCov s'.cov ∧ Within (l.length * th + if ZeroVelocityDue cfg s' then thZ else 0) (here s) s.cov (here s') s'.cov := by
    split_ifs at he ⊢ with hd
    · have e1 : here s' = (zeroUpdate fcfg u x P).1 := congrArg Prod.fst he
      have e2 : s'.cov = (zeroUpdate fcfg u x P).2 := congrArg Prod.snd he
      rw [e1, e2]
      exact ⟨z1, hw.trans h0 hthZ (z2 thZ hthZ hg)⟩
    · have e1 : here s' = x := congrArg Prod.fst he
      have e2 : s'.cov = P := congrArg Prod.snd he
      rw [e1, e2, add_zero]
      exact ⟨c1, hw⟩
  have hvh : ∀ (t : FSt n nCam nPose) a, value (here t) a = value t.w.x a := fun t a => by cases a <;> rfl
  obtain ⟨v', h1, h2, h3⟩ := main.2 a v ((hvh s a).trans hv)
  have hle : (v' - v) ^ 2 ≤ ((pairs Reached s'.log).length * th + if ZeroVelocityDue cfg s' then thZ else 0) * (s.cov a a - s'.cov a a) :=
    h3.trans (mul_le_mul_of_nonneg_right (by have := mul_le_mul_of_nonneg_right hk hth; linarith) (sub_nonneg.mpr h2))
  refine ⟨v', (hvh s' a) ▸ h1, hle, hle.trans (mul_le_mul_of_nonneg_left ?_ ?_)⟩
  · have := main.1.nonneg (Pi.single a 1)
    rw [single_quad] at this
    linarith
  · have : 0 ≤ if ZeroVelocityDue cfg s' then thZ else 0 := by split_ifs <;> first | exact hthZ | exact le_rfl
    positivity

/-- C77.  The filter from pixels: starting from a covariance, with noise matrices that are covariances and an initial covariance of features without correlation of distance and
bearing, whatever IMU measurements, velocities and images come, whatever is matched, rejected, removed and added, the covariance of the estimate is symmetric and positive
semi-definite. -/
theorem C77_from_pixels (I : USet) (order : Finset (Fin n) → List (Fin n)) (cfg : Cfg) (F : Full n (nCam + 1) nPose) (hC : IsCov F.C) (h01 : F.C 0 1 = 0) (h02 : F.C 0 2 = 0)
    (fcfg : FCfg n (nCam + 1) nPose) (hc : fcfg.NoiseOk) (gate : Gate 2) (R : Matrix (Fin 2) (Fin 2) ℝ) (hR : IsCov R) (u : PoseUpd nPose) (mem : FSt n (nCam + 1) nPose → Mem)
    (mem' : ℝ → Slot MLP → Mem) (fuel : ℕ) (es : List (Input n (nCam + 1) nPose)) (hi : ∀ i t, Input.reset i t ∈ es → IsCov i.cov) (s s' : FSt n (nCam + 1) nPose)
    (hP : IsCov s.cov) (h : life I order cfg F fcfg gate R u mem mem' fuel es s = some s') : IsCov s'.cov := by
  induction es generalizing s with
  | nil => cases h; exact hP
  | cons e es ih =>
    unfold life run at h
    rw [List.map_cons, List.foldlM_cons] at h
    simp only [Option.bind_eq_bind] at h
    obtain ⟨s1, h1, h2⟩ := Option.bind_eq_some_iff.mp h
    refine ih (fun i t hm => hi i t (List.mem_cons_of_mem _ hm)) s1 ?_ h2
    have keep : ∀ {e' : Step n (nCam + 1) nPose}, e'.NoiseOk u → IsCov (keepOr (Rovio.FSt.step fcfg ⟨here s, s.cov, u⟩ e') (here s) s.cov).2 := by
      intro e' he
      cases hq : Rovio.FSt.step fcfg ⟨here s, s.cov, u⟩ e' with
      | none => exact hP
      | some w => exact (Rovio.FSt.step_cov hc (x := ⟨here s, s.cov, u⟩) he hP hq).1
    cases e with
    | imu mm dt => cases h1; exact keep (e' := .predict mm dt) trivial
    | velocity v => cases h1; exact keep (e' := .velocity v) trivial
    | image t =>
      obtain ⟨l, x, P, -, -, hb, he⟩ := C102_image I order cfg F fcfg gate R u mem mem' fuel _ _ h1
      obtain ⟨c1, -⟩ := ByMatches.within hb hC h01 h02 hR hP
      split_ifs at he
      · have e2 : s1.cov = (zeroUpdate fcfg u x P).2 := congrArg Prod.snd he
        rw [e2]; exact (zeroUpdate_within hc.zeroR u x c1).1
      · have e2 : s1.cov = P := congrArg Prod.snd he
        rw [e2]; exact c1
    | reset i t => cases h1; exact hi i t List.mem_cons_self

/-- Non-vacuity of `C109_image` and `C77_from_pixels`: an image processed by `demoFull` with unit variances. -/
example (F : Full 3 2 1) (C : Fin 2 → Camera) (f : V3 → Nor) (g : V2 → Nor) (fcfg : FCfg 3 2 1) (hZ : IsCov fcfg.zeroR) (hg : fcfg.gateZ = mahalanobis 7) (u : PoseUpd 1)
    (x : State 3 2 1) (prev : Fin 2 → List Level) (q : MLP) (m : Mem) :
    ∃ fuel r, imageUpdate AddArgs.listUSet (fun S => (List.finRange 3).filter (· ∈ S)) (zvCfg true)
        (((demoFull { F with C := 1 } C f g).withFilter fcfg (mahalanobis 5) 1 u).env (fun _ => m) (fun _ _ => m)) fuel { demoFSt x prev 1 q with t := 6 } = some r ∧
      ∃ v', value r.w.x (.pos 2) = some v' ∧ (v' - x.pos.z) ^ 2 ≤ (pairs Reached r.log).length * 5 + 7 := by
  obtain ⟨fuel, r, hr⟩ := demo_life { F with C := 1 } C f g fcfg (mahalanobis 5) 1 u true m { demoFSt x prev 1 q with t := 6 } (demoFSt_wf x prev 1 q 6)
  obtain ⟨v', h1, -, h3⟩ := C109_image AddArgs.listUSet (fun S => (List.finRange 3).filter (· ∈ S)) (zvCfg true) (demoFull { F with C := 1 } C f g) one_cov
    (Matrix.one_apply_ne (by decide)) (Matrix.one_apply_ne (by decide)) fcfg hZ 5 7 (by norm_num) (by norm_num) hg 1 one_cov u (fun _ => m) (fun _ _ => m) fuel
    { demoFSt x prev 1 q with t := 6 } r one_cov hr (.pos 2) x.pos.z rfl
  refine ⟨fuel, r, hr, v', h1, h3.trans ?_⟩
  rw [show ({ demoFSt x prev 1 q with t := 6 } : FSt 3 2 1).cov (.pos 2) (.pos 2) = 1 from one_apply_eq _, mul_one]
  split_ifs <;> norm_num

end Rovio.ImgFull
