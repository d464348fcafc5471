import Verif.Lemmas.Ekf
import Verif.Props.NoFeedback
import Verif.Props.OutputCov

/-! # C77: the covariance of the estimate is a covariance, whatever is processed -/

namespace Rovio

open Matrix Spec Distance State

variable {n nCam nPose : ℕ}

/-- Specification: what a step brings along is a covariance: the noise of an image correction, the initial covariance of a new
feature, the noise the pose update `u` uses for a measurement. -/
def Step.NoiseOk (u : PoseUpd nPose) : Step n nCam nPose → Prop
  | .image alg => ∀ o P c, alg o P = some c → IsCov c.R
  | .manage alg => ∀ o P, ∀ r ∈ (alg o P).reset, IsCov r.2
  | .pose meas => IsCov (u.setNoise meas).noise
  | _ => True

/-- Specification: configured noise: variances are not negative, noise matrices are covariances. -/
structure FCfg.NoiseOk (cfg : FCfg n nCam nPose) : Prop where
  q : ∀ a, 0 ≤ cfg.q a
  velR : IsCov cfg.velR
  zeroR : IsCov cfg.zeroR

/-- Does a step process a measurement (rather than predict or manage features)? -/
def Step.isUpdate : Step n nCam nPose → Bool
  | .velocity _ => true
  | .zeroVel _ => true
  | .image _ => true
  | .pose _ => true
  | _ => false

lemma Spec.IsCov.submatrix {ι κ : Type*} [Fintype ι] [Fintype κ] [DecidableEq ι] {P : Matrix ι ι ℝ} (h : IsCov P) (f : κ → ι) : IsCov (P.submatrix f f) := by
  have e : P.submatrix f f = selMat f * P * (selMat f)ᵀ := by ext a b; rw [submatrix_quad]; rfl
  rw [e]; exact h.conj _

/-- The settings that determine the noise of a pose measurement. -/
lemma setNoise_congr {u v : PoseUpd nPose} (h1 : u.useOdometryCov = v.useOdometryCov) (h2 : u.defaultNoise = v.defaultNoise) (h3 : u.enablePosition = v.enablePosition)
    (h4 : u.enableAttitude = v.enableAttitude) (meas : PoseMeas) : (u.setNoise meas).noise = (v.setNoise meas).noise := by
  unfold PoseUpd.setNoise
  rw [h1, h2, h3, h4]
  split <;> rfl

/-- Two pose updates with the same settings. -/
structure PoseUpd.SameSettings (u v : PoseUpd nPose) : Prop where
  cov : u.useOdometryCov = v.useOdometryCov
  noise : u.defaultNoise = v.defaultNoise
  pos : u.enablePosition = v.enablePosition
  att : u.enableAttitude = v.enableAttitude

lemma PoseUpd.preProcess_settings (u : PoseUpd nPose) (meas : PoseMeas) (s : State n nCam nPose) :
    (u.preProcess meas s).1.SameSettings u ∧ (u.preProcess meas s).1.noise = (u.setNoise meas).noise := by
  have ha : (u.align meas s).1.SameSettings u := by
    unfold PoseUpd.align
    by_cases hc : u.didAlign = false ∧ u.doAlign = true
    · rw [if_pos hc]; exact ⟨rfl, rfl, rfl, rfl⟩
    · rw [if_neg hc]; exact ⟨rfl, rfl, rfl, rfl⟩
  unfold PoseUpd.preProcess
  refine ⟨?_, setNoise_congr ha.cov ha.noise ha.pos ha.att meas⟩
  obtain ⟨N, e⟩ := setNoise_fields (u.align meas s).1 meas
  rw [e]
  exact ⟨ha.cov, ha.noise, ha.pos, ha.att⟩

namespace FSt

lemma symm_cov {P : Cov n nCam nPose} (h : IsCov P) : symm P = P := symm_of_symm h.symm

lemma finish_cov {m : ℕ} {x x' : FSt n nCam nPose} {gate : Gate m} {v : Fin m → ℝ} {H : Matrix (Fin m) (Ix n nCam nPose) ℝ} {R : Matrix (Fin m) (Fin m) ℝ}
    {post : State n nCam nPose → State n nCam nPose} (hx : IsCov x.P) (hR : IsCov R) (hf : x.finish gate v H R post = some x') :
    IsCov x'.P ∧ IsCov (x.P - x'.P) ∧ x'.u = x.u := by
  unfold finish at hf
  cases hc : correct gate v H R x.P with
  | none => simp [hc] at hf
  | some r =>
    obtain ⟨h1, h2⟩ := correct_cov hx hR hc
    simp only [hc, Option.bind_eq_bind, Option.bind_some, Option.pure_def] at hf
    obtain ⟨s, -, e⟩ := Option.bind_eq_some_iff.mp hf
    rw [Option.some.injEq] at e
    rw [← e]
    simp only [symm_cov h1]
    exact ⟨h1, h2, trivial⟩

lemma step_cov {cfg : FCfg n (nCam + 1) nPose} (hc : cfg.NoiseOk) {e : Step n (nCam + 1) nPose} {x x' : FSt n (nCam + 1) nPose} (he : e.NoiseOk x.u) (hx : IsCov x.P)
    (hf : x.step cfg e = some x') : IsCov x'.P ∧ (e.isUpdate = true → IsCov (x.P - x'.P)) ∧ x'.u.SameSettings x.u := by
  have z : IsCov (x.P - x.P) := by rw [sub_self]; exact ⟨rfl, fun v => by simp⟩
  have fin : ∀ {m : ℕ} {gate : Gate m} {v : Fin m → ℝ} {H : Matrix (Fin m) (Ix n (nCam + 1) nPose) ℝ} {R : Matrix (Fin m) (Fin m) ℝ}
      {post : State n (nCam + 1) nPose → State n (nCam + 1) nPose}, IsCov R → x.finish gate v H R post = some x' →
      IsCov x'.P ∧ IsCov (x.P - x'.P) ∧ x'.u.SameSettings x.u := by
    intro m gate v H R post hR h
    obtain ⟨h1, h2, h3⟩ := finish_cov hx hR h
    exact ⟨h1, h2, h3 ▸ ⟨rfl, rfl, rfl, rfl⟩⟩
  cases e with
  | predict m dt =>
    simp only [step, predict, Option.bind_eq_bind, Option.pure_def] at hf
    obtain ⟨F, -, hf⟩ := Option.bind_eq_some_iff.mp hf
    obtain ⟨G, -, hf⟩ := Option.bind_eq_some_iff.mp hf
    obtain ⟨s, -, hf⟩ := Option.bind_eq_some_iff.mp hf
    rw [Option.some.injEq] at hf
    rw [← hf]
    refine ⟨?_, (by simp [Step.isUpdate]), ⟨rfl, rfl, rfl, rfl⟩⟩
    have h := (hx.conj F).add ((IsCov.diagonal hc.q).conj G)
    simp only [symm_cov h]
    exact h
  | velocity meas =>
    obtain ⟨a, b, c⟩ := fin hc.velR hf
    exact ⟨a, fun _ => b, c⟩
  | zeroVel tr =>
    simp only [step, zeroVel] at hf
    by_cases ht : tr x.s.odo = true
    · rw [if_pos ht] at hf
      obtain ⟨a, b, c⟩ := fin hc.zeroR hf
      exact ⟨a, fun _ => b, c⟩
    · rw [if_neg ht, Option.some.injEq] at hf
      subst hf; exact ⟨hx, fun _ => z, ⟨rfl, rfl, rfl, rfl⟩⟩
  | image alg =>
    simp only [step] at hf
    cases ha : alg x.s.odo x.P.odo with
    | none => simp only [ha, Option.some.injEq] at hf; subst hf; exact ⟨hx, fun _ => z, ⟨rfl, rfl, rfl, rfl⟩⟩
    | some c =>
      simp only [ha, image, Option.bind_eq_bind] at hf
      obtain ⟨J, -, hf⟩ := Option.bind_eq_some_iff.mp hf
      obtain ⟨a, b, c⟩ := fin (he _ _ _ ha) hf
      exact ⟨a, fun _ => b, c⟩
  | manage alg =>
    simp only [step, Option.some.injEq] at hf
    rw [← hf]
    refine ⟨?_, (by simp [Step.isUpdate]), ⟨rfl, rfl, rfl, rfl⟩⟩
    have hr := he x.s.odo x.P.odo
    simp only [manage]
    generalize (alg x.s.odo x.P.odo).reset = l at hr
    generalize x.P = P at hx
    induction l generalizing P with
    | nil => exact hx
    | cons r l ih => exact ih (fun a ha => hr a (by simp [ha])) _ (C52_cov hx r.1 (hr r (by simp)))
  | pose meas =>
    simp only [step, pose] at hf
    obtain ⟨hs, hn⟩ := x.u.preProcess_settings meas x.s
    obtain ⟨h1, h2, h3⟩ := finish_cov (x := { x with s := (x.u.preProcess meas x.s).2, u := (x.u.preProcess meas x.s).1 }) hx (by
      rw [hn]; exact Spec.IsCov.submatrix he poseRow) hf
    exact ⟨h1, fun _ => h2, h3 ▸ hs⟩

end FSt

/-- C77: starting from a covariance, after any sequence of predictions, updates and feature management the covariance of the estimate
is symmetric and positive semi-definite. -/
theorem C77_valid (cfg : FCfg n (nCam + 1) nPose) (hc : cfg.NoiseOk) (es : List (Step n (nCam + 1) nPose)) (x x' : FSt n (nCam + 1) nPose)
    (he : ∀ e ∈ es, e.NoiseOk x.u) (hx : IsCov x.P) (hf : x.run cfg es = some x') : IsCov x'.P := by
  have key : ∀ (es : List (Step n (nCam + 1) nPose)) (y : FSt n (nCam + 1) nPose), y.u.SameSettings x.u → (∀ e ∈ es, e.NoiseOk x.u) → IsCov y.P →
      y.run cfg es = some x' → IsCov x'.P := by
    intro es
    induction es with
    | nil => intro y _ _ hy h; simp only [FSt.run, List.foldlM_nil, Option.pure_def, Option.some.injEq] at h; exact h ▸ hy
    | cons e es ih =>
      intro y hs he hy h
      simp only [FSt.run, List.foldlM_cons, Option.bind_eq_bind] at h
      obtain ⟨z, hz, h⟩ := Option.bind_eq_some_iff.mp h
      have hn : e.NoiseOk y.u := by
        have := he e (by simp)
        cases e with
        | pose meas =>
          simp only [Step.NoiseOk] at this ⊢
          rwa [setNoise_congr hs.cov hs.noise hs.pos hs.att meas]
        | _ => exact this
      obtain ⟨h1, -, h3⟩ := FSt.step_cov hc hn hy hz
      exact ih z ⟨h3.cov.trans hs.cov, h3.noise.trans hs.noise, h3.pos.trans hs.pos, h3.att.trans hs.att⟩ (fun a ha => he a (by simp [ha])) h1 h
  exact key es x ⟨rfl, rfl, rfl, rfl⟩ he hx hf

/-- C77: a measurement never increases the uncertainty of any combination of states. -/
theorem C77_update_reduces (cfg : FCfg n (nCam + 1) nPose) (hc : cfg.NoiseOk) (e : Step n (nCam + 1) nPose) (hu : e.isUpdate = true) (x x' : FSt n (nCam + 1) nPose)
    (he : e.NoiseOk x.u) (hx : IsCov x.P) (hf : x.step cfg e = some x') (v : Ix n (nCam + 1) nPose → ℝ) : v ⬝ᵥ x'.P.mulVec v ≤ v ⬝ᵥ x.P.mulVec v := by
  have h := ((FSt.step_cov hc he hx hf).2.1 hu).nonneg v
  rw [sub_mulVec, dotProduct_sub] at h
  linarith

lemma FSt.finish_some {m : ℕ} {x : FSt n nCam nPose} (hu : UnitState x.s) (hx : IsCov x.P) {gate : Gate m} {v : Fin m → ℝ} {H : Matrix (Fin m) (Ix n nCam nPose) ℝ}
    {R : Matrix (Fin m) (Fin m) ℝ} (hR : StrictPos R) {post : State n nCam nPose → State n nCam nPose}
    (hp : ∀ s, UnitState s → (∀ i, (s.fea i).c.validNor = true) → UnitState (post s) ∧ ∀ i, ((post s).fea i).c.validNor = true) : ∃ x', x.finish gate v H R post = some x' := by
  obtain ⟨r, hr⟩ := correct_isSome (gate := gate) (y := v) (H := H) hx hR
  obtain ⟨h1, h2⟩ := hp _ (boxPlus_unit hu (DState.ofFn r.1)) (boxPlus_nor (s := x.s) _)
  unfold FSt.finish
  simp only [hr, Option.bind_eq_bind, Option.bind_some, Option.pure_def, fix_eq h1 h2]
  exact ⟨_, rfl⟩

/-- The noise in the order of the rows of the innovation. -/
lemma poseNoise_pos {N : Matrix PoseIx PoseIx ℝ} (hR : StrictPos N) : StrictPos (Matrix.of fun k l => N (poseRow k) (poseRow l) : Matrix (Fin 6) (Fin 6) ℝ) := by
  intro v hv
  have hbij : Function.Bijective poseRow := by
    have hinj : Function.Injective poseRow := by
      intro a b h
      fin_cases a <;> fin_cases b <;> simp_all [poseRow]
    exact ⟨hinj, (Fintype.bijective_iff_injective_and_card poseRow).mpr ⟨hinj, by simp⟩ |>.2⟩
  let E := Equiv.ofBijective poseRow hbij
  have hw : (fun i => v (E.symm i)) ≠ 0 := by
    intro h0
    apply hv
    funext k
    have := congrFun h0 (E k)
    simpa using this
  have := hR _ hw
  have e : (fun i => v (E.symm i)) ⬝ᵥ N.mulVec (fun i => v (E.symm i)) =
      v ⬝ᵥ (Matrix.of fun k l => N (poseRow k) (poseRow l) : Matrix (Fin 6) (Fin 6) ℝ).mulVec v := by
    simp only [dotProduct, mulVec, of_apply]
    rw [← E.sum_comp]
    refine Finset.sum_congr rfl fun i _ => ?_
    rw [Equiv.symm_apply_apply, ← E.sum_comp]
    congr 1
    refine Finset.sum_congr rfl fun j _ => ?_
    rw [Equiv.symm_apply_apply]
    rfl
  rwa [e] at this

/-- C77: with positive definite noise a velocity, zero velocity or pose measurement never meets a singular innovation covariance: the
update succeeds, whatever the outlier detection rejects. -/
theorem C77_updates_succeed (cfg : FCfg n (nCam + 1) nPose) (x : FSt n (nCam + 1) nPose) (hx : IsCov x.P) (hs : x.s.Ok) :
    (StrictPos cfg.velR → ∀ meas, ∃ x', x.step cfg (.velocity meas) = some x') ∧
    (StrictPos cfg.zeroR → ∀ trigger, ∃ x', x.step cfg (.zeroVel trigger) = some x') ∧
    (∀ meas, meas.att.IsUnit → x.u.qVM.IsUnit → StrictPos (x.u.setNoise meas).noise → ∃ x', x.step cfg (.pose meas) = some x') := by
  refine ⟨fun hR meas => FSt.finish_some hs.unit hx hR (fun s h h' => ⟨h, h'⟩), fun hR tr => ?_, fun meas hm hv hR => ?_⟩
  · simp only [FSt.step, FSt.zeroVel]
    split_ifs
    · exact FSt.finish_some hs.unit hx hR (fun s h h' => ⟨h, h'⟩)
    · exact ⟨_, rfl⟩
  · simp only [FSt.step, FSt.pose]
    obtain ⟨-, hok, -, -⟩ := FSt.preProcess_same (u := x.u) (meas := meas) (s := x.s) hs hv hm
    obtain ⟨-, hn⟩ := x.u.preProcess_settings meas x.s
    refine FSt.finish_some (x := { x with s := (x.u.preProcess meas x.s).2, u := (x.u.preProcess meas x.s).1 }) hok.unit hx ?_
      (fun s h h' => ⟨⟨h.att, h.vea, h.aux, h.poa, h.nor⟩, h'⟩)
    rw [hn]
    exact poseNoise_pos hR

end Rovio
