import Verif.Props.FilterLive

/-!
# Property C81: rotations are renormalised at every step
-/

namespace Rovio

open Spec Distance Matrix

variable {n nCam nPose : ℕ}

/-- Specification: no estimated rotation has degenerated to zero (their length is arbitrary). -/
structure Spec.NonZeroRot (s : State n nCam nPose) : Prop where
  att : s.att.normSq ≠ 0
  vea : ∀ c, (s.vea c).normSq ≠ 0
  qCM : ∀ c, (s.qCM c).normSq ≠ 0
  poa : ∀ k, (s.poa k).normSq ≠ 0
  nor : ∀ i, (s.fea i).c.validNor = true ∧ (s.fea i).c.nor.q.normSq ≠ 0

/-- Specification: every estimated rotation has unit length. -/
structure Spec.UnitRot (s : State n nCam nPose) : Prop where
  att : s.att.IsUnit
  vea : ∀ c, (s.vea c).IsUnit
  poa : ∀ k, (s.poa k).IsUnit
  nor : ∀ i, (s.fea i).c.validNor = true ∧ (s.fea i).c.nor.q.IsUnit

lemma Quat.isUnit_fix {q : Quat} (h : q.normSq ≠ 0) : q.fix.IsUnit := by
  have hnn : 0 ≤ q.normSq := by unfold Quat.normSq; positivity
  have hs : Real.sqrt q.normSq ≠ 0 := fun e => h ((Real.sqrt_eq_zero hnn).mp e)
  have hsq := Real.sq_sqrt hnn
  have e : q.fix.normSq = q.normSq / Real.sqrt q.normSq ^ 2 := by
    generalize hr : Real.sqrt q.normSq = r at *
    simp only [Quat.fix, hr]
    unfold Quat.normSq
    field_simp
  rw [Quat.IsUnit, e, hsq, div_self h]

lemma Quat.exp_mul_ne {q : Quat} (h : q.normSq ≠ 0) (v : V3) : (Quat.exp v * q).normSq ≠ 0 := by
  have := Quat.isUnit_exp v
  rw [Quat.normSq_mul, this, one_mul]; exact h

/-- The normalisation of LWF makes every non-zero rotation a unit. -/
lemma State.fix_unitRot {s s' : State n nCam nPose} (h1 : s.att.normSq ≠ 0) (h2 : ∀ c, (s.vea c).normSq ≠ 0) (h3 : ∀ k, (s.poa k).normSq ≠ 0)
    (h4 : ∀ i, (s.fea i).c.validNor = true ∧ (s.fea i).c.nor.q.normSq ≠ 0) (h : s.fix = some s') : UnitRot s' := by
  unfold State.fix at h
  simp only [Option.bind_eq_bind, Option.pure_def] at h
  obtain ⟨fea, hf, h⟩ := Option.bind_eq_some_iff.mp h
  rw [Option.some.injEq] at h
  subst h
  refine ⟨Quat.isUnit_fix h1, fun c => Quat.isUnit_fix (h2 c), fun k => Quat.isUnit_fix (h3 k), fun i => ?_⟩
  have := optAll_eq_some hf i
  simp only [Fea.fix, MultiCamera.getNor_of_valid (h4 i).1, Option.bind_eq_bind, Option.bind_some, Option.pure_def, Option.some.injEq] at this
  simp only [← this, FC.setNor, Bool.and_false, Bool.false_eq_true, if_false]
  exact ⟨trivial, Quat.isUnit_fix (h4 i).2⟩

/-- C81: after a prediction every estimated rotation has unit length, whatever the lengths were before. -/
theorem C81_prediction {s s' : State n nCam nPose} (h : NonZeroRot s) (cfg : PredCfg) (m : ImuMeas) (dt : ℝ) (w : DState n nCam nPose)
    (hs : s.evalPrediction cfg m true s w dt = some s') : UnitRot s' := by
  unfold State.evalPrediction at hs
  by_cases hdt : dt ≤ 0
  · rw [if_pos hdt] at hs; cases hs
  rw [if_neg hdt] at hs
  simp only [Option.bind_eq_bind, Option.pure_def, if_true] at hs
  obtain ⟨fea, hf, hs⟩ := Option.bind_eq_some_iff.mp hs
  obtain ⟨o, ho, hs⟩ := Option.bind_eq_some_iff.mp hs
  rw [Option.some.injEq] at hs
  have hu : UnitRot o := by
    refine State.fix_unitRot ?_ ?_ ?_ ?_ ho
    · show (s.att * Quat.exp _).normSq ≠ 0
      rw [Quat.normSq_mul, show (Quat.exp _).normSq = 1 from Quat.isUnit_exp _, mul_one]; exact h.att
    · intro c
      show ((if s.aux.doVE then _ else _ : Fin nCam → Quat) c).normSq ≠ 0
      split
      · exact Quat.exp_mul_ne (h.qCM c) _
      · exact h.vea c
    · intro k; exact Quat.exp_mul_ne (h.poa k) _
    · intro i
      have hi := optAll_eq_some hf i
      show (fea i).c.validNor = true ∧ (fea i).c.nor.q.normSq ≠ 0
      unfold State.predictFea at hi
      cases hc : camIdx nCam (s.fea i).c.camID with
      | none =>
        simp only [hc, Option.some.injEq] at hi
        rw [← hi]; exact h.nor i
      | some a =>
        simp only [hc, MultiCamera.getNor_of_valid (h.nor i).1, Option.bind_eq_bind, Option.bind_some, Option.pure_def] at hi
        by_cases ht : (s.fea i).c.trackWarping = true
        · rw [if_pos ht] at hi
          obtain ⟨⟨c', wp⟩, -, hi⟩ := Option.bind_eq_some_iff.mp hi
          rw [Option.some.injEq] at hi
          rw [← hi]
          simp only [FC.setWarpNor, FC.setNor, ht, Bool.and_true, if_true]
          exact ⟨trivial, Quat.exp_mul_ne (h.nor i).2 _⟩
        · rw [if_neg ht, Option.some.injEq] at hi
          rw [← hi]
          simp only [FC.setNor, ht, Bool.false_and, Bool.false_eq_true, if_false]
          exact ⟨trivial, Quat.exp_mul_ne (h.nor i).2 _⟩
  rw [← hs]
  exact ⟨hu.att, hu.vea, hu.poa, hu.nor⟩

/-- C81: the same after every update, for any innovation, gate and correction. -/
lemma finish_unitRot {m : ℕ} {x x' : FSt n nCam nPose} (h : NonZeroRot x.s) {gate : Gate m} {v : Fin m → ℝ} {H : Matrix (Fin m) (Ix n nCam nPose) ℝ}
    {R : Matrix (Fin m) (Fin m) ℝ} {post : State n nCam nPose → State n nCam nPose}
    (hp : ∀ s, (post s).att = s.att ∧ (post s).vea = s.vea ∧ (post s).poa = s.poa ∧ (post s).fea = s.fea)
    (hx : x.finish gate v H R post = some x') : UnitRot x'.s := by
  unfold FSt.finish at hx
  simp only [Option.bind_eq_bind, Option.pure_def] at hx
  obtain ⟨⟨δ, P⟩, -, hx⟩ := Option.bind_eq_some_iff.mp hx
  obtain ⟨s', hs, hx⟩ := Option.bind_eq_some_iff.mp hx
  rw [Option.some.injEq] at hx
  rw [← hx]
  obtain ⟨e1, e2, e3, e4⟩ := hp (x.s.boxPlus (DState.ofFn δ))
  refine State.fix_unitRot ?_ ?_ ?_ ?_ hs
  · rw [e1]; exact Quat.exp_mul_ne h.att _
  · intro c; rw [e2]; exact Quat.exp_mul_ne (h.vea c) _
  · intro k; rw [e3]; exact Quat.exp_mul_ne (h.poa k) _
  · intro i
    rw [e4]
    simp only [State.boxPlus, Fea.boxPlus, FC.setNor, Bool.and_false, Bool.false_eq_true, if_false]
    exact ⟨trivial, Quat.exp_mul_ne (h.nor i).2 _⟩

/-- C81: after any prediction, velocity update or image correction of the filter, and after a pose update (whose alignment is done first), every estimated
rotation has unit length, however far the lengths had drifted before. -/
theorem C81_step (cfg : FCfg n (nCam + 1) nPose) (x x' : FSt n (nCam + 1) nPose) (e : Step n (nCam + 1) nPose) (h : NonZeroRot x.s)
    (he : match e with
      | .predict _ _ => True
      | .velocity _ => True
      | .zeroVel trigger => trigger x.s.odo = true
      | .image alg => (alg x.s.odo x.P.odo).isSome
      | .pose meas => NonZeroRot (x.u.preProcess meas x.s).2
      | .manage _ => False)
    (hx : x.step cfg e = some x') : UnitRot x'.s := by
  cases e with
  | predict m dt =>
    simp only [FSt.step, FSt.predict, Option.bind_eq_bind, Option.pure_def] at hx
    obtain ⟨F, -, hx⟩ := Option.bind_eq_some_iff.mp hx
    obtain ⟨G, -, hx⟩ := Option.bind_eq_some_iff.mp hx
    obtain ⟨s', hs, hx⟩ := Option.bind_eq_some_iff.mp hx
    rw [Option.some.injEq] at hx
    rw [← hx]
    exact C81_prediction h _ _ _ _ hs
  | velocity meas => exact finish_unitRot h (fun s => ⟨rfl, rfl, rfl, rfl⟩) hx
  | zeroVel tr =>
    simp only [FSt.step, FSt.zeroVel] at hx
    rw [if_pos he] at hx
    exact finish_unitRot h (fun s => ⟨rfl, rfl, rfl, rfl⟩) hx
  | image alg =>
    simp only [FSt.step] at hx
    cases ha : alg x.s.odo x.P.odo with
    | none => simp [ha] at he
    | some c =>
      simp only [ha, FSt.image, Option.bind_eq_bind] at hx
      obtain ⟨J, -, hx⟩ := Option.bind_eq_some_iff.mp hx
      exact finish_unitRot h (fun s => ⟨rfl, rfl, rfl, rfl⟩) hx
  | manage alg => exact absurd he id
  | pose meas =>
    exact finish_unitRot (x := { x with s := (x.u.preProcess meas x.s).2, u := (x.u.preProcess meas x.s).1 })
      (post := (x.u.preProcess meas x.s).1.postProcess meas) he (fun s => ⟨rfl, rfl, rfl, rfl⟩) hx

/-- Non-vacuity: an attitude of length two. -/
example : NonZeroRot { demoState true 0 with att := ⟨0, 2, 0, 0⟩ } ∧ ¬ (⟨0, 2, 0, 0⟩ : Quat).IsUnit := by
  refine ⟨⟨by norm_num [Quat.normSq], fun c => ?_, fun c => ?_, fun k => ?_, fun i => ⟨rfl, ?_⟩⟩, by norm_num [Quat.IsUnit, Quat.normSq]⟩
  · have := demoState_qCM true 0 c
    simp only [State.qCM, demoState, if_true] at this
    simp only [demoState]; rw [this]; norm_num
  · have : (demoState true 0).qCM c = ({ demoState true 0 with att := ⟨0, 2, 0, 0⟩ } : State 1 2 1).qCM c := rfl
    rw [← this, demoState_qCM true 0 c]; norm_num
  · simp only [demoState]; norm_num [Quat.normSq, Quat.one]
  · simp only [demoState, demoCoord]; norm_num [Quat.normSq, Quat.one]

end Rovio
