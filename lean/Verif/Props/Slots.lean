import Verif.Lemmas.Slots
import Verif.Props.FeatureCovariance
import Verif.Props.OutputCov
import Verif.Props.FilterLive

/-!
# Property C106: slots without a feature have no influence

The filter state always has all its slots, with an estimate, covariance and correlations in each (include/rovio/FilterStates.hpp).
-/

namespace Rovio

open Spec Matrix

variable {n nCam nPose : ℕ} {L L' : Fin n → Bool}

lemma slotIx_cases (i : Fin n) (a : Ix n nCam nPose) : (∃ k, a = slotIx i k) ∨ ∀ k, a ≠ slotIx i k := by
  by_cases h : ∃ k, a = slotIx i k
  · exact .inl h
  · exact .inr (by push Not at h; exact h)

lemma unused_grow {i : Fin n} {a : Ix n nCam nPose} (hn : ∀ k, a ≠ slotIx i k) (ha : a.unused (fun j => L j || decide (j = i)) = false) : a.unused L = false := by
  cases a with
  | nor j k =>
    simp only [Ix.unused, Bool.not_eq_false', Bool.or_eq_true, decide_eq_true_eq] at ha ⊢
    rcases ha with ha | rfl
    · exact ha
    · fin_cases k
      · exact absurd rfl (hn 1)
      · exact absurd rfl (hn 2)
  | dep j =>
    simp only [Ix.unused, Bool.not_eq_false', Bool.or_eq_true, decide_eq_true_eq] at ha ⊢
    rcases ha with ha | rfl
    · exact ha
    · exact absurd rfl (hn 0)
  | _ => rfl

lemma resetFeature_slots {P Q : Cov n nCam nPose} (h : SlotP L P Q) (i : Fin n) (C : Matrix (Fin 3) (Fin 3) ℝ) :
    SlotP (fun j => L j || decide (j = i)) (P.resetFeature i C) (Q.resetFeature i C) := by
  intro a b ha hb
  obtain ⟨p1, p2, p3⟩ := C52_entries P i C
  obtain ⟨q1, q2, q3⟩ := C52_entries Q i C
  rcases slotIx_cases i a with ⟨k, rfl⟩ | hna <;> rcases slotIx_cases i b with ⟨l, rfl⟩ | hnb
  · rw [p3, q3]
  · rw [(p2 b k hnb).2, (q2 b k hnb).2]
  · rw [(p2 a l hna).1, (q2 a l hna).1]
  · rw [p1 a b hna hnb, q1 a b hna hnb]
    exact h a b (unused_grow hna ha) (unused_grow hnb hb)

lemma SlotP.mono {P Q : Cov n nCam nPose} (h : SlotP L P Q) (hL : ∀ i, L' i = true → L i = true) : SlotP L' P Q := by
  have : ∀ a : Ix n nCam nPose, a.unused L' = false → a.unused L = false := fun a ha => by
    cases a <;> simp_all [Ix.unused]
  exact fun a b ha hb => h a b (this a ha) (this b hb)

lemma resets_slots {P Q : Cov n nCam nPose} (rs : List (Fin n × Matrix (Fin 3) (Fin 3) ℝ)) (h : SlotP L P Q) (hL : ∀ i, L' i = true → L i = false → ∃ C, (i, C) ∈ rs) :
    SlotP L' (rs.foldl (fun P p => P.resetFeature p.1 p.2) P) (rs.foldl (fun P p => P.resetFeature p.1 p.2) Q) := by
  induction rs generalizing L P Q with
  | nil =>
    refine SlotP.mono h fun i hi => ?_
    by_contra hc
    obtain ⟨C, hC⟩ := hL i hi (by simpa using hc)
    cases hC
  | cons r rs ih =>
    rw [List.foldl_cons, List.foldl_cons]
    refine ih (resetFeature_slots h r.1 r.2) fun i hi hn => ?_
    simp only [Bool.or_eq_false_iff, decide_eq_false_iff_not] at hn
    obtain ⟨C, hC⟩ := hL i hi hn.1
    rcases List.mem_cons.mp hC with rfl | hC
    · exact absurd rfl hn.2
    · exact ⟨C, hC⟩

/-- **C106, one step.** Two filters that agree in everything but the slots that are not in use (whatever estimate, covariance and correlations are in these) perform the same
step; if it is defined for both, they again agree in everything but the slots that are then not in use: same pose, velocity, biases, mounting, features in use, and same
covariance of these. -/
theorem C106_step (cfg : FCfg n (nCam + 1) nPose) {e : Step n (nCam + 1) nPose} (he : SlotStep L e L') {a b : FSt n (nCam + 1) nPose} (h : SlotApart L a b) :
    IfBoth (SlotApart L') (a.step cfg e) (b.step cfg e) := by
  cases he with
  | predict m dt => exact predict_slots cfg m dt h
  | velocity v => exact velocity_slots cfg v h
  | pose meas => exact pose_slots cfg meas h
  | zeroVel trigger ht => exact zeroVel_slots cfg ht h
  | image alg h1 h2 =>
    simp only [FSt.step]
    rw [h1 _ _ _ _ (odo_slots h.x) (odoCov_slots h.P)]
    cases hc : alg b.s.odo b.P.odo with
    | none =>
      intro z z' hz hz'
      simp only [Option.some.injEq] at hz hz'
      subst hz; subst hz'
      exact h
    | some c => exact image_slots cfg c (h2 _ _ _ hc) h
  | manage _ alg haux hreset hfea hnew =>
    intro z z' hz hz'
    simp only [FSt.step, Option.some.injEq] at hz hz'
    subst hz; subst hz'
    have hx := odo_slots h.x
    have hP := odoCov_slots h.P
    have e1 := haux _ _ _ _ hx hP
    have e2 := hreset _ _ _ _ hx hP
    have e3 := hfea _ _ _ _ hx hP
    have e4 := hnew b.s.odo b.P.odo
    revert e1 e2 e3 e4
    generalize alg a.s.odo a.P.odo = r
    generalize alg b.s.odo b.P.odo = r'
    intro e1 e2 e3 e4
    refine ⟨⟨?_, e3⟩, ?_, h.u⟩
    · obtain ⟨f, e, hf⟩ := h.x.split
      simp only [FSt.manage, e, e1]
    · show SlotP L' (r.reset.foldl _ a.P) (r'.reset.foldl _ b.P)
      rw [e2]
      exact resets_slots _ h.P e4

/-- **C106, runs.** For any number of inertial measurements, velocities, poses, image corrections, zero velocity updates and changes of the features, in any order: if the runs
of both filters are defined, their results differ at most in the slots that are not in use at the end. -/
theorem C106_run (cfg : FCfg n (nCam + 1) nPose) {es : List (Step n (nCam + 1) nPose)} (hes : SlotRun L es L') {a b : FSt n (nCam + 1) nPose} (h : SlotApart L a b) :
    IfBoth (SlotApart L') (FSt.run cfg a es) (FSt.run cfg b es) := by
  induction hes generalizing a b with
  | nil L =>
    intro z z' hz hz'
    simp only [FSt.run, List.foldlM_nil, Option.pure_def, Option.some.injEq] at hz hz'
    subst hz; subst hz'
    exact h
  | cons he _ ih =>
    unfold FSt.run
    simp only [List.foldlM_cons, Option.bind_eq_bind]
    exact (C106_step cfg he h).bind fun _ _ _ _ h => ih h

/-- **C106, outputs.** The published pose and velocity of the IMU and of every camera, and their covariances, do not depend on slots that are not in use. -/
theorem C106_outputs {x y : State n nCam nPose} {P Q : Cov n nCam nPose} (hx : SlotX L x y) (hP : SlotP L P Q) :
    x.imuOut = y.imuOut ∧ x.stdCov x.imuJac P = y.stdCov y.imuJac Q ∧ (∀ c, x.camOut c = y.camOut c) ∧ ∀ c, x.stdCov (x.camJac c) P = y.stdCov (y.camJac c) Q := by
  have hcov : ∀ J : DState n nCam nPose → DStdOut, (∀ δ : DState n nCam nPose, δ.Idle L → J δ = ⟨0, 0, 0, 0⟩) →
      State.stdMat J * P * (State.stdMat J)ᵀ = State.stdMat J * Q * (State.stdMat J)ᵀ := fun J hJ => by
    have h0 : ∀ r a, a.unused L = true → State.stdMat J r a = 0 := fun r a ha => by
      unfold State.stdMat
      rw [hJ _ (DState.idle_unit ha)]
      cases r <;> exact V3.at_zero _
    ext r s
    exact mul_slots hP (fun _ => rfl) (fun a ha => h0 r a ha) (fun _ => rfl) (fun a ha => h0 s a ha)
  obtain ⟨f, rfl, hf⟩ := hx.split
  have e1 : State.imuJac { y with fea := f } = y.imuJac := rfl
  have e2 : ∀ c, State.camJac { y with fea := f } c = y.camJac c := fun c => rfl
  refine ⟨rfl, ?_, fun c => rfl, fun c => ?_⟩
  · unfold State.stdCov
    rw [e1, hcov]
    · rfl
    · intro δ hδ
      simp only [State.imuJac, hδ.pos, hδ.att, hδ.vel, hδ.gyb, M3.mulVec_zero']
  · unfold State.stdCov
    rw [e2, hcov]
    · rfl
    · intro δ hδ
      simp only [State.camJac, hδ.pos, hδ.att, hδ.vel, hδ.gyb, hδ.vep, hδ.vea, M3.mulVec_zero', ite_self, V3.add_zero']

/-- **C106, proper runs.** If noise is positive, both filters are proper ones (C78: unit quaternions, bearings in all slots, a covariance) and the inputs are, then both runs are
defined and the results differ at most in the slots that are not in use at the end. -/
theorem C106_proper (cfg : FCfg n (nCam + 1) nPose) (hc : cfg.NoiseOk) (hv : StrictPos cfg.velR) (hz : StrictPos cfg.zeroR) {es : List (Step n (nCam + 1) nPose)}
    (hes : SlotRun L es L') {a b : FSt n (nCam + 1) nPose} (h : SlotApart L a b) (hl : ∀ e ∈ es, e.Live a.u) (ha : a.Live) (hb : b.Live) :
    ∃ a' b', FSt.run cfg a es = some a' ∧ FSt.run cfg b es = some b' ∧ SlotApart L' a' b' ∧ a'.s.imuOut = b'.s.imuOut ∧
      a'.s.stdCov a'.s.imuJac a'.P = b'.s.stdCov b'.s.imuJac b'.P := by
  obtain ⟨a', h1, -⟩ := C78_run_succeeds cfg hc hv hz es a hl ha
  obtain ⟨b', h2, -⟩ := C78_run_succeeds cfg hc hv hz es b (fun e he => h.u ▸ hl e he) hb
  have := C106_run cfg hes h _ _ h1 h2
  exact ⟨a', b', h1, h2, this, (C106_outputs this.x this.P).1, (C106_outputs this.x this.P).2.1⟩

/-! ## Non-vacuity -/

/-- Another filter with other contents of its only slot, which is not in use: the bearing belongs to the other camera, with variances of 9. -/
noncomputable def demoOther : FSt 1 2 1 := ⟨demoState true 1, Matrix.diagonal fun a => if a.unused (fun _ => false) then 9 else 1, demoNoFeedback⟩

/-- Measurements while the slot is not in use, then a feature is started in it, used for a correction and predicted. -/
noncomputable def demoSlotSteps : List (Step 1 2 1) :=
  [.predict ⟨⟨0, 0, 10⟩, ⟨0.1, 0, 0⟩⟩ 0.01, .pose demoMeas, .velocity ⟨1, 0, 0⟩, .zeroVel fun _ => true,
   .manage fun o _ => ⟨fun _ => (demoState true 0 : State 1 2 1).odo.fea 0, o.aux, [(0, 1)]⟩,
   .image fun _ _ => some { m := 2, i := 0, b := 1, lin := (demoState true 0).odo, A := 1, y := fun _ => 1, R := 1, gate := fun _ _ _ => false },
   .predict ⟨⟨0, 0, 10⟩, ⟨0.1, 0, 0⟩⟩ 0.01]

lemma demoSlot_run : SlotRun (fun _ => false) demoSlotSteps fun _ => true := by
  refine .cons (.predict _ _ _) (.cons (.pose _ _) (.cons (.velocity _ _) (.cons (.zeroVel _ _ fun _ _ _ => rfl) (.cons (.manage _ (fun _ => true) _ ?_ ?_ ?_ ?_)
    (.cons (.image _ _ ?_ ?_) (.cons (.predict _ _ _) (.nil _)))))))
  · intro x y P Q h _
    obtain ⟨f, rfl, -⟩ := h.split
    rfl
  · exact fun _ _ _ _ _ _ => rfl
  · exact fun _ _ _ _ _ _ _ _ => rfl
  · intro x P i _ _
    have : i = 0 := Subsingleton.elim _ _
    subst this
    exact ⟨1, List.mem_singleton.mpr rfl⟩
  · exact fun _ _ _ _ _ _ => rfl
  · exact fun _ _ _ _ => rfl

example : ∃ a b : FSt 1 2 1, demoFilter.run demoFCfg demoSlotSteps = some a ∧ demoOther.run demoFCfg demoSlotSteps = some b ∧ a.s.fea = b.s.fea ∧ a.P = b.P := by
  have hl : ∀ e ∈ demoSlotSteps, e.Live demoFilter.u := by
    intro e he
    simp only [demoSlotSteps, List.mem_cons, List.not_mem_nil, or_false] at he
    rcases he with rfl | rfl | rfl | rfl | rfl | rfl | rfl
    · show (0 : ℝ) < 0.01; norm_num
    · exact ⟨by norm_num [demoMeas, Quat.IsUnit, Quat.normSq], isCov_one, strictPos_one⟩
    · trivial
    · trivial
    · intro o P ho hr
      refine ⟨fun i => ⟨rfl, (demoState_unit true 0).nor 0, (fun h => by cases h), fun _ _ _ => .inl rfl⟩, ho.unit.aux, fun r hr => ?_⟩
      simp only [List.mem_singleton] at hr; subst hr; exact isCov_one
    · intro o P c h
      simp only [Option.some.injEq] at h
      subst h
      exact ⟨isCov_one, strictPos_one, rfl, 0, rfl⟩
    · show (0 : ℝ) < 0.01; norm_num
  have hQ : IsCov demoOther.P := by
    refine ⟨by simp [demoOther], fun v => ?_⟩
    simp only [demoOther, dotProduct, Matrix.mulVec_diagonal]
    refine Finset.sum_nonneg fun a _ => ?_
    split_ifs <;> nlinarith [mul_self_nonneg (v a)]
  have hS : SlotApart (fun _ => false) demoFilter demoOther := by
    refine ⟨⟨rfl, fun i hi => by cases hi⟩, fun a b ha hb => ?_, rfl⟩
    simp only [demoFilter, demoOther]
    by_cases hab : a = b
    · subst hab; simp [ha]
    · rw [Matrix.one_apply_ne hab, Matrix.diagonal_apply_ne _ hab]
  obtain ⟨a, b, h1, h2, h3, -, -⟩ := C106_proper demoFCfg demoFCfg_ok strictPos_one strictPos_one demoSlot_run hS hl demoFilter_live
    ⟨⟨demoState_unit _ _, fun _ => rfl, fun _ => fun h => by cases h⟩, demoState_ready _ _, hQ, Quat.isUnit_one⟩
  refine ⟨a, b, h1, h2, funext fun i => h3.x.fea i rfl, ?_⟩
  ext c d
  exact h3.P c d (by cases c <;> rfl) (by cases d <;> rfl)

end Rovio
