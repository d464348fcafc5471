import Verif.Lemmas.Gauge
import Verif.Props.FilterLive

/-!
# Property C95: origin and heading of the world frame are arbitrary

Only gravity ties the filter to the world.  A filter started in a world frame with another origin and another heading does the same in that frame: every
estimate is the one of the first filter expressed in the other frame, and everything that does not refer to the world frame is identical.
-/

namespace Rovio

open Matrix Spec Distance

variable {n nCam nPose : ℕ}

/-- **C95.** Two filters that differ by a change of the world frame (a turn about the vertical and a shift of the origin) receive the same IMU
measurements, images and velocities.  Then both runs are undefined, or both end in states that differ by the same change of the world frame. -/
theorem C95_run (g : Shift) (hg : g.Upright) (cfg : FCfg n (nCam + 1) nPose) (hq : cfg.q (.pos 0) = cfg.q (.pos 1)) :
    ∀ (es : List (Step n (nCam + 1) nPose)), (∀ e ∈ es, LocalStep e) → ∀ x y : FSt n (nCam + 1) nPose, g.Moved x y →
      Both g.Moved (x.run cfg es) (y.run cfg es)
  | [], _, _, _, h => .some h
  | e :: es, he, x, y, h => by
    unfold FSt.run
    rw [List.foldlM_cons, List.foldlM_cons]
    have hs := Shift.step_moved hg cfg hq (he e (by simp)) h
    revert hs
    generalize x.step cfg e = u
    generalize y.step cfg e = v
    intro hs
    cases hs with
    | none => exact .none
    | some hs => exact C95_run g hg cfg hq es (fun a ha => he a (by simp [ha])) _ _ hs

/-- **C95, outputs.** What the two filters report: camera poses differ by the change of the world frame; velocity (in the frame of the IMU), biases,
extrinsics, features, timers, and all variances and correlations that do not involve position and attitude are identical. -/
theorem C95_outputs (g : Shift) (hg : g.Upright) (x y : FSt n nCam nPose) (h : g.Moved x y) :
    (∀ c, y.s.WrWC c = g.z.rotate (x.s.WrWC c) + g.t) ∧ (∀ c, y.s.qCW c = x.s.qCW c * g.z.inv) ∧ (∀ c, y.s.qCW c * (g.z * (x.s.qCW c).inv) = x.s.qCW c * (x.s.qCW c).inv) ∧
    y.s.vel = x.s.vel ∧ y.s.acb = x.s.acb ∧ y.s.gyb = x.s.gyb ∧ (∀ c, y.s.MrMC c = x.s.MrMC c) ∧ (∀ c, y.s.qCM c = x.s.qCM c) ∧ y.s.fea = x.s.fea ∧ y.s.aux = x.s.aux ∧
    ∀ a b : Ix n nCam nPose, (∀ k, a ≠ .pos k ∧ a ≠ .att k) → (∀ k, b ≠ .pos k ∧ b ≠ .att k) → y.P a b = x.P a b := by
  have ho : ∀ a : Ix n nCam nPose, (∀ k, a ≠ .pos k ∧ a ≠ .att k) → a.isWorld = false := fun a ha => by
    cases a with
    | pos k => exact absurd rfl (ha k).1
    | att k => exact absurd rfl (ha k).2
    | _ => rfl
  rw [h.s]
  have q : ∀ c, (g.state x.s).qCW c = x.s.qCW c * g.z.inv := fun c => by
    have : (g.state x.s).qCW c = x.s.qCM c * (g.z * x.s.att).inv := rfl
    rw [this, Quat.mul_inv_rev, ← Quat.mul_assoc']; rfl
  refine ⟨fun c => ?_, q, fun c => ?_, rfl, rfl, rfl, fun _ => rfl, fun _ => rfl, rfl, rfl, fun a b ha hb => ?_⟩
  · have : (g.state x.s).WrWC c = g.z.rotate x.s.pos + g.t + (g.z * x.s.att).rotate (x.s.MrMC c) := rfl
    rw [this, Quat.rotate_mul, State.WrWC, Quat.rotate_add]
    ext <;> simp <;> ring
  · rw [q, Quat.mul_assoc', ← Quat.mul_assoc' g.z.inv, Quat.inv_mul_self hg.unit]
    congr 1
    ext <;> simp
  · rw [h.P]; exact Shift.cov_other g x.P (ho a ha) (ho b hb)

/-- **C95, reset.** Resetting to a pose given in the other frame gives the moved state, and an initial covariance without correlations that treats both
horizontal directions alike is the same in both frames: a user may choose origin and heading freely when resetting to a pose. -/
theorem C95_reset (g : Shift) (hg : g.Upright) (cfg : FCfg n (nCam + 1) nPose) (hq : cfg.q (.pos 0) = cfg.q (.pos 1)) (s : State n (nCam + 1) nPose)
    (p : Ix n (nCam + 1) nPose → ℝ) (hp : p (.pos 0) = p (.pos 1)) (ha : p (.att 0) = p (.att 1)) (u : PoseUpd nPose) (WrWM : V3) (qMW : Quat)
    (es : List (Step n (nCam + 1) nPose)) (he : ∀ e ∈ es, LocalStep e) :
    Both g.Moved (FSt.run cfg ⟨s.initWithImuPose WrWM qMW, Matrix.diagonal p, u⟩ es)
      (FSt.run cfg ⟨s.initWithImuPose (g.z.rotate WrWM + g.t) (qMW * g.z.inv), Matrix.diagonal p, u⟩ es) := by
  refine C95_run g hg cfg hq es he _ _ ⟨?_, (Shift.cov_diag hg hp ha).symm, rfl⟩
  have : (qMW * g.z.inv).inv = g.z * qMW.inv := by rw [Quat.mul_inv_rev]; congr 1; ext <;> simp
  simp only [State.initWithImuPose, Shift.state, this]

/-! ## Non-vacuity -/

/-- A quarter turn to the left and three metres. -/
noncomputable def quarter : Shift := ⟨⟨Real.sqrt (1 / 2), 0, 0, Real.sqrt (1 / 2)⟩, ⟨3, 0, 0⟩⟩

lemma quarter_upright : quarter.Upright := by
  refine ⟨?_, rfl, rfl⟩
  simp only [Quat.IsUnit, Quat.normSq, quarter]
  rw [Real.sq_sqrt (by norm_num)]; norm_num

lemma quarter_rotate (v : V3) : quarter.z.rotate v = ⟨-v.y, v.x, v.z⟩ := by
  have h : Real.sqrt (1 / 2) ^ 2 = 1 / 2 := Real.sq_sqrt (by norm_num)
  ext
  · simp only [Quat.rotate, quarter]; linear_combination (-2 * v.y) * h
  · simp only [Quat.rotate, quarter]; linear_combination (2 * v.x) * h
  · simp only [Quat.rotate, quarter]; linear_combination (2 * v.z) * h

/-- The moved filter of a filter. -/
noncomputable def Spec.Shift.fst (g : Shift) (x : FSt n nCam nPose) : FSt n nCam nPose := ⟨g.state x.s, g.cov x.P, x.u⟩

/-- A run with predictions, velocities, an image correction, feature management and a zero velocity update: it is defined in both frames and the results
differ by the quarter turn. -/
example : (demoSteps.filter fun e => !e.isPose).length = 5 ∧
    ∃ x' y', demoFilter.run demoFCfg (demoSteps.filter fun e => !e.isPose) = some x' ∧ (quarter.fst demoFilter).run demoFCfg (demoSteps.filter fun e => !e.isPose) = some y' ∧
      y'.s.pos = ⟨-x'.s.pos.y + 3, x'.s.pos.x, x'.s.pos.z⟩ ∧ y'.s.vel = x'.s.vel := by
  refine ⟨rfl, ?_⟩
  have hl : ∀ e ∈ demoSteps.filter fun e => !e.isPose, LocalStep e := by
    intro e he
    simp only [demoSteps, List.mem_filter, List.mem_cons, List.not_mem_nil, or_false] at he
    obtain ⟨he, hp⟩ := he
    rcases he with rfl | rfl | rfl | rfl | rfl | rfl | rfl
    · trivial
    · simp [Step.isPose] at hp
    · trivial
    · exact fun _ _ _ _ _ _ => rfl
    · intro o o' P P' h _
      have h1 : o.fea = o'.fea := congrArg (fun s => s.fea) h
      have h2 : o.aux = o'.aux := congrArg (fun s => s.aux) h
      simp only [h1, h2]
    · exact fun _ _ _ => rfl
    · simp [Step.isPose] at hp
  obtain ⟨x', hx, -⟩ := C78_run_succeeds _ demoFCfg_ok strictPos_one strictPos_one (demoSteps.filter fun e => !e.isPose) demoFilter
    (fun e he => demoSteps_live e (List.mem_of_mem_filter he)) demoFilter_live
  have h := C95_run quarter quarter_upright demoFCfg rfl (demoSteps.filter fun e => !e.isPose) hl demoFilter (quarter.fst demoFilter) ⟨rfl, rfl, rfl⟩
  rw [hx] at h
  generalize hy : (quarter.fst demoFilter).run demoFCfg (demoSteps.filter fun e => !e.isPose) = o at h
  cases h with
  | some h =>
    rename_i y'
    refine ⟨x', y', hx, rfl, ?_, by rw [h.s]; rfl⟩
    have : y'.s.pos = quarter.z.rotate x'.s.pos + quarter.t := by rw [h.s]; rfl
    rw [this, quarter_rotate]
    ext <;> simp [quarter]

/-! ## Finding -/

lemma predict_pos (cfg : FCfg n (nCam + 1) nPose) (x : FSt n (nCam + 1) nPose) (hP : x.P = 0) (m : ImuMeas) (dt : ℝ) (hdt : 0 < dt) (x' : FSt n (nCam + 1) nPose)
    (hx : x.step cfg (.predict m dt) = some x') (k : Fin 3) : x'.P (.pos k) (.pos k) = dt * cfg.q (.pos k) := by
  simp only [FSt.step, FSt.predict, Option.bind_eq_bind, Option.bind_eq_some_iff, Option.pure_def, Option.some.injEq] at hx
  obtain ⟨F, -, G, hG, s, -, rfl⟩ := hx
  have hrow : ∀ b, G (.pos k) b = if Ix.pos k = b then Real.sqrt dt else 0 := by
    intro b
    have h := colMat_some hG b
    simp only [State.noiseJac, Option.map_map, Option.map_eq_some_iff] at h
    obtain ⟨v, -, he⟩ := h
    rw [← congrFun he (.pos k)]
    simp only [Function.comp, DState.get, State.noiseJacOf, M3.smul_mulVec, M3.one_mulVec]
    cases hb : b.isWorld with
    | false =>
      rw [(Shift.unit_other hb).1, if_neg (by rintro rfl; cases hb)]
      fin_cases k <;> simp [V3.at]
    | true =>
      cases b with
      | pos l =>
        rw [(Shift.unit_pos l).1]
        fin_cases k <;> fin_cases l <;> simp [V3.at, Shift.e3]
      | att l =>
        rw [(Shift.unit_att l).2]
        fin_cases k <;> simp [V3.at]
      | _ => cases hb
  have hGG : (G * Matrix.diagonal cfg.q * Gᵀ) (.pos k) (.pos k) = dt * cfg.q (.pos k) := by
    rw [Matrix.mul_apply]
    simp only [Matrix.mul_diagonal, Matrix.transpose_apply, hrow, ite_mul, zero_mul, mul_ite, mul_zero, Finset.sum_ite_eq, Finset.mem_univ, if_true]
    have := Real.mul_self_sqrt hdt.le
    linear_combination cfg.q (.pos k) * this
  simp only [hP, Matrix.mul_zero, Matrix.zero_mul, zero_add, symm, Matrix.smul_apply, Matrix.add_apply, Matrix.transpose_apply, hGG, smul_eq_mul]
  norm_num; ring

/-- **Finding (a boundary of C95).** The assumption on the position noise is needed: the two horizontal directions of the prediction noise can be
configured independently (`pos_0`, `pos_1` of the prediction, include/rovio/FilterStates.hpp:474-520), and any difference makes the heading of the
world frame matter.  After one prediction the covariance in a frame turned by a quarter is not the turned covariance. -/
theorem C95_finding_horizontal_noise (cfg : FCfg n (nCam + 1) nPose) (hq : cfg.q (.pos 0) ≠ cfg.q (.pos 1)) (x : FSt n (nCam + 1) nPose) (hP : x.P = 0)
    (m : ImuMeas) (dt : ℝ) (hdt : 0 < dt) (x' y' : FSt n (nCam + 1) nPose) (hx : x.step cfg (.predict m dt) = some x')
    (hy : (quarter.fst x).step cfg (.predict m dt) = some y') : quarter.Moved x (quarter.fst x) ∧ ¬ quarter.Moved x' y' := by
  refine ⟨⟨rfl, rfl, rfl⟩, fun h => hq ?_⟩
  have h1 := predict_pos cfg x hP m dt hdt x' hx
  have h2 := predict_pos cfg (quarter.fst x) (by simp [Shift.fst, hP, Shift.cov]) m dt hdt y' hy
  have h3 : y'.P (.pos 0) (.pos 0) = x'.P (.pos 1) (.pos 1) := by
    rw [h.P]
    have e : ∀ l : Fin 3, quarter.rot 0 l = if l = 1 then -1 else 0 := by
      intro l
      simp only [Shift.rot, quarter_rotate]
      fin_cases l <;> simp [V3.at]
    unfold Shift.cov
    rw [Matrix.mul_assoc, Shift.mat_mul_pos]
    simp only [e, ite_mul, zero_mul, Finset.sum_ite_eq', Finset.mem_univ, if_true]
    rw [← Matrix.transpose_apply (x'.P * quarter.matᵀ), Matrix.transpose_mul, Matrix.transpose_transpose, Shift.mat_mul_pos]
    simp only [e, ite_mul, zero_mul, Finset.sum_ite_eq', Finset.mem_univ, if_true, Matrix.transpose_apply]
    ring
  rw [h1, h2] at h3
  exact mul_left_cancel₀ hdt.ne' h3

lemma moved_live {g : Shift} (hg : g.Upright) {x : FSt n nCam nPose} (hP : x.P = 0) (h : x.Live) : (g.fst x).Live := by
  refine ⟨⟨⟨hg.unit.mul h.ok.unit.att, h.ok.unit.vea, h.ok.unit.aux, h.ok.unit.poa, h.ok.unit.nor⟩, h.ok.nor, h.ok.proj⟩, ⟨h.ready.nor, h.ready.warp⟩, ?_, h.unitVM⟩
  have : (g.fst x).P = x.P := by simp [Shift.fst, hP, Shift.cov]
  rw [this]; exact h.cov

/-- The finding happens: with noise 1 in one direction and 2 in the other both predictions are defined. -/
example : ∃ (cfg : FCfg 1 2 1) (x x' y' : FSt 1 2 1), x.step cfg (.predict ⟨⟨0, 0, 10⟩, ⟨0.1, 0, 0⟩⟩ 0.01) = some x' ∧
    (quarter.fst x).step cfg (.predict ⟨⟨0, 0, 10⟩, ⟨0.1, 0, 0⟩⟩ 0.01) = some y' ∧ quarter.Moved x (quarter.fst x) ∧ ¬ quarter.Moved x' y' := by
  let cfg : FCfg 1 2 1 := { demoFCfg with q := fun a => if a = .pos 0 then 2 else 1 }
  have hc : cfg.NoiseOk := ⟨fun a => by simp only [cfg]; split_ifs <;> norm_num, isCov_one, isCov_one⟩
  let x : FSt 1 2 1 := { demoFilter with P := 0 }
  have hx : x.Live := ⟨demoFilter_ok, demoState_ready _ _, ⟨by simp [x], fun v => by simp [x]⟩, Quat.isUnit_one⟩
  have hlive : ∀ u, (Step.predict ⟨⟨0, 0, 10⟩, ⟨0.1, 0, 0⟩⟩ 0.01 : Step 1 2 1).Live u := fun u => by show (0 : ℝ) < 0.01; norm_num
  obtain ⟨x', h1, -, -⟩ := FSt.step_live hc strictPos_one strictPos_one (hlive _) hx
  obtain ⟨y', h2, -, -⟩ := FSt.step_live hc strictPos_one strictPos_one (hlive _) (moved_live quarter_upright rfl hx)
  exact ⟨cfg, x, x', y', h1, h2, C95_finding_horizontal_noise cfg (by simp [cfg]) x rfl _ _ (by norm_num) _ _ h1 h2⟩

end Rovio
