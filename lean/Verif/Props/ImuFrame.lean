import Verif.Lemmas.ImuFrame3
import Verif.Props.ExtFrame
import Verif.Model.OutputCov

/-!
# Property C103: the axes of the IMU are arbitrary

The body frame of the filter is that of the IMU.  Mounting the IMU in another orientation at the same place, or naming its axes differently, with the calibration converted accordingly, changes
nothing in what the filter estimates about cameras, features and the trajectory, as long as the configured noise does not prefer one of the axes.
-/

namespace Rovio

open Matrix Spec Distance

variable {n nCam nPose : ℕ}

/-- **C103.** Two filters that differ by the axes of the IMU receive the same motion, images, velocities and poses, the IMU measurements along their axes.  Then both runs are undefined, or
both end in states that differ by the axes only. -/
theorem C103_run (f : ImuFrame) (hq : f.q.IsUnit) (cfg : FCfg n (nCam + 1) nPose) :
    ∀ (es : List (Step n (nCam + 1) nPose)) (x y : FSt n (nCam + 1) nPose), NoPreferredAxis cfg x.u.body → ExtFrame.Apart x.u → f.Moved x y →
      Both f.Moved (x.run cfg es) (y.run (f.cfg cfg) (es.map f.step))
  | [], _, _, _, _, hm => .some hm
  | e :: es, x, y, hn, ha, hm => by
    rw [List.map_cons, FSt.run_cons, FSt.run_cons]
    have hs := ImuFrame.step_moved hq cfg hn ha hm e
    have hk := fun z => ExtFrame.step_kept (cfg := cfg) (x := x) (z := z) (e := e)
    revert hs hk
    generalize x.step cfg e = a
    generalize y.step (f.cfg cfg) (f.step e) = b
    intro hs hk
    cases hs with
    | none => exact .none
    | some hs =>
      have k := hk _ rfl
      exact C103_run f hq cfg es _ _ (by rw [k.body]; exact hn) (k.apart ha) hs

/-- **C103, what stays.** Position, features, camera poses and velocities, the camera part of the output's covariance (before the noise of the gyroscope is added), the recorded external pose, the
pose of the frame of the external poses, and all covariances between quantities that are not expressed along the axes of the IMU. -/
theorem C103_same (f : ImuFrame) (hq : f.q.IsUnit) (x y : FSt n nCam nPose) (hm : f.Moved x y) :
    y.s.pos = x.s.pos ∧ y.s.fea = x.s.fea ∧ (∀ c, y.s.camOut c = x.s.camOut c) ∧ (∀ c, y.s.WrWC c = x.s.WrWC c ∧ y.s.qCW c = x.s.qCW c) ∧
    (∀ c, State.stdMat (y.s.camJac c) * y.P * (State.stdMat (y.s.camJac c))ᵀ = State.stdMat (x.s.camJac c) * x.P * (State.stdMat (x.s.camJac c))ᵀ) ∧
    y.s.aux.poseMeasLin = x.s.aux.poseMeasLin ∧ y.s.aux.poseMeasRot = x.s.aux.poseMeasRot ∧
    (∀ j, x.u.body ≠ some j → y.s.pop j = x.s.pop j ∧ y.s.poa j = x.s.poa j) ∧
    ∀ a b : Ix n nCam nPose, Worldly x.u.body a → Worldly x.u.body b → y.P a b = x.P a b := by
  have hO : ∀ c, y.s.camOut c = x.s.camOut c := fun c => by
    rw [hm.s]
    have e1 : (f.state x.u.body x.s).aux.MwWMmeas - (f.state x.u.body x.s).gyb = f.vec (x.s.aux.MwWMmeas - x.s.gyb) := (ImuFrame.vec_sub _ _ _).symm
    have e2 : (f.state x.u.body x.s).vel = f.vec x.s.vel := rfl
    have e3 : (f.state x.u.body x.s).att = f.att x.s.att := rfl
    have e4 : (f.state x.u.body x.s).pos = x.s.pos := rfl
    have e5 : ∀ v, -f.vec v = f.vec (-v) := fun v => (Quat.rotate_neg _ _).symm
    simp only [State.camOut, ImuFrame.qCM_state, ImuFrame.MrMC_state, e1, e2, e3, e4, e5, V3.skew_mulVec, ImuFrame.vec_cross hq, ← ImuFrame.vec_add, ImuFrame.att_rotate hq,
      ImuFrame.att_mul_inv hq]
  refine ⟨by rw [hm.s]; rfl, by rw [hm.s]; rfl, hO, fun c => ⟨congrArg StdOut.WrWB (hO c), congrArg StdOut.qBW (hO c)⟩, fun c => ?_, by rw [hm.s]; rfl, by rw [hm.s]; rfl, fun j hj => ?_,
    fun a b ha hb => ?_⟩
  · have h := ImuFrame.camMat_moved hq x.u.body x.s c
    rw [hm.s, hm.P, ← h]
    simp only [ImuFrame.cov, Matrix.transpose_mul, Matrix.mul_assoc]
  · rw [hm.s]
    simp only [ImuFrame.state, if_neg hj, and_self]
  · rw [hm.P]
    exact ImuFrame.cov_worldly ha hb

/-- **C103, what turns.** Velocity, biases and the mounting of cameras and of the external body are the same, expressed along the new axes; so are their covariances. -/
theorem C103_turned (f : ImuFrame) (x y : FSt n nCam nPose) (hm : f.Moved x y) :
    y.s.vel = f.q.rotate x.s.vel ∧ y.s.acb = f.q.rotate x.s.acb ∧ y.s.gyb = f.q.rotate x.s.gyb ∧ y.s.att = x.s.att * f.q.inv ∧
    (∀ c, y.s.MrMC c = f.q.rotate (x.s.MrMC c) ∧ y.s.qCM c = x.s.qCM c * f.q.inv) ∧ y.s.aux.MwWMmeas = f.q.rotate x.s.aux.MwWMmeas ∧
    (∀ j, x.u.body = some j → y.s.pop j = f.q.rotate (x.s.pop j) ∧ y.s.poa j = x.s.poa j * f.q.inv) ∧
    y.P = f.mat x.u.body * x.P * (f.mat x.u.body)ᵀ := by
  refine ⟨by rw [hm.s]; rfl, by rw [hm.s]; rfl, by rw [hm.s]; rfl, by rw [hm.s]; rfl, fun c => ?_, by rw [hm.s]; rfl, fun j hj => ?_, hm.P⟩
  · rw [hm.s]; exact ⟨ImuFrame.MrMC_state _ c, ImuFrame.qCM_state _ c⟩
  · rw [hm.s]
    simp only [ImuFrame.state, if_pos hj]
    exact ⟨rfl, rfl⟩

/-- **C103, start.** Two filters started from the same estimate, with the same initial covariance without correlations that treats the axes of the IMU alike: after the same motion they
agree on everything of `C103_same`. -/
theorem C103_start (f : ImuFrame) (hq : f.q.IsUnit) (cfg : FCfg n (nCam + 1) nPose) (s : State n (nCam + 1) nPose) (p : Ix n (nCam + 1) nPose → ℝ) (u : PoseUpd nPose)
    (ha : ExtFrame.Apart u) (hn : NoPreferredAxis cfg u.body) (hp : NoPreferredAxis { cfg with q := p } u.body) (es : List (Step n (nCam + 1) nPose)) :
    Both f.Moved (FSt.run cfg ⟨s, Matrix.diagonal p, u⟩ es) (FSt.run (f.cfg cfg) ⟨f.state u.body s, Matrix.diagonal p, f.settings u⟩ (es.map f.step)) := by
  refine C103_run f hq cfg es _ _ hn ha ⟨rfl, ?_, rfl⟩
  have h := ImuFrame.tmat_diag (f := f) (k := u.body) hq false hp.vel hp.acb hp.gyb (fun h => by cases h) hp.vep hp.pop
  rw [ImuFrame.tmat_false] at h
  exact h.symm

/-! ## Non-vacuity -/

/-- The demonstration filter, with feedback of the poses and the mounting of the external body estimated. -/
noncomputable def demoMounted : FSt 1 2 1 := { demoFilter with u := { demoNoFeedback with noFeedback := false, inertial := none, body := some 0 } }

/-- The demonstration configuration, with an outlier test that does not depend on axes. -/
noncomputable def demoEven : FCfg 1 2 1 := { demoFCfg with gateZ := mahalanobis 9 }

/-- Half a turn about a tilted axis. -/
noncomputable def tiltedImu : ImuFrame := ⟨⟨0, 3 / 5, 0, 4 / 5⟩⟩

lemma demoEven_even (k : Option (Fin 1)) : NoPreferredAxis demoEven k :=
  ⟨fun _ _ => rfl, fun _ _ => rfl, fun _ _ => rfl, fun _ _ => rfl, fun _ _ _ => rfl, fun _ _ _ _ => rfl, ⟨1, by rw [one_smul]; rfl⟩, mahalanobis_axisFree 9⟩

/-- A run with every kind of step is defined for both filters; the first step is the same motion, measured along other axes; camera poses, features and uncertainty agree, and the velocity is the
same vector. -/
example : ∃ x' y', demoMounted.run demoEven demoSteps = some x' ∧
    FSt.run (tiltedImu.cfg demoEven) ⟨tiltedImu.state (some 0) (demoState true 0), 1, tiltedImu.settings demoMounted.u⟩ (demoSteps.map tiltedImu.step) = some y' ∧
      (demoSteps.map tiltedImu.step)[0]? = some (.predict ⟨tiltedImu.q.rotate ⟨0, 0, 10⟩, tiltedImu.q.rotate ⟨0.1, 0, 0⟩⟩ 0.01) ∧
      y'.s.pos = x'.s.pos ∧ y'.s.camOut 1 = x'.s.camOut 1 ∧ y'.s.fea = x'.s.fea ∧ y'.P (.pos 0) (.att 1) = x'.P (.pos 0) (.att 1) ∧ y'.s.vel = tiltedImu.q.rotate x'.s.vel := by
  have hl : demoMounted.Live := ⟨demoFilter_ok, demoState_ready _ _, isCov_one, Quat.isUnit_one⟩
  have hq : tiltedImu.q.IsUnit := by norm_num [tiltedImu, Quat.IsUnit, Quat.normSq]
  obtain ⟨x', hx, -⟩ := C78_run_succeeds demoEven ⟨fun _ => zero_le_one, isCov_one, isCov_one⟩ strictPos_one strictPos_one demoSteps demoMounted demoSteps_live hl
  have h := C103_start tiltedImu hq demoEven (demoState true 0) (fun _ => 1) demoMounted.u (fun j hj => by cases hj) (demoEven_even _) (demoEven_even _) demoSteps
  rw [Matrix.diagonal_one] at h
  change Both _ (demoMounted.run demoEven demoSteps) (FSt.run (tiltedImu.cfg demoEven) ⟨tiltedImu.state (some 0) (demoState true 0), 1, tiltedImu.settings demoMounted.u⟩ (demoSteps.map tiltedImu.step)) at h
  rw [hx] at h
  generalize FSt.run (tiltedImu.cfg demoEven) ⟨tiltedImu.state (some 0) (demoState true 0), 1, tiltedImu.settings demoMounted.u⟩ (demoSteps.map tiltedImu.step) = o at h ⊢
  cases h with
  | some h =>
    rename_i y'
    have a := C103_same tiltedImu hq x' y' h
    exact ⟨x', y', hx, rfl, rfl, a.1, a.2.2.1 1, a.2.1, a.2.2.2.2.2.2.2.2 _ _ trivial trivial, (C103_turned tiltedImu x' y' h).1⟩

/-! ## Findings -/

/-- **C103, finding.** The covariance of the camera output does depend on the axes: the noise of the gyroscope is added as it is given along the axes of the IMU to the covariance of the rate that is
expressed along those of the camera (include/rovio/CoordinateTransform/RovioOutput.hpp:145-147).  Two filters with the same motion, equal but for half a turn of the IMU about a tilted axis, report different
uncertainties of the same camera rate. -/
theorem C103_finding_camera_rate : ∃ (f : ImuFrame) (x y : FSt 1 2 1), f.q.IsUnit ∧ f.Moved x y ∧
    x.s.stdCov (x.s.camJac 0) x.P (.ror 0) (.ror 0) ≠ y.s.stdCov (y.s.camJac 0) y.P (.ror 0) (.ror 0) := by
  let f : ImuFrame := ⟨⟨0, 3 / 5, 0, 4 / 5⟩⟩
  let x : FSt 1 2 1 := { demoFilter with s := { demoState true 0 with aux := { (demoState true 0).aux with wMeasCov := ⟨⟨1, 0, 0⟩, ⟨0, 0, 0⟩, ⟨0, 0, 0⟩⟩ } } }
  let y : FSt 1 2 1 := ⟨f.state x.u.body x.s, f.cov x.u.body x.P, f.settings x.u⟩
  have hq : f.q.IsUnit := by norm_num [f, Quat.IsUnit, Quat.normSq]
  have hm : f.Moved x y := ⟨rfl, rfl, rfl⟩
  refine ⟨f, x, y, hq, hm, ?_⟩
  have h := congrFun (congrFun ((C103_same f hq x y hm).2.2.2.2.1 0) (.ror 0)) (.ror 0)
  have e1 : x.s.aux.wMeasCov.ent 0 0 = 1 := rfl
  have e2 : y.s.aux.wMeasCov.ent 0 0 = 49 / 625 := by
    change (f.tensor ⟨⟨1, 0, 0⟩, ⟨0, 0, 0⟩, ⟨0, 0, 0⟩⟩).ent 0 0 = _
    norm_num [M3.ent, ImuFrame.tensor, f, Quat.mat, M3.mul, M3.tr, M3.c1, M3.c2, M3.c3, V3.dot, V3.at]
  simp only [State.stdCov, State.postProcess]
  rw [h, e1, e2]
  intro hh
  have := add_left_cancel hh
  norm_num at this

end Rovio
