import Verif.Props.Node
import Verif.Props.ImuPrediction

/-! # C43, C59: published poses and initialisation -/

namespace Rovio

open Node Node.St

variable {n nCam nPose : ℕ} {Img : Type}

lemma msgQuat_eq (q : Quat) : msgQuat q = -q.inv := by
  simp only [msgQuat, Quat.inv]
  change (_ : Quat) = ⟨-q.w, - -q.x, - -q.y, - -q.z⟩
  simp

lemma rotate_negQuat (q : Quat) (v : V3) : (-q).rotate v = q.rotate v := by
  change Quat.rotate ⟨-q.w, -q.x, -q.y, -q.z⟩ v = _
  ext <;> simp [Quat.rotate]

lemma inv_negQuat (q : Quat) : (-q).inv = -q.inv := by
  change Quat.inv ⟨-q.w, -q.x, -q.y, -q.z⟩ = ⟨-q.w, - -q.x, - -q.y, - -q.z⟩
  rfl

lemma isUnit_negQuat {q : Quat} (h : q.IsUnit) : (-q).IsUnit := by
  change (⟨-q.w, -q.x, -q.y, -q.z⟩ : Quat).normSq = 1
  have h : q.normSq = 1 := h
  simp only [Quat.normSq] at h ⊢; linarith

/-- The orientations in the messages are the rotations from IMU to world, from camera to IMU and from the pose sensor's world
frame alignment: each maps every vector exactly as the corresponding attitude of the filter, and is a unit quaternion. -/
theorem C43_messages (s : State n nCam nPose) (v : V3) :
    (msgQuat s.imuOut.qBW).rotate v = s.att.rotate v ∧ (s.att.IsUnit → (msgQuat s.imuOut.qBW).IsUnit) ∧
    (∀ c, (msgQuat (s.qCM c)).rotate v = (s.qCM c).inv.rotate v ∧ ((s.qCM c).IsUnit → (msgQuat (s.qCM c)).IsUnit)) ∧
    (∀ p, (msgQuat (s.poa p)).rotate v = (s.poa p).inv.rotate v ∧ ((s.poa p).IsUnit → (msgQuat (s.poa p)).IsUnit)) := by
  have hinv : ∀ {q : Quat}, q.IsUnit → q.inv.IsUnit := by
    intro q h
    have h : q.normSq = 1 := h
    change q.inv.normSq = 1
    simp only [Quat.normSq, Quat.inv] at h ⊢; linarith
  refine ⟨?_, ?_, ?_, ?_⟩
  · rw [msgQuat_eq, rotate_negQuat]; simp [State.imuOut, Quat.inv]
  · intro h; rw [msgQuat_eq]; exact isUnit_negQuat (hinv (hinv h))
  · intro c; rw [msgQuat_eq, rotate_negQuat]; exact ⟨rfl, fun h => isUnit_negQuat (hinv h)⟩
  · intro c; rw [msgQuat_eq, rotate_negQuat]; exact ⟨rfl, fun h => isUnit_negQuat (hinv h)⟩

/-- Feeding a published pose to the reset-to-pose service: after any history with no reset outstanding, and with any messages in
between, the next IMU message restarts the filter from a state with the same position and the same rotation as the state the pose
was published from; everything else is taken from the configured initial state. -/
theorem C43_roundtrip (setFromVectors : V3 → V3 → Quat) (s s₀ : State n (nCam + 1) nPose) (timeOffset : ℝ) (qMW : Quat) (pose : PoseMeas)
    (es es' : List (Ev Img)) (hp : pending es = none) (hes' : ∀ e ∈ es', e.isImu = false) (acc gyr : V3) (t : ℝ) :
    let st := (run timeOffset (construct qMW pose : St nCam Img) (es ++ [.resetToPose s.imuOut.WrWB (msgQuat s.imuOut.qBW)])).1
    let calls := (run timeOffset st (es' ++ [.imu acc gyr t])).2
    let s₁ := calls.foldl (initAfter setFromVectors) s₀
    calls.length = 1 ∧ s₁.pos = s.pos ∧ (∀ v, s₁.att.rotate v = s.att.rotate v) ∧ s₁ = { s₀ with pos := s₁.pos, att := s₁.att } := by
  intro st calls s₁
  obtain ⟨h1, _, _⟩ := C54_waiting (nCam := nCam) timeOffset qMW pose (es ++ [.resetToPose s.imuOut.WrWB (msgQuat s.imuOut.qBW)]) es' _
    (C54_request es hp s.imuOut.WrWB (msgQuat s.imuOut.qBW)).1 hes' acc gyr t
  have hc : calls = [.resetWithPose s.imuOut.WrWB (msgQuat s.imuOut.qBW).inv t] := h1
  have hs₁ : s₁ = s₀.initWithImuPose s.imuOut.WrWB (msgQuat s.imuOut.qBW).inv := by
    change calls.foldl (initAfter setFromVectors) s₀ = _
    rw [hc]; rfl
  refine ⟨by rw [hc]; rfl, by rw [hs₁]; rfl, ?_, by rw [hs₁]; rfl⟩
  intro v
  rw [hs₁]
  have : (s₀.initWithImuPose s.imuOut.WrWB (msgQuat s.imuOut.qBW).inv).att = msgQuat s.imuOut.qBW := by
    simp [State.initWithImuPose, Quat.inv]
  rw [this]
  exact (C43_messages s v).1

/-- Non-vacuity: the demonstration state after initialisation, with a velocity and a failed image in between. -/
example (acc gyr : V3) (t : ℝ) : pending ([.imu 0 0 1] : List (Ev ℕ)) = none ∧
    (∀ e ∈ ([.velocity 0 1, .image false none 2] : List (Ev ℕ)), e.isImu = false) ∧ (demoState true 0).att.IsUnit := by
  refine ⟨rfl, by simp [Ev.isImu], isUnit_demo⟩

/-! ## C59 -/

/-- Initialising from an accelerometer reading of norm above 1e-6 gives an attitude that turns the reading to the upward vertical
of the world frame; otherwise the identity.  Nothing else changes. -/
theorem C59_gravity (setFromVectors : V3 → V3 → Quat) (hset : Spec.SetFromVectors setFromVectors) (s : State n nCam nPose) (f : V3) :
    let s' := State.initWithAccelerometer setFromVectors s f
    s'.att.IsUnit ∧ (1e-6 < f.norm → s'.att.rotate f = ⟨0, 0, f.norm⟩) ∧ (f.norm ≤ 1e-6 → ∀ v, s'.att.rotate v = v) ∧
    s' = { s with att := s'.att } := by
  intro s'
  by_cases hf : f.norm > 1e-6
  · have hs : s' = { s with att := setFromVectors f ⟨0, 0, 1⟩ } := if_pos hf
    have h0 : f ≠ 0 := by
      rintro rfl
      rw [show (0 : V3).norm = 0 by simp [V3.norm, V3.normSq]] at hf
      norm_num at hf
    have hz : (⟨0, 0, 1⟩ : V3) ≠ 0 := by
      intro h; have := congrArg V3.z h; simp at this
    refine ⟨by rw [hs]; exact hset.unit _ _ h0 hz, fun _ => ?_, fun h => absurd h (not_le.mpr hf), by rw [hs]⟩
    rw [hs]
    change (setFromVectors f ⟨0, 0, 1⟩).rotate f = _
    generalize hq : setFromVectors f ⟨0, 0, 1⟩ = q
    have hm := hset.maps f ⟨0, 0, 1⟩ h0 hz
    rw [hq] at hm
    conv_lhs => rw [← V3.norm_smul_normalized h0]
    rw [Quat.rotate_smul, hm]
    have h1 : (⟨0, 0, 1⟩ : V3).norm = 1 := by simp [V3.norm, V3.normSq]
    ext <;> simp [V3.normalized, h1]
  · have hs : s' = { s with att := Quat.one } := if_neg hf
    refine ⟨by rw [hs]; exact Quat.isUnit_one, fun h => absurd h hf, fun _ v => ?_, by rw [hs]⟩
    rw [hs]; exact Quat.rotate_one v

/-- Non-vacuity: `setFromVectors` with the assumed contract exists, and readings of both kinds. -/
example : (∃ f, Spec.SetFromVectors f) ∧ 1e-6 < (⟨0, 3, 4⟩ : V3).norm ∧ (0 : V3).norm ≤ 1e-6 := by
  refine ⟨exists_setFromVectors, ?_, ?_⟩
  · have : (⟨0, 3, 4⟩ : V3).norm = 5 := by
      simp only [V3.norm, V3.normSq]
      rw [show (0 : ℝ) ^ 2 + 3 ^ 2 + 4 ^ 2 = 5 * 5 by norm_num]
      exact Real.sqrt_mul_self (by norm_num)
    rw [this]; norm_num
  · rw [show (0 : V3).norm = 0 by simp [V3.norm, V3.normSq]]; norm_num

/-- Consequence: a filter initialised at rest from an accelerometer reading of gravity's magnitude (zero initial velocity and
biases) does not drift: the same reading and a zero gyroscope reading leave it exactly where it is. -/
theorem C59_no_drift (setFromVectors : V3 → V3 → Quat) (hset : Spec.SetFromVectors setFromVectors) (s : State n nCam nPose) (hr : Ready s)
    (hu : UnitState s) (f : V3) (hf : f.norm = 9.81) (hv : s.vel = 0) (ha : s.acb = 0) (hg : s.gyb = 0) (cfg : PredCfg) (out : State n nCam nPose)
    (dt : ℝ) (hdt : 0 < dt) :
    ∃ s', State.evalPrediction cfg ⟨f, 0⟩ true out (State.initWithAccelerometer setFromVectors s f) 0 dt = some s' ∧
      SamePlatform (State.initWithAccelerometer setFromVectors s f) s' ∧ s'.pos = s.pos := by
  obtain ⟨h1, h2, _, h4⟩ := C59_gravity setFromVectors hset s f
  have h2 := h2 (by rw [hf]; norm_num)
  set s₁ := State.initWithAccelerometer setFromVectors s f
  have hu₁ : UnitState s₁ := by rw [h4]; exact { hu with att := h1 }
  have hr₁ : Ready s₁ := by rw [h4]; exact { hr with }
  have e1 : s₁.acb = s.acb := by rw [h4]
  have e2 : s₁.vel = s.vel := by rw [h4]
  have e3 : s₁.gyb = s.gyb := by rw [h4]
  have e4 : s₁.pos = s.pos := by rw [h4]
  obtain ⟨s', g1, g2, g3, _⟩ := C73_rest s₁ hr₁ hu₁ cfg ⟨f, 0⟩ out dt hdt (e2.trans hv) (by rw [e3, hg]) (by
    rw [e1, ha]
    change s₁.att.rotate (f - 0) = _
    rw [show f - 0 = f by ext <;> simp, h2, hf])
  exact ⟨s', g1, g2, g3.trans e4⟩

/-- Finding: initialisation from the accelerometer keeps the position of an earlier reset to a pose: a `reset` after a
`reset_to_pose` restarts at the old pose's position, not at the configured one. -/
theorem C59_finding_position (setFromVectors : V3 → V3 → Quat) (s₀ : State n (nCam + 1) nPose) (timeOffset : ℝ) (qMW : Quat) (pose : PoseMeas)
    (pos : V3) (q : Quat) (a b c d : V3) (t t' t'' : ℝ) :
    ((run timeOffset (construct qMW pose : St nCam Img) [.imu a b t, .resetToPose pos q, .imu c d t', .reset, .imu a b t'']).2.foldl
      (initAfter setFromVectors) s₀).pos = pos := by
  have h : (run timeOffset (construct qMW pose : St nCam Img) [.imu a b t, .resetToPose pos q, .imu c d t', .reset, .imu a b t'']).2 =
      [.resetWithAccel a t, .resetWithPose pos q.inv t', .resetWithAccel a t''] := by
    simp [run, step, imuCallback, requestReset, requestResetToPose, construct]
  rw [h]
  simp only [List.foldl, initAfter, State.initWithAccelerometer]
  split_ifs <;> rfl

end Rovio
