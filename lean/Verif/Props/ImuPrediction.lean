import Verif.Lemmas.ImuPrediction

/-!
# C49, C50, C51, C73: the IMU-driven prediction

LWF's EKF prediction evaluates in place (`inPlace = true`) with zero noise; the Jacobians are taken at zero noise.
-/

namespace Rovio

open Spec Distance

variable {n nCam nPose : ℕ}

/-! ### Invariants -/

lemma PredFacts.ready {cfg : PredCfg} {m : ImuMeas} {s s' : State n nCam nPose} {w : DState n nCam nPose} {dt : ℝ} (h : PredFacts cfg m s w dt s') :
    Ready s' := by
  refine ⟨fun i => ?_, fun i a ha hw => ?_⟩
  · cases hc : camIdx nCam (s.fea i).c.camID with
    | none => rw [h.unused i hc]; simp [FC.setNor]
    | some a => exact (h.fea i a hc).validNor
  · cases hc : camIdx nCam (s.fea i).c.camID with
    | none =>
      rw [h.unused i hc] at ha
      simp only [FC.setNor, Bool.and_false, Bool.false_eq_true, if_false] at ha
      rw [hc] at ha; cases ha
    | some b =>
      have hf := h.fea i b hc
      exact .inl (hf.warp (by rw [← hf.track]; exact hw)).1

lemma PredFacts.unit {cfg : PredCfg} {m : ImuMeas} {s s' : State n nCam nPose} {w : DState n nCam nPose} {dt : ℝ} (h : PredFacts cfg m s w dt s')
    (hu : UnitState s) : UnitState s' := by
  refine ⟨?_, fun c => ?_, fun c => ?_, fun k => ?_, fun i => ?_⟩
  · rw [h.att]; exact hu.att.mul (Quat.isUnit_exp _)
  · cases hVE : s.aux.doVE with
    | false => rw [(h.vep hVE).2]; exact hu.vea c
    | true =>
      have := h.qCM c
      simp only [State.qCM, h.doVE, hVE, if_true] at this
      rw [this]; exact (Quat.isUnit_exp _).mul (hu.vea c)
  · cases hVE : s.aux.doVE with
    | true => rw [(h.aux hVE).2]; exact hu.aux c
    | false =>
      have := h.qCM c
      simp only [State.qCM, h.doVE, hVE, Bool.false_eq_true, if_false] at this
      rw [this]; exact (Quat.isUnit_exp _).mul (hu.aux c)
  · rw [h.poa]; exact (Quat.isUnit_exp _).mul (hu.poa k)
  · cases hc : camIdx nCam (s.fea i).c.camID with
    | none => rw [h.unused i hc]; simpa [FC.setNor] using hu.nor i
    | some a => rw [(h.fea i a hc).nor]; exact (Quat.isUnit_exp _).mul (hu.nor i)

/-! ### C49 -/

lemma V3.sub_self' (v : V3) : v - v = 0 := by ext <;> simp
lemma V3.zero_norm : (0 : V3).norm = 0 := V3.norm_eq_zero.mpr rfl

/-- Specification: apart from the position, the platform and the rig are as before. -/
structure SamePlatform (s s' : State n nCam nPose) : Prop where
  att : s'.att = s.att
  vel : s'.vel = s.vel
  acb : s'.acb = s.acb
  gyb : s'.gyb = s.gyb
  qCM : s'.qCM = s.qCM
  MrMC : s'.MrMC = s.MrMC
  pop : s'.pop = s.pop
  poa : s'.poa = s.poa

lemma noMeas_facts {s s' : State n nCam nPose} {cfg : PredCfg} {dt : ℝ} (h : PredFacts cfg s.noMeasCase s 0 dt s') :
    SamePlatform s s' ∧ s'.pos = s.pos + dt • s.att.rotate s.imuOut.BvB := by
  have hrot : dt • (s.noMeasCase.gyr - s.gyb + (1 / Real.sqrt dt) • (0 : DState n nCam nPose).att) = 0 := by
    simp only [State.noMeasCase, DState.zero_att]; ext <;> simp
  refine ⟨⟨?_, ?_, ?_, ?_, ?_, ?_, ?_, ?_⟩, ?_⟩
  · rw [h.att, hrot, Quat.exp_zero, Quat.mul_one']
  · rw [h.vel, hrot]
    simp only [M3.sub_mulVec, M3.one_mulVec, V3.skew_mulVec, State.noMeasCase, DState.zero_vel]
    generalize s.att.inv.rotate gravity = g
    ext <;> simp
  · rw [h.acb]; ext <;> simp
  · rw [h.gyb]; ext <;> simp
  · funext c; rw [h.qCM]; simp only [DState.zero_vea, V3.smul_zero', Quat.exp_zero, Quat.one_mul']
  · funext c; rw [h.MrMC]; simp only [DState.zero_vep, V3.smul_zero', V3.add_zero']
  · funext k; rw [h.pop]; simp only [DState.zero_pop, V3.smul_zero', V3.add_zero']
  · funext k; rw [h.poa]; simp only [DState.zero_poa, V3.smul_zero', Quat.exp_zero, Quat.one_mul']
  · rw [h.pos]
    simp only [DState.zero_pos, State.imuOut, Quat.rotate_neg]
    generalize s.att.rotate s.vel = v
    ext <;> simp <;> ring

/-- C49: with the substitute measurement used when no IMU data is available, the (noise-free) prediction succeeds, keeps attitude,
velocity, biases, extrinsics and alignments, moves the position with the current velocity (the published body velocity, rotated to
the world), reports a zero rotational rate, and is not classified as inertial motion. -/
theorem C49_no_measurement (s : State n nCam nPose) (hr : Ready s) (hu : UnitState s) (cfg : PredCfg) (hth : 0 ≤ cfg.rorTh ∧ 0 ≤ cfg.accTh)
    (out : State n nCam nPose) (dt : ℝ) (hdt : 0 < dt) :
    ∃ s', State.evalPrediction cfg s.noMeasCase true out s 0 dt = some s' ∧ SamePlatform s s' ∧
      s'.pos = s.pos + dt • s.att.rotate s.imuOut.BvB ∧ s'.imuOut.BwWB = 0 ∧
      s.detectInertialMotion cfg s.noMeasCase = false ∧ s'.detectInertialMotion cfg s.noMeasCase = false ∧
      s'.aux.tInertial = s.aux.tInertial + dt ∧ s'.aux.tImage = s.aux.tImage + dt := by
  obtain ⟨s', h1, h⟩ := evalPrediction_facts hr hu cfg s.noMeasCase out 0 hdt
  obtain ⟨hp, hpos⟩ := noMeas_facts h
  have hdet : ∀ x : State n nCam nPose, x.gyb = s.gyb → x.acb = s.acb → x.att = s.att → x.detectInertialMotion cfg s.noMeasCase = false := by
    intro x e1 e2 e3
    have ea : s.acb - s.att.inv.rotate gravity - s.acb + s.att.inv.rotate gravity = 0 := by
      generalize s.att.inv.rotate gravity = g
      ext <;> simp
    simp only [State.detectInertialMotion, State.noMeasCase, e1, e2, e3, V3.sub_self', ea, V3.zero_norm, Bool.or_eq_false_iff, decide_eq_false_iff_not]
    exact ⟨not_lt.mpr hth.1, not_lt.mpr hth.2⟩
  have hd' := hdet s' hp.gyb hp.acb hp.att
  refine ⟨s', h1, hp, hpos, ?_, hdet s rfl rfl rfl, hd', ?_, h.tImage⟩
  · simp only [State.imuOut, h.MwWMmeas, State.noMeasCase, hp.gyb, V3.sub_self']
  · rw [h.tInertial, hd']; rfl

/-- A run of predictions without measurements, over any sequence of time steps. -/
noncomputable def noMeasRun (cfg : PredCfg) (out : State n nCam nPose) : List ℝ → State n nCam nPose → Option (State n nCam nPose)
  | [], s => some s
  | dt :: l, s => (State.evalPrediction cfg s.noMeasCase true out s 0 dt).bind (noMeasRun cfg out l)

/-- C49: over any sequence of time steps without measurements the platform moves in a straight line at constant velocity and
keeps its attitude. -/
theorem C49_run (cfg : PredCfg) (hth : 0 ≤ cfg.rorTh ∧ 0 ≤ cfg.accTh) (out : State n nCam nPose) (dts : List ℝ) (hdt : ∀ x ∈ dts, 0 < x)
    (s : State n nCam nPose) (hr : Ready s) (hu : UnitState s) :
    ∃ s', noMeasRun cfg out dts s = some s' ∧ SamePlatform s s' ∧ s'.pos = s.pos + dts.sum • s.att.rotate s.imuOut.BvB ∧
      s'.aux.tInertial = s.aux.tInertial + dts.sum := by
  induction dts generalizing s with
  | nil => exact ⟨s, rfl, ⟨rfl, rfl, rfl, rfl, rfl, rfl, rfl, rfl⟩, by ext <;> simp, by simp⟩
  | cons dt l ih =>
    obtain ⟨s₁, e1, f1⟩ := evalPrediction_facts hr hu cfg s.noMeasCase out 0 (hdt dt (by simp))
    obtain ⟨s₁', e1', -, -, -, -, -, ht, -⟩ := C49_no_measurement s hr hu cfg hth out dt (hdt dt (by simp))
    rw [e1] at e1'
    obtain rfl : s₁ = s₁' := Option.some.inj e1'
    obtain ⟨p1, q1⟩ := noMeas_facts f1
    obtain ⟨s₂, e2, p2, q2, t2⟩ := ih (fun x hx => hdt x (by simp [hx])) s₁ f1.ready (f1.unit hu)
    refine ⟨s₂, by simp [noMeasRun, e1, e2], ⟨p2.att.trans p1.att, p2.vel.trans p1.vel, p2.acb.trans p1.acb, p2.gyb.trans p1.gyb,
      p2.qCM.trans p1.qCM, p2.MrMC.trans p1.MrMC, p2.pop.trans p1.pop, p2.poa.trans p1.poa⟩, ?_, ?_⟩
    · have eb : s₁.imuOut.BvB = s.imuOut.BvB := by simp only [State.imuOut, p1.vel]
      rw [q2, q1, p1.att, eb, List.sum_cons]
      generalize s.att.rotate s.imuOut.BvB = v
      ext <;> simp <;> ring
    · rw [t2, ht, List.sum_cons]; ring

/-- The demo state is ready and consistent. -/
lemma demoState_ready (b : Bool) (k : ℤ) : Ready (demoState b k) :=
  ⟨fun _ => rfl, fun _ _ _ _ => .inl rfl⟩

lemma demoState_unit (b : Bool) (k : ℤ) : UnitState (demoState b k) := by
  refine ⟨isUnit_demo, fun c => ?_, fun c => ?_, fun _ => Quat.isUnit_one, fun _ => Quat.isUnit_one⟩ <;>
  · simp only [demoState]; split_ifs
    · exact Quat.isUnit_one
    · exact isUnit_demo

/-- Non-vacuity of `C49_run`: a moving platform, a tenth and then half a second without measurements. -/
example : ∃ s', noMeasRun ⟨0.1, 0.1, M3.one⟩ (demoState false 0) [0.1, 0.5] (demoState false 0) = some s' ∧
    SamePlatform (demoState false 0) s' ∧
    s'.pos = (demoState false 0).pos + ([0.1, 0.5] : List ℝ).sum • (demoState false 0).att.rotate (demoState false 0).imuOut.BvB ∧
    s'.aux.tInertial = (demoState false 0).aux.tInertial + ([0.1, 0.5] : List ℝ).sum :=
  C49_run _ ⟨by norm_num, by norm_num⟩ _ _ (by simp; norm_num) _ (demoState_ready _ _) (demoState_unit _ _)

/-- **C49, finding: prediction into another state object.**  When the output object is not the input object, the prediction keeps the
output object's own settings and timers (whether extrinsics are estimated, the times since the last image and last motion, and the
extrinsics that are not estimated) instead of the input's, so the result depends on what the output object held before. -/
theorem C49_finding_not_in_place (cfg : PredCfg) (m : ImuMeas) (out s : State n nCam nPose) (w : DState n nCam nPose) (dt : ℝ) (s' : State n nCam nPose)
    (h : State.evalPrediction cfg m false out s w dt = some s') :
    s'.aux.doVE = out.aux.doVE ∧ s'.aux.tImage = out.aux.tImage + dt ∧
      s'.aux.tInertial = (if s.detectInertialMotion cfg m then 0 else out.aux.tInertial + dt) ∧
      (out.aux.doVE = false → s'.vep = out.vep) ∧ (out.aux.doVE = true → s'.aux.MrMC = out.aux.MrMC ∧ s'.aux.qCM = out.aux.qCM) := by
  unfold State.evalPrediction at h
  by_cases hdt : dt ≤ 0
  · simp [hdt] at h
  rw [if_neg hdt] at h
  simp only [Option.bind_eq_bind, Option.pure_def, Bool.false_eq_true, if_false] at h
  obtain ⟨g, -, h⟩ := Option.bind_eq_some_iff.mp h
  obtain ⟨r, hr, h⟩ := Option.bind_eq_some_iff.mp h
  unfold State.fix at hr
  simp only [Option.bind_eq_bind, Option.pure_def] at hr
  obtain ⟨g', -, hr⟩ := Option.bind_eq_some_iff.mp hr
  simp only [Option.some.injEq] at h hr
  subst hr
  subst h
  refine ⟨rfl, rfl, rfl, fun hd => ?_, fun hd => ?_⟩ <;> simp [hd]

/-- Non-vacuity of `C49_finding_not_in_place`: the time since the last image is that of the output object, 7 s, not the input's. -/
example : ∃ s', State.evalPrediction ⟨0.1, 0.1, M3.one⟩ (State.noMeasCase (demoState false 0)) false
      { demoState true 0 with aux := { (demoState true 0).aux with tImage := 7 } } (demoState false 0) 0 0.5 = some s' ∧
    s'.aux.doVE = true ∧ s'.aux.tImage = 7.5 := by
  have hr := demoState_ready false 0
  have hu := demoState_unit false 0
  suffices h : ∃ s', State.evalPrediction ⟨0.1, 0.1, M3.one⟩ (State.noMeasCase (demoState false 0)) false
      { demoState true 0 with aux := { (demoState true 0).aux with tImage := 7 } } (demoState false 0) 0 0.5 = some s' by
    obtain ⟨s', h⟩ := h
    obtain ⟨h1, h2, -⟩ := C49_finding_not_in_place _ _ _ _ _ _ _ h
    exact ⟨s', h, h1, by rw [h2]; norm_num⟩
  obtain ⟨t, ht, hf⟩ := evalPrediction_facts hr hu ⟨0.1, 0.1, M3.one⟩ (State.noMeasCase (demoState false 0)) (demoState false 0) 0 (dt := 0.5) (by norm_num)
  unfold State.evalPrediction at ht ⊢
  rw [if_neg (by norm_num)] at ht ⊢
  simp only [Option.bind_eq_bind, Option.pure_def] at ht ⊢
  obtain ⟨g, hg, ht⟩ := Option.bind_eq_some_iff.mp ht
  obtain ⟨r, hr', ht⟩ := Option.bind_eq_some_iff.mp ht
  rw [hg, Option.bind_some]
  unfold State.fix at hr' ⊢
  simp only [Option.bind_eq_bind, Option.pure_def] at hr' ⊢
  obtain ⟨g', hg', -⟩ := Option.bind_eq_some_iff.mp hr'
  simp only [hg', Option.bind_some]
  exact ⟨_, rfl⟩

/-! ### C73: platform kinematics -/

/-- C73: to first order in the time step the predicted platform obeys rigid-body kinematics: the position moves with the
published body velocity, the attitude turns with the bias-corrected rate, and the velocity in the world changes by the
bias-corrected specific force plus gravity `(0, 0, -9.81)`.  Stated with curves in the time step which the prediction follows for
every positive step. -/
theorem C73_kinematics (s : State n nCam nPose) (hr : Ready s) (hu : UnitState s) (cfg : PredCfg) (m : ImuMeas) (out : State n nCam nPose) :
    ∃ (p v : ℝ → V3) (q : ℝ → Quat),
      (∀ dt, 0 < dt → ∃ s', State.evalPrediction cfg m true out s 0 dt = some s' ∧ s'.pos = p dt ∧ s'.att = q dt ∧
        s'.att.rotate s'.imuOut.BvB = v dt) ∧
      p 0 = s.pos ∧ q 0 = s.att ∧ v 0 = s.att.rotate s.imuOut.BvB ∧
      HasDerivV3 p (s.att.rotate s.imuOut.BvB) 0 ∧
      HasAngVel q (s.att.rotate (m.gyr - s.gyb)) 0 ∧
      HasDerivV3 v (s.att.rotate (m.acc - s.acb) + ⟨0, 0, -9.81⟩) 0 := by
  have hq : HasAngVel (fun dt : ℝ => s.att * Quat.exp (dt • (m.gyr - s.gyb))) (s.att.rotate (m.gyr - s.gyb)) 0 := by
    have hl : HasDerivV3 (fun dt : ℝ => dt • (m.gyr - s.gyb)) (m.gyr - s.gyb) 0 :=
      (HasDerivV3.line (t := 0) 0 (m.gyr - s.gyb)).congr fun x => by ext <;> simp
    have h1 := hasAngVel_exp hl
    rw [show (0:ℝ) • (m.gyr - s.gyb) = 0 by ext <;> simp, Lmat_zero] at h1
    refine ((HasAngVel.const (t := 0) s.att).mul h1 hu.att).congr_deriv ?_
    generalize s.att.rotate (m.gyr - s.gyb) = x
    ext <;> simp
  have hv : HasDerivV3 (fun dt : ℝ => -(s.vel - dt • (m.gyr - s.gyb).cross s.vel - dt • (m.acc - s.acb + s.att.inv.rotate gravity)))
      ((m.gyr - s.gyb).cross s.vel + (m.acc - s.acb + s.att.inv.rotate gravity)) 0 :=
    (HasDerivV3.line (t := 0) (-s.vel) ((m.gyr - s.gyb).cross s.vel + (m.acc - s.acb + s.att.inv.rotate gravity))).congr fun x => by
      ext <;> simp <;> ring
  refine ⟨fun dt => s.pos + dt • s.att.rotate s.imuOut.BvB,
    fun dt => (s.att * Quat.exp (dt • (m.gyr - s.gyb))).rotate (-(s.vel - dt • (m.gyr - s.gyb).cross s.vel - dt • (m.acc - s.acb + s.att.inv.rotate gravity))),
    fun dt => s.att * Quat.exp (dt • (m.gyr - s.gyb)), fun dt hdt => ?_, ?_, ?_, ?_, HasDerivV3.line _ _, hq, ?_⟩
  · obtain ⟨s', e, f⟩ := evalPrediction_facts hr hu cfg m out 0 hdt
    have hz : m.gyr - s.gyb + (1 / Real.sqrt dt) • (0 : DState n nCam nPose).att = m.gyr - s.gyb := by
      simp only [DState.zero_att, V3.smul_zero', V3.add_zero']
    have hatt := f.att
    have hvel := f.vel
    rw [hz] at hatt hvel
    refine ⟨s', e, ?_, hatt, ?_⟩
    · rw [f.pos]
      simp only [DState.zero_pos, State.imuOut, Quat.rotate_neg]
      generalize s.att.rotate s.vel = v
      ext <;> simp <;> ring
    · rw [hatt]
      congr 1
      simp only [State.imuOut, hvel, M3.sub_mulVec, M3.one_mulVec, V3.skew_mulVec, DState.zero_vel]
      generalize s.att.inv.rotate gravity = g
      ext <;> simp <;> ring
  · ext <;> simp
  · simp only [show (0:ℝ) • (m.gyr - s.gyb) = 0 by ext <;> simp, Quat.exp_zero, Quat.mul_one']
  · simp only [show (0:ℝ) • (m.gyr - s.gyb) = 0 by ext <;> simp, Quat.exp_zero, Quat.mul_one', State.imuOut]
    congr 1
    ext <;> simp
  · refine (hq.rotate hv).congr_deriv ?_
    simp only [show (0:ℝ) • (m.gyr - s.gyb) = 0 by ext <;> simp, Quat.exp_zero, Quat.mul_one']
    have e0 : -(s.vel - (0:ℝ) • (m.gyr - s.gyb).cross s.vel - (0:ℝ) • (m.acc - s.acb + s.att.inv.rotate gravity)) = -s.vel := by
      ext <;> simp
    rw [e0, Quat.cross_rotate hu.att, ← Quat.rotate_add]
    have e1 : (m.gyr - s.gyb).cross (-s.vel) + ((m.gyr - s.gyb).cross s.vel + (m.acc - s.acb + s.att.inv.rotate gravity)) =
        m.acc - s.acb + s.att.inv.rotate gravity := by
      generalize s.att.inv.rotate gravity = g
      ext <;> simp <;> ring
    rw [e1, Quat.rotate_add, Quat.rotate_rotate_inv hu.att]
    rfl

/-! ### C50: static landmarks -/

/-- Specification: world position of the landmark described by slot `i`, seen by camera `a`. -/
noncomputable def State.worldPoint (s : State n nCam nPose) (i : Fin n) (a : Fin nCam) : V3 :=
  s.pos + s.att.rotate (Spec.bodyPoint (s.MrMC a) (s.qCM a) (getDistance (s.fea i).d) (s.fea i).c.nor.vec)

/-- The camera-frame coordinates of a landmark predicted for a small step. -/
lemma deriv_predicted_point {nor : Nor} (hn : nor.q.IsUnit) {d : FeatureDistance} (hun : Unclamped d.type d.p) (hd : getDistance d ≠ 0) (cv cr : V3) :
    HasDerivV3 (fun dt : ℝ => getDistance ⟨d.type, d.p - dt * getParameterDerivative d * nor.vec.dot cv⟩ •
      (nor.rotated (Quat.exp (-dt • ((1 / getDistance d) • (M3.skew nor.vec).mulVec cv + (M3.one - M3.outer nor.vec nor.vec).mulVec cr)))).vec)
      (-cv - cr.cross (getDistance d • nor.vec)) 0 := by
  have h1 : HasDerivAt (fun dt : ℝ => getDistance ⟨d.type, d.p - dt * getParameterDerivative d * nor.vec.dot cv⟩) (-nor.vec.dot cv) 0 := by
    have h := Fea.deriv_dist ⟨demoCoord none 0, d⟩ hun (-(getParameterDerivative d * nor.vec.dot cv))
    have e : getDistanceDerivative d * -(getParameterDerivative d * nor.vec.dot cv) = -nor.vec.dot cv := by
      have := C02_reciprocal d
      linear_combination (-nor.vec.dot cv) * this
    have e2 : (fun dt : ℝ => getDistance ⟨d.type, d.p - dt * getParameterDerivative d * nor.vec.dot cv⟩) =
        fun t : ℝ => getDistance ⟨d.type, d.p + t * -(getParameterDerivative d * nor.vec.dot cv)⟩ := by
      funext x; congr 2; ring
    rw [e2]
    exact h.congr_deriv e
  set y : V3 := (1 / getDistance d) • (M3.skew nor.vec).mulVec cv + (M3.one - M3.outer nor.vec nor.vec).mulVec cr with hy
  have hl : HasDerivV3 (fun dt : ℝ => -dt • y) (-y) 0 := (HasDerivV3.line (t := 0) 0 (-y)).congr fun x => by ext <;> simp
  have h2 := hasAngVel_exp hl
  rw [show -(0:ℝ) • y = 0 by ext <;> simp, Lmat_zero] at h2
  have h3 : HasDerivV3 (fun dt : ℝ => (nor.rotated (Quat.exp (-dt • y))).vec) ((-y).cross nor.vec) 0 := by
    have h := h2.rotate (HasDerivV3.const (t := 0) nor.vec)
    refine (h.congr fun x => ?_).congr_deriv ?_
    · simp only [Nor.vec, Nor.rotated]; exact Quat.rotate_mul _ _ _
    · rw [show -(0:ℝ) • y = 0 by ext <;> simp, Quat.exp_zero, Quat.rotate_one]
      generalize nor.vec = x
      ext <;> simp [Quat.rotate]
  refine (HasDerivV3.smul h1 h3).congr_deriv ?_
  have e0 : (nor.rotated (Quat.exp (-(0:ℝ) • y))).vec = nor.vec := by
    rw [show -(0:ℝ) • y = 0 by ext <;> simp, Quat.exp_zero]
    simp only [Nor.rotated, Quat.one_mul']
  have ed : getDistance ⟨d.type, d.p - 0 * getParameterDerivative d * nor.vec.dot cv⟩ = getDistance d := by
    simp
  rw [e0, ed, hy]
  have hnn := V3.dot_self_of_norm (Nor.norm_vec hn)
  simp only [M3.sub_mulVec, M3.one_mulVec, V3.skew_mulVec, M3.outer_mulVec]
  generalize nor.vec = x at *
  generalize getDistance d = D at *
  have hx : x.x ^ 2 + x.y ^ 2 + x.z ^ 2 = 1 := by simpa [V3.dot, sq] using hnn
  ext
  · simp [V3.dot]; field_simp; linear_combination (-cv.x) * hx
  · simp [V3.dot]; field_simp; linear_combination (-cv.y) * hx
  · simp [V3.dot]; field_simp; linear_combination (-cv.z) * hx

/-- C50: the world position of a landmark, computed from the predicted platform pose, extrinsics, bearing and distance, is to
first order in the time step where it was before (its derivative is zero), whatever the measurement and the distance
parametrisation; the predicted bearing stays a unit vector.  Excluded are a zero distance (the code divides by it) and an inverse
distance inside the clamping interval. -/
theorem C50_static_landmark (s : State n nCam nPose) (hr : Ready s) (hu : UnitState s) (cfg : PredCfg) (m : ImuMeas) (out : State n nCam nPose)
    (i : Fin n) (a : Fin nCam) (ha : (s.fea i).c.camID = a.val) (hun : Unclamped (s.fea i).d.type (s.fea i).d.p) (hd : getDistance (s.fea i).d ≠ 0) :
    ∃ P : ℝ → V3, (∀ dt, 0 < dt → ∃ s', State.evalPrediction cfg m true out s 0 dt = some s' ∧ s'.worldPoint i a = P dt ∧
        (s'.fea i).c.validNor = true ∧ (s'.fea i).c.nor.vec.norm = 1) ∧
      P 0 = s.worldPoint i a ∧ HasDerivV3 P 0 0 := by
  have hci : camIdx nCam (s.fea i).c.camID = some a := by
    unfold camIdx
    rw [dif_pos ⟨by omega, by have := a.2; omega⟩]
    congr 1; apply Fin.ext; simp [ha]
  set ror := m.gyr - s.gyb with hror
  have hC := deriv_predicted_point (hu.nor i) hun hd (s.camVel a ror) (s.camRor a ror)
  set C : ℝ → V3 := fun dt => getDistance ⟨(s.fea i).d.type, (s.fea i).d.p - dt * getParameterDerivative (s.fea i).d * (s.fea i).c.nor.vec.dot (s.camVel a ror)⟩ •
      ((s.fea i).c.nor.rotated (Quat.exp (-dt • ((1 / getDistance (s.fea i).d) • (M3.skew (s.fea i).c.nor.vec).mulVec (s.camVel a ror) +
        (M3.one - M3.outer (s.fea i).c.nor.vec (s.fea i).c.nor.vec).mulVec (s.camRor a ror))))).vec with hCdef
  have hC0 : C 0 = getDistance (s.fea i).d • (s.fea i).c.nor.vec := by
    have e : ∀ y : V3, -(0:ℝ) • y = 0 := fun y => by ext <;> simp
    simp only [hCdef, e, Quat.exp_zero, zero_mul, sub_zero, Nor.rotated, Quat.one_mul']
  obtain ⟨p, v, q, hpq, hp0, hq0, -, hp, hq, -⟩ := C73_kinematics s hr hu cfg m out
  have hb : HasDerivV3 (fun dt => s.MrMC a + (s.qCM a).inv.rotate (C dt))
      (0 + (s.qCM a).inv.rotate (-s.camVel a ror - (s.camRor a ror).cross (getDistance (s.fea i).d • (s.fea i).c.nor.vec))) 0 :=
    (HasDerivV3.const _).add (hC.rotate_const _)
  refine ⟨fun dt => p dt + (q dt).rotate (s.MrMC a + (s.qCM a).inv.rotate (C dt)), fun dt hdt => ?_, ?_, ?_⟩
  · obtain ⟨s', e, hp', hq', -⟩ := hpq dt hdt
    obtain ⟨s'', e', f⟩ := evalPrediction_facts hr hu cfg m out 0 hdt
    rw [e] at e'
    obtain rfl : s' = s'' := Option.some.inj e'
    have hz : m.gyr - s.gyb + (1 / Real.sqrt dt) • (0 : DState n nCam nPose).att = ror := by
      simp only [DState.zero_att, V3.smul_zero', V3.add_zero', hror]
    have ff := f.fea i a hci
    rw [hz] at ff
    refine ⟨s', e, ?_, ff.validNor, Nor.norm_vec ((f.unit hu).nor i)⟩
    unfold State.worldPoint Spec.bodyPoint
    rw [hp', hq', f.MrMC, f.qCM, ff.d, ff.nor]
    simp only [DState.zero_vep, DState.zero_vea, V3.smul_zero', V3.add_zero', Quat.exp_zero, Quat.one_mul']
    have ep : s.predDep a ror dt 0 i = (s.fea i).d.p - dt * getParameterDerivative (s.fea i).d * (s.fea i).c.nor.vec.dot (s.camVel a ror) := by
      simp [State.predDep]
    have edm : s.predDm a ror dt 0 i = -dt • ((1 / getDistance (s.fea i).d) • (M3.skew (s.fea i).c.nor.vec).mulVec (s.camVel a ror) +
        (M3.one - M3.outer (s.fea i).c.nor.vec (s.fea i).c.nor.vec).mulVec (s.camRor a ror)) := by
      unfold State.predDm bearingStep
      generalize (1 / getDistance (s.fea i).d) • (M3.skew (s.fea i).c.nor.vec).mulVec (s.camVel a ror) +
        (M3.one - M3.outer (s.fea i).c.nor.vec (s.fea i).c.nor.vec).mulVec (s.camRor a ror) = y
      ext <;> simp [Nor.N]
    rw [ep, edm]
  · simp only [hp0, hq0, hC0]; rfl
  · refine (hp.add (hq.rotate hb)).congr_deriv ?_
    rw [hq0, hC0, Quat.cross_rotate hu.att, ← Quat.rotate_add, ← Quat.rotate_add]
    have hcv : (s.qCM a).inv.rotate (s.camVel a ror) = ror.cross (s.MrMC a) - s.vel := by
      unfold State.camVel; exact Quat.rotate_inv_rotate (hu.qCM a) _
    have hcr : (s.qCM a).inv.rotate (s.camRor a ror) = ror := Quat.rotate_inv_rotate (hu.qCM a) _
    have hcross : ∀ x, (s.qCM a).inv.rotate ((s.camRor a ror).cross x) = ror.cross ((s.qCM a).inv.rotate x) := fun x => by
      rw [← Quat.cross_rotate (hu.qCM a).inv, hcr]
    rw [Quat.rotate_sub, Quat.rotate_neg, hcv, hcross]
    generalize (s.qCM a).inv.rotate (getDistance (s.fea i).d • (s.fea i).c.nor.vec) = x
    have : s.imuOut.BvB + (ror.cross (s.MrMC a + x) + (0 + (-(ror.cross (s.MrMC a) - s.vel) - ror.cross x))) = 0 := by
      ext <;> simp [State.imuOut] <;> ring
    rw [this]
    ext <;> simp [Quat.rotate]

/-- Non-vacuity of `C50_static_landmark` and `C73_kinematics`: a landmark two metres in front of the first camera (inverse
distance), a platform moving and turning. -/
example : ∃ P : ℝ → V3, (∀ dt, 0 < dt → ∃ s', State.evalPrediction ⟨0.1, 0.1, M3.one⟩ ⟨⟨0, 1, 9⟩, ⟨1, 2, 3⟩⟩ true (demoState true 0) (demoState true 0) 0 dt = some s' ∧
      s'.worldPoint 0 0 = P dt ∧ (s'.fea 0).c.validNor = true ∧ (s'.fea 0).c.nor.vec.norm = 1) ∧
    P 0 = (demoState true 0).worldPoint 0 0 ∧ HasDerivV3 P 0 0 := by
  have hmk : makeNonZero 0.5 = 0.5 := by norm_num [makeNonZero]
  refine C50_static_landmark _ (demoState_ready _ _) (demoState_unit _ _) _ _ _ 0 0 rfl ?_ ?_
  · norm_num [demoState, Unclamped, abs_of_pos]
  · show 1 / makeNonZero 0.5 ≠ 0
    rw [hmk]; norm_num

/-- C73: a platform at rest whose gyroscope reads its bias and whose accelerometer reads the reaction to gravity on top of its
bias stays exactly where it is, and so do all its features, whatever the attitude and the time step. -/
theorem C73_rest (s : State n nCam nPose) (hr : Ready s) (hu : UnitState s) (cfg : PredCfg) (m : ImuMeas) (out : State n nCam nPose) (dt : ℝ) (hdt : 0 < dt)
    (hv : s.vel = 0) (hg : m.gyr = s.gyb) (ha : s.att.rotate (m.acc - s.acb) = ⟨0, 0, 9.81⟩) :
    ∃ s', State.evalPrediction cfg m true out s 0 dt = some s' ∧ SamePlatform s s' ∧ s'.pos = s.pos ∧
      ∀ i, (s'.fea i).c.nor = (s.fea i).c.nor ∧ (s'.fea i).d = (s.fea i).d := by
  obtain ⟨s', e, f⟩ := evalPrediction_facts hr hu cfg m out 0 hdt
  have hz : m.gyr - s.gyb + (1 / Real.sqrt dt) • (0 : DState n nCam nPose).att = 0 := by
    simp only [DState.zero_att, V3.smul_zero', V3.add_zero', hg, V3.sub_self']
  have hacc : m.acc - s.acb + s.att.inv.rotate gravity = 0 := by
    have h1 : m.acc - s.acb = s.att.inv.rotate ⟨0, 0, 9.81⟩ := by rw [← ha, Quat.rotate_inv_rotate hu.att]
    rw [h1, ← Quat.rotate_add]
    rw [show (⟨0, 0, 9.81⟩ : V3) + gravity = 0 by ext <;> simp [gravity]]
    ext <;> simp [Quat.rotate]
  have hpos : s'.pos = s.pos := by
    rw [f.pos, hv]
    ext <;> simp [Quat.rotate]
  have hvel : s'.vel = s.vel := by
    rw [f.vel, hz, hacc, hv]
    ext <;> simp [M3.mulVec, V3.dot]
  have hatt : s'.att = s.att := by
    rw [f.att, hz, V3.smul_zero', Quat.exp_zero, Quat.mul_one']
  have hcr : ∀ c, s.camRor c 0 = 0 := fun c => by unfold State.camRor; ext <;> simp [Quat.rotate]
  have hcv : ∀ c, s.camVel c 0 = 0 := fun c => by unfold State.camVel; rw [hv]; ext <;> simp [Quat.rotate]
  refine ⟨s', e, ⟨hatt, hvel, ?_, ?_, funext fun c => ?_, funext fun c => ?_, funext fun k => ?_, funext fun k => ?_⟩, hpos, fun i => ?_⟩
  · rw [f.acb]; simp only [DState.zero_acb, V3.smul_zero', V3.add_zero']
  · rw [f.gyb]; simp only [DState.zero_gyb, V3.smul_zero', V3.add_zero']
  · rw [f.qCM]; simp only [DState.zero_vea, V3.smul_zero', Quat.exp_zero, Quat.one_mul']
  · rw [f.MrMC]; simp only [DState.zero_vep, V3.smul_zero', V3.add_zero']
  · rw [f.pop]; simp only [DState.zero_pop, V3.smul_zero', V3.add_zero']
  · rw [f.poa]; simp only [DState.zero_poa, V3.smul_zero', Quat.exp_zero, Quat.one_mul']
  · cases hc : camIdx nCam (s.fea i).c.camID with
    | none => rw [f.unused i hc]; exact ⟨by simp [FC.setNor], rfl⟩
    | some a =>
      have ff := f.fea i a hc
      rw [hz] at ff
      have edm : s.predDm a 0 dt 0 i = 0 := by
        unfold State.predDm bearingStep
        rw [hcr, hcv]
        ext <;> simp [Nor.N, M3.mulVec, V3.dot]
      have ep : s.predDep a 0 dt 0 i = (s.fea i).d.p := by
        unfold State.predDep
        rw [hcv]; simp [V3.dot]
      rw [ff.nor, ff.d, edm, ep, Quat.exp_zero, Nor.rotated, Quat.one_mul']
      exact ⟨rfl, rfl⟩

/-- Non-vacuity of `C73_rest`: a tilted platform at rest. -/
example : ∃ s', State.evalPrediction ⟨0.1, 0.1, M3.one⟩ ⟨(demoState true 0).acb + (demoState true 0).att.inv.rotate ⟨0, 0, 9.81⟩, (demoState true 0).gyb⟩ true
      (demoState true 0) { demoState true 0 with vel := 0 } 0 0.1 = some s' ∧
    SamePlatform { demoState true 0 with vel := 0 } s' ∧ s'.pos = (demoState true 0).pos ∧
      ∀ i, (s'.fea i).c.nor = ((demoState true 0).fea i).c.nor ∧ (s'.fea i).d = ((demoState true 0).fea i).d := by
  have hu : UnitState { demoState true 0 with vel := 0 } :=
    ⟨(demoState_unit true 0).att, (demoState_unit true 0).vea, (demoState_unit true 0).aux, (demoState_unit true 0).poa, (demoState_unit true 0).nor⟩
  refine C73_rest { demoState true 0 with vel := 0 } ⟨fun _ => rfl, fun _ _ _ _ => .inl rfl⟩ hu _ _ _ 0.1 (by norm_num) rfl rfl ?_
  show (demoState true 0).att.rotate ((demoState true 0).acb + (demoState true 0).att.inv.rotate ⟨0, 0, 9.81⟩ - (demoState true 0).acb) = _
  rw [show (demoState true 0).acb + (demoState true 0).att.inv.rotate ⟨0, 0, 9.81⟩ - (demoState true 0).acb = (demoState true 0).att.inv.rotate ⟨0, 0, 9.81⟩ by
    generalize (demoState true 0).att.inv.rotate ⟨0, 0, 9.81⟩ = x
    ext <;> simp]
  exact Quat.rotate_rotate_inv (demoState_unit true 0).att _

end Rovio
