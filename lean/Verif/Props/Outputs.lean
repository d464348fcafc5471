import Verif.Lemmas.StateCurve
import Verif.Props.MultiCamera

/-!
# Properties C41, C42, C58, C71: published landmarks, poses and re-expressed features
-/

namespace Rovio

open Spec Distance

variable {n nCam nPose : ℕ}

/-! ### C42 -/

/-- Specification: the family of outputs has the given derivative at 0 (attitudes by their angular velocity, i.e. by the left
increment the filter uses). -/
structure HasDerivOut (out : ℝ → StdOut) (d : DStdOut) : Prop where
  pos : HasDerivV3 (fun t => (out t).WrWB) d.pos 0
  att : HasAngVel (fun t => (out t).qBW) d.att 0
  vel : HasDerivV3 (fun t => (out t).BvB) d.vel 0
  ror : HasDerivV3 (fun t => (out t).BwWB) d.ror 0

/-- Specification: at time `t` the published velocity and rotational rate, both in the body frame, are the rates of change of
the published pose. -/
def RigidAt (out : ℝ → StdOut) (t : ℝ) : Prop :=
  HasDerivV3 (fun s => (out s).WrWB) ((out t).qBW.inv.rotate (out t).BvB) t ∧
  HasAngVel (fun s => (out s).qBW.inv) ((out t).qBW.inv.rotate (out t).BwWB) t

/-- C42: a point given in the camera frame is at the same place in the world whether it is placed with the camera output or
with the IMU output and the extrinsics. -/
theorem C42_pose (s : State n nCam nPose) (c : Fin nCam) (P : V3) :
    (s.camOut c).WrWB + (s.camOut c).qBW.inv.rotate P =
      s.imuOut.WrWB + s.imuOut.qBW.inv.rotate (Spec.bodyPoint (s.MrMC c) (s.qCM c) 1 P) ∧
    (s.camOut c).WrWB = s.WrWC c ∧ (s.camOut c).qBW = s.qCW c := by
  refine ⟨?_, rfl, rfl⟩
  simp only [State.camOut, State.imuOut, Spec.bodyPoint, Quat.mul_inv_rev, Quat.inv_inv', Quat.rotate_mul, Quat.rotate_add, Quat.rotate_smul]
  ext <;> simp <;> ring

/-- C42: if the IMU output is that of a moving rigid body then so is the output of every camera (extrinsics not changing). -/
theorem C42_rigid (s : ℝ → State n nCam nPose) (c : Fin nCam) (t : ℝ) (hu : (s t).att.IsUnit) (hc : ((s t).qCM c).IsUnit)
    (hq : ∀ r, (s r).qCM c = (s t).qCM c) (hr : ∀ r, (s r).MrMC c = (s t).MrMC c)
    (h : RigidAt (fun r => (s r).imuOut) t) : RigidAt (fun r => (s r).camOut c) t := by
  obtain ⟨h1, h2⟩ := h
  simp only [State.imuOut, Quat.inv_inv'] at h1 h2
  constructor
  · simp only [State.camOut, hq, hr]
    refine (h1.add (HasAngVel.rotate h2 (HasDerivV3.const ((s t).MrMC c)))).congr_deriv ?_
    rw [Quat.mul_inv_rev, Quat.inv_inv', Quat.rotate_mul, Quat.rotate_inv_rotate hc, Quat.cross_rotate hu, V3.skew_mulVec]
    rw [Quat.rotate_add]
    ext <;> simp
  · simp only [State.camOut, hq]
    have h3 := HasAngVel.mul h2 (HasAngVel.const (t := t) ((s t).qCM c).inv) hu
    refine (HasAngVel.congr h3 (fun r => ?_)).congr_deriv ?_
    · rw [Quat.mul_inv_rev, Quat.inv_inv']
    · rw [Quat.mul_inv_rev, Quat.inv_inv', Quat.rotate_mul, Quat.rotate_inv_rotate hc]
      ext <;> simp

/-- C42: the IMU output's Jacobian is its derivative. -/
theorem C42_imu_jacobian (s : State n nCam nPose) (hu : s.att.IsUnit) (δ : DState n nCam nPose) :
    HasDerivOut (fun t => (s.boxPlus (δ.scale t)).imuOut) (s.imuJac δ) := by
  have h0 := s.at0_att δ
  refine ⟨?_, ?_, ?_, ?_⟩
  · exact (s.deriv_pos δ).congr_deriv (by simp [State.imuJac, M3.one_mulVec])
  · refine (HasAngVel.inv (s.deriv_att δ) (by rw [h0]; exact hu)).congr_deriv ?_
    simp only [h0, State.imuJac, M3.neg_mulVec, Quat.mat_mulVec]
  · refine (s.deriv_vel δ).neg.congr_deriv ?_
    simp [State.imuJac, M3.neg_mulVec, M3.one_mulVec]
  · refine ((HasDerivV3.const s.aux.MwWMmeas).sub (s.deriv_gyb δ)).congr_deriv ?_
    simp only [State.imuJac, M3.neg_mulVec, M3.one_mulVec]
    ext <;> simp

/-- C42: the derivative of the camera output is its Jacobian, plus (only with online calibration) the effect of the extrinsic
rotation on the velocity caused by the difference between this camera's lever arm and camera 0's. -/
theorem C42_camera_derivative (s : State n nCam nPose) (c : Fin nCam) (hu : s.att.IsUnit) (hc : (s.qCM c).IsUnit) (δ : DState n nCam nPose) :
    HasDerivOut (fun t => (s.boxPlus (δ.scale t)).camOut c)
      { s.camJac c δ with
        vel := (s.camJac c δ).vel +
          (if s.aux.doVE then
            (δ.vea c).cross ((s.qCM c).rotate ((s.aux.MwWMmeas - s.gyb).cross (s.MrMC c - s.MrMC (State.cam0 c)))) else 0) } := by
  have ha := s.at0_att δ
  have hq := s.at0_qCM δ c
  have hr := s.at0_MrMC δ c
  have hv := s.at0_vel δ
  have hg := s.at0_gyb δ
  have dR := HasAngVel.rotate (s.deriv_att δ) (s.deriv_MrMC δ c)
  have dw := (HasDerivV3.const (t := 0) s.aux.MwWMmeas).sub (s.deriv_gyb δ)
  have dW := HasAngVel.rotate (s.deriv_qCM δ c) dw
  have dV := HasAngVel.rotate (s.deriv_qCM δ c) ((s.deriv_vel δ).neg.add (dw.cross (s.deriv_MrMC δ c)))
  have dA := HasAngVel.mul (s.deriv_qCM δ c) (HasAngVel.inv (s.deriv_att δ) (by rw [ha]; exact hu)) (by rw [hq]; exact hc)
  rw [ha, hr] at dR
  rw [hq, hg] at dW
  rw [hq, hg, hv, hr] at dV
  rw [hq, ha] at dA
  refine ⟨?_, ?_, ?_, ?_⟩
  · refine ((s.deriv_pos δ).add dR).congr_deriv ?_
    simp only [State.camJac, M3.one_mulVec, M3.neg_mulVec, V3.skew_mulVec, Quat.mat_mulVec]
    cases s.aux.doVE
    · simp only [Bool.false_eq_true, if_false, Quat.rotate_zero]; ext <;> simp <;> ring
    · simp only [if_true]; ext <;> simp <;> ring
  · refine dA.congr_deriv ?_
    simp only [State.camJac, M3.one_mulVec, M3.neg_mulVec, Quat.mat_mulVec, Quat.rotate_mul, Quat.rotate_neg]
    cases s.aux.doVE
    · simp only [Bool.false_eq_true, if_false]; ext <;> simp
    · simp only [if_true]; ext <;> simp <;> ring
  · refine (dV.congr (fun t => ?_)).congr_deriv ?_
    · simp only [State.camOut, V3.skew_mulVec]; rfl
    · simp only [State.camJac, M3.one_mulVec, M3.neg_mulVec, M3.mul_mulVec, V3.skew_mulVec, Quat.mat_mulVec]
      cases s.aux.doVE
      · simp only [Bool.false_eq_true, if_false]
        ext <;> simp [Quat.rotate] <;> ring
      · simp only [if_true]
        ext <;> simp [Quat.rotate] <;> ring
  · refine dW.congr_deriv ?_
    simp only [State.camJac, M3.neg_mulVec, V3.skew_mulVec, Quat.mat_mulVec]
    cases s.aux.doVE
    · simp only [Bool.false_eq_true, if_false]; ext <;> simp [Quat.rotate] <;> ring
    · simp only [if_true]; ext <;> simp [Quat.rotate] <;> ring

/-- C42: without online calibration, or for a camera with the lever arm of camera 0 (in particular camera 0 itself), the
camera output's Jacobian is its derivative. -/
theorem C42_camera_jacobian (s : State n nCam nPose) (c : Fin nCam) (hu : s.att.IsUnit) (hc : (s.qCM c).IsUnit)
    (h : s.aux.doVE = false ∨ c.val = 0 ∨ ∀ k : Fin nCam, k.val = 0 → s.MrMC c = s.MrMC k) (δ : DState n nCam nPose) :
    HasDerivOut (fun t => (s.boxPlus (δ.scale t)).camOut c) (s.camJac c δ) := by
  have h1 := C42_camera_derivative s c hu hc δ
  have e : s.camJac c δ = { s.camJac c δ with
        vel := (s.camJac c δ).vel +
          (if s.aux.doVE then
            (δ.vea c).cross ((s.qCM c).rotate ((s.aux.MwWMmeas - s.gyb).cross (s.MrMC c - s.MrMC (State.cam0 c)))) else 0) } := by
    have hz : (if s.aux.doVE then
            (δ.vea c).cross ((s.qCM c).rotate ((s.aux.MwWMmeas - s.gyb).cross (s.MrMC c - s.MrMC (State.cam0 c)))) else 0) = (0 : V3) := by
      rcases h with h | h | h
      · simp [h]
      · have : State.cam0 c = c := Fin.ext h.symm
        rw [this]
        split
        · ext <;> simp [Quat.rotate]
        · rfl
      · rw [h (State.cam0 c) rfl]
        split
        · ext <;> simp [Quat.rotate]
        · rfl
    rw [hz]
    have : (s.camJac c δ).vel + 0 = (s.camJac c δ).vel := by ext <;> simp
    rw [this]
  rw [e]; exact h1

/-- Derivatives are unique. -/
lemma HasDerivV3.unique {f : ℝ → V3} {a b : V3} {t : ℝ} (h : HasDerivV3 f a t) (h' : HasDerivV3 f b t) : a = b := by
  ext
  · exact h.x.unique h'.x
  · exact h.y.unique h'.y
  · exact h.z.unique h'.z

/-- A feature whose coordinates are complete. -/
noncomputable def demoCoord (cam : Option CamI) (camID : ℤ) : FC where
  cam := cam
  c := 0
  validC := false
  nor := ⟨Quat.one⟩
  validNor := true
  camID := camID
  warpC := M2.one
  validWarpC := false
  warpNor := M2.one
  validWarpNor := true
  isWarpIdentity := false
  trackWarping := true

/-- A state with two cameras half a metre apart, the second one rotated; the platform turns about its x axis. -/
noncomputable def demoState (doVE : Bool) (camID : ℤ) : State 1 2 1 where
  pos := ⟨1, 2, 3⟩
  vel := ⟨0, 0, 1⟩
  acb := 0
  gyb := 0
  att := ⟨0.6, 0, 0.8, 0⟩
  vep := fun c => if c = 0 then 0 else ⟨0, 0.5, 0⟩
  vea := fun c => if c = 0 then Quat.one else ⟨0.6, 0, 0.8, 0⟩
  fea := fun _ => ⟨demoCoord none camID, ⟨.inverse, 0.5⟩⟩
  pop := fun _ => 0
  poa := fun _ => Quat.one
  aux :=
    { MwWMest := 0, MwWMmeas := ⟨1, 0, 0⟩, wMeasCov := M3.one, doVE := doVE
      qCM := fun c => if c = 0 then Quat.one else ⟨0.6, 0, 0.8, 0⟩
      MrMC := fun c => if c = 0 then 0 else ⟨0, 0.5, 0⟩
      tInertial := 0, tImage := 0, poseMeasRot := Quat.one, poseMeasLin := 0 }

lemma isUnit_demo : (⟨0.6, 0, 0.8, 0⟩ : Quat).IsUnit := by
  simp only [Quat.IsUnit, Quat.normSq]; norm_num

lemma demoState_qCM (b : Bool) (k : ℤ) (c : Fin 2) : ((demoState b k).qCM c).IsUnit := by
  fin_cases c <;> cases b <;> simp [State.qCM, demoState, isUnit_demo, Quat.isUnit_one]

/-- Non-vacuity of `C42_camera_jacobian`: both cameras without online calibration, camera 0 with it. -/
example (δ : DState 1 2 1) : HasDerivOut (fun t => ((demoState false 0).boxPlus (δ.scale t)).camOut 1) ((demoState false 0).camJac 1 δ) ∧
    HasDerivOut (fun t => ((demoState true 0).boxPlus (δ.scale t)).camOut 0) ((demoState true 0).camJac 0 δ) :=
  ⟨C42_camera_jacobian _ _ isUnit_demo (demoState_qCM _ _ _) (.inl rfl) δ,
   C42_camera_jacobian _ _ isUnit_demo (demoState_qCM _ _ _) (.inr (.inl rfl)) δ⟩

/-- The zero increment. -/
instance : Zero (DState n nCam nPose) := ⟨⟨0, 0, 0, 0, 0, fun _ => 0, fun _ => 0, fun _ => 0, fun _ => 0, fun _ => 0, fun _ => 0⟩⟩

@[simp] lemma DState.zero_vea : (0 : DState n nCam nPose).vea = fun _ => 0 := rfl
@[simp] lemma DState.zero_vep : (0 : DState n nCam nPose).vep = fun _ => 0 := rfl
@[simp] lemma DState.zero_nor : (0 : DState n nCam nPose).nor = fun _ => 0 := rfl
@[simp] lemma DState.zero_dep : (0 : DState n nCam nPose).dep = fun _ => 0 := rfl
@[simp] lemma DState.zero_pos : (0 : DState n nCam nPose).pos = 0 := rfl
@[simp] lemma DState.zero_vel : (0 : DState n nCam nPose).vel = 0 := rfl
@[simp] lemma DState.zero_acb : (0 : DState n nCam nPose).acb = 0 := rfl
@[simp] lemma DState.zero_gyb : (0 : DState n nCam nPose).gyb = 0 := rfl
@[simp] lemma DState.zero_att : (0 : DState n nCam nPose).att = 0 := rfl
@[simp] lemma DState.zero_pop : (0 : DState n nCam nPose).pop = fun _ => 0 := rfl
@[simp] lemma DState.zero_poa : (0 : DState n nCam nPose).poa = fun _ => 0 := rfl

/-- C42 (finding): with online calibration the Jacobian of the second camera's velocity is not its derivative. -/
theorem C42_finding_second_camera : ∃ (s : State 1 2 1) (δ : DState 1 2 1), s.att.IsUnit ∧ (∀ c, (s.qCM c).IsUnit) ∧
    ¬ HasDerivV3 (fun t => ((s.boxPlus (δ.scale t)).camOut 1).BvB) (s.camJac 1 δ).vel 0 := by
  refine ⟨demoState true 0, { (0 : DState 1 2 1) with vea := fun _ => ⟨0, 1, 0⟩ }, isUnit_demo, demoState_qCM _ _, fun h => ?_⟩
  have h1 := (C42_camera_derivative (demoState true 0) 1 isUnit_demo (demoState_qCM _ _ _) { (0 : DState 1 2 1) with vea := fun _ => ⟨0, 1, 0⟩ }).vel
  have h2 := congrArg V3.x (HasDerivV3.unique h h1)
  simp [demoState, State.qCM, State.MrMC, State.cam0, Quat.rotate] at h2
  norm_num at h2

/-- Non-vacuity of `C42_rigid`: a platform moving along the x axis at unit speed, not rotating, seen from the second camera. -/
example : RigidAt (fun t => ({ demoState false 0 with
    pos := t • (⟨1, 0, 0⟩ : V3), att := Quat.one, vel := ⟨-1, 0, 0⟩, gyb := ⟨1, 0, 0⟩ } : State 1 2 1).camOut 1) 5 := by
  refine C42_rigid _ 1 5 Quat.isUnit_one ?_ (fun _ => rfl) (fun _ => rfl) ⟨?_, ?_⟩
  · simpa [State.qCM, demoState] using isUnit_demo
  · refine ((HasDerivV3.line (t := 5) 0 (⟨1, 0, 0⟩ : V3)).congr (fun s => by ext <;> simp [State.imuOut])).congr_deriv ?_
    ext <;> simp [State.imuOut]
  · refine ((HasAngVel.const (t := 5) Quat.one).congr (fun s => by simp [State.imuOut])).congr_deriv ?_
    ext <;> simp [State.imuOut, demoState]

/-- C42: adding the covariance of the measured rate as it is to the camera's rate covariance is correct when that covariance is
isotropic: rotating it into the camera frame does not change it. -/
theorem C42_rate_covariance (q : Quat) (hq : q.IsUnit) (σ : ℝ) : (q.mat.mul (σ • M3.one)).mul q.mat.tr = σ • M3.one := by
  apply M3.ext_mulVec
  intro v
  rw [M3.mul_mulVec, M3.mul_mulVec, M3.smul_mulVec, M3.one_mulVec, Quat.mat_mulVec, ← Quat.mat_inv, Quat.mat_mulVec, Quat.rotate_smul,
    Quat.rotate_rotate_inv hq, M3.smul_mulVec, M3.one_mulVec]

/-! ### C41 -/

/-- Specification: feature `i` is usable: expressed in camera `a`, with a bearing. -/
structure Usable (s : State n nCam nPose) (i : Fin n) (a : Fin nCam) : Prop where
  cam : (s.fea i).c.camID = a.val
  nor : (s.fea i).c.validNor = true
  unit : (s.fea i).c.nor.q.IsUnit

/-- C41: the published landmark is the point at the feature's distance along its bearing, seen from its camera, expressed in
the IMU frame. -/
theorem C41_landmark (s : State n nCam nPose) (mc : MultiCamera nCam) (i : Fin n) (a : Fin nCam) (h : Usable s i a) :
    s.landmark mc i = some (Spec.bodyPoint (s.MrMC a) (s.qCM a) (getDistance (s.fea i).d) (s.fea i).c.nor.vec) := by
  unfold State.landmark
  rw [MultiCamera.getNor_of_valid h.nor, h.cam]
  simp only [Option.bind_eq_bind, Option.bind_some, camIdx_val]
  rfl

/-- C41: it does not depend on the camera the feature is expressed in: re-expressing the feature in another camera does not change
the published landmark. -/
theorem C41_camera_independent (s : State n nCam nPose) (mc : MultiCamera nCam) (sfv : V3 → Nor) (hs : Spec.SetFromVector sfv)
    (hq : ∀ c, (s.qCM c).IsUnit) (i : Fin n) (a b : Fin nCam) (h : Usable s i a) (out : Fea) (P : V3) (hP : s.landmark mc i = some P)
    (hfar : 1e-6 < (P - s.MrMC b).norm) (hrep : Representable out.d.type (P - s.MrMC b).norm) (f : Fea) (hf : s.featureOut mc sfv i b out = some f) :
    f.c.camID = b.val ∧ State.landmark { s with fea := Function.update s.fea i f } mc i = some P := by
  rw [C41_landmark s mc i a h, Option.some.injEq] at hP
  have hd : (s.updateMultiCamera mc).Describes (s.fea i).c (s.fea i).d P :=
    ⟨a, _, _, h.cam, MultiCamera.getNor_of_valid h.nor, h.unit, hP⟩
  obtain ⟨c', d', e, hc, hv, hu, hpt⟩ : ∃ c' d', (s.updateMultiCamera mc).transformFeature sfv b (s.fea i).c (s.fea i).d out.c out.d = some (c', d') ∧
      c'.camID = b.val ∧ c'.validNor = true ∧ c'.nor.q.IsUnit ∧ Spec.bodyPoint (s.MrMC b) (s.qCM b) (getDistance d') c'.nor.vec = P := by
    by_cases hab : (s.fea i).c.camID = b.val
    · have : a = b := by
        apply Fin.ext
        have := h.cam.symm.trans hab
        exact_mod_cast this
      subst this
      exact ⟨_, _, by unfold MultiCamera.transformFeature; rw [if_neg (not_not.mpr hab)], hab, h.nor, h.unit, hP⟩
    · obtain ⟨c', d', e, h1, _, h3, _, _, _, _, h8, _, _, _, hdesc⟩ :=
        (s.updateMultiCamera mc).transformFeature_other hq hs b hd hab out.c out.d hfar hrep
      refine ⟨c', d', e, h1, h3, h8, ?_⟩
      obtain ⟨b', m, nor, k1, k2, k3, k4⟩ := hdesc
      have : b' = b := by
        apply Fin.ext
        have := k1.symm.trans h1
        exact_mod_cast this
      subst this
      rw [MultiCamera.getNor_of_valid h3, Option.some.injEq, Prod.mk.injEq] at k2
      rw [k2.2]; exact k4
  have key : f.c.camID = b.val ∧ f.c.validNor = true ∧ f.c.nor = c'.nor ∧ f.d = d' := by
    unfold State.featureOut at hf
    simp only [e, Option.bind_eq_bind, Option.bind_some, Option.pure_def] at hf
    split at hf
    · cases hw : (s.fea i).c.comWarpNor with
      | none => simp [hw] at hf
      | some r =>
        obtain ⟨fc, ok⟩ := r
        simp only [hw, Option.bind_some] at hf
        cases ok
        · simp only [Bool.false_eq_true, if_false, Option.some.injEq] at hf
          rw [← hf]; exact ⟨hc, hv, rfl, rfl⟩
        · simp only [if_true] at hf
          cases h1 : camIdx nCam fc.camID with
          | none => simp [h1] at hf
          | some a' =>
            cases h2 : fc.getNor with
            | none => simp [h1, h2] at hf
            | some r2 =>
              obtain ⟨fc2, nr⟩ := r2
              cases h3 : fc2.getWarpNor with
              | none => simp [h1, h2, h3] at hf
              | some r3 =>
                obtain ⟨fc3, w⟩ := r3
                simp only [h1, h2, h3, Option.bind_some, Option.some.injEq] at hf
                rw [← hf]; exact ⟨hc, hv, rfl, rfl⟩
    · simp only [Option.some.injEq] at hf
      rw [← hf]; exact ⟨hc, hv, rfl, rfl⟩
  obtain ⟨k1, k2, k3, k4⟩ := key
  refine ⟨k1, ?_⟩
  have hU : Usable { s with fea := Function.update s.fea i f } i b :=
    ⟨by simpa using k1, by simpa using k2, by simpa [k3] using hu⟩
  rw [C41_landmark _ mc i b hU]
  simp only [Function.update_self, k3, k4]
  exact congrArg some hpt

/-- The landmark Jacobian of a usable feature. -/
lemma landmarkJac_usable (s : State n nCam nPose) (mc : MultiCamera nCam) (i : Fin n) (a : Fin nCam) (h : Usable s i a) (δ : DState n nCam nPose) :
    s.landmarkJac mc i δ = some ((s.qCM a).inv.mat.mulVec (getDistance (s.fea i).d • (s.fea i).c.nor.M (δ.nor i)) +
      (s.qCM a).inv.mat.mulVec (δ.dep i • (getDistanceDerivative (s.fea i).d • (s.fea i).c.nor.vec)) +
      (if s.aux.doVE then M3.one.mulVec (δ.vep (State.cam0 a)) +
        ((s.qCM a).inv.mat.mul (M3.skew (getDistance (s.fea i).d • (s.fea i).c.nor.vec))).mulVec (δ.vea (State.cam0 a)) else 0)) := by
  unfold State.landmarkJac
  rw [MultiCamera.getNor_of_valid h.nor, h.cam]
  simp only [Option.bind_eq_bind, Option.bind_some, camIdx_val, Option.pure_def, State.updateMultiCamera]

/-- The increment the landmark Jacobian is applied to when camera `a`'s extrinsics are read from the columns of camera 0. -/
noncomputable def DState.asCam0 (δ : DState n nCam nPose) (a : Fin nCam) : DState n nCam nPose :=
  { δ with vep := fun _ => δ.vep a, vea := fun _ => δ.vea a }

/-- C41: the derivative of the landmark is its Jacobian applied to the increment, with the extrinsics increment of the feature's
camera in the place of camera 0's. -/
theorem C41_derivative (s : State n nCam nPose) (mc : MultiCamera nCam) (i : Fin n) (a : Fin nCam) (h : Usable s i a) (hq : (s.qCM a).IsUnit)
    (hun : Unclamped (s.fea i).d.type (s.fea i).d.p) (δ : DState n nCam nPose) :
    ∃ (P : ℝ → V3) (J : V3), (∀ t, (s.boxPlus (δ.scale t)).landmark mc i = some (P t)) ∧ s.landmarkJac mc i (δ.asCam0 a) = some J ∧
      HasDerivV3 P J 0 := by
  have dq := s.deriv_qCM δ a
  have hq0 := s.at0_qCM δ a
  have dr := s.deriv_MrMC δ a
  have dn := (s.fea i).deriv_nor h.unit (δ.nor i)
  have dd := (s.fea i).deriv_dist hun (δ.dep i)
  have dP := HasDerivV3.smul dd dn
  have dinv := dq.inv (by rw [hq0]; exact hq)
  have hall := dr.add (dinv.rotate dP)
  refine ⟨_, _, fun t => ?_, landmarkJac_usable s mc i a h _, hall.congr_deriv ?_⟩
  · have hU : Usable (s.boxPlus (δ.scale t)) i a :=
      ⟨by rw [← h.cam]; exact Fea.boxPlus_cam _ _ _, by simp [State.boxPlus, Fea.boxPlus, FC.setNor], by
        have : ((s.boxPlus (δ.scale t)).fea i).c.nor = (s.fea i).c.nor.boxPlus (t • δ.nor i) := by
          simp [State.boxPlus, Fea.boxPlus, FC.setNor, DState.scale]
        rw [this]; exact Nor.boxPlus_unit h.unit _⟩
    rw [C41_landmark _ mc i a hU]
    have e1 : ((s.boxPlus (δ.scale t)).fea i).c.nor = (s.fea i).c.nor.boxPlus (t • δ.nor i) := by
      simp [State.boxPlus, Fea.boxPlus, FC.setNor, DState.scale]
    have e2 : getDistance ((s.boxPlus (δ.scale t)).fea i).d = getDistance ⟨(s.fea i).d.type, (s.fea i).d.p + t * δ.dep i⟩ := rfl
    rw [e1, e2]; rfl
  · have en : (s.fea i).c.nor.boxPlus ((0:ℝ) • δ.nor i) = (s.fea i).c.nor := Nor.boxPlus_zero _ _
    have ed : (⟨(s.fea i).d.type, (s.fea i).d.p + 0 * δ.dep i⟩ : FeatureDistance) = (s.fea i).d := by simp
    rw [en, ed, hq0]
    simp only [DState.asCam0, M3.one_mulVec, M3.mul_mulVec, V3.skew_mulVec, Quat.mat_mulVec, Quat.rotate_add, Quat.rotate_smul]
    generalize (s.fea i).c.nor.M (δ.nor i) = Mn
    generalize getDistance (s.fea i).d = D
    generalize getDistanceDerivative (s.fea i).d = D'
    generalize (s.fea i).c.nor.vec = v
    have hcr : ∀ x y : V3, (s.qCM a).inv.rotate (x.cross y) = ((s.qCM a).inv.rotate x).cross ((s.qCM a).inv.rotate y) :=
      fun x y => (Quat.cross_rotate hq.inv x y).symm
    cases s.aux.doVE
    · simp only [Bool.false_eq_true, if_false, Quat.rotate_zero]; ext <;> simp <;> ring
    · simp only [if_true, hcr, Quat.rotate_smul]
      generalize (s.qCM a).inv.rotate (δ.vea a) = w
      generalize (s.qCM a).inv.rotate v = v'
      generalize (s.qCM a).inv.rotate Mn = m'
      ext <;> simp <;> ring

/-- C41: without online calibration, or for features of camera 0, the landmark's Jacobian is its derivative. -/
theorem C41_jacobian (s : State n nCam nPose) (mc : MultiCamera nCam) (i : Fin n) (a : Fin nCam) (h : Usable s i a) (hq : (s.qCM a).IsUnit)
    (hun : Unclamped (s.fea i).d.type (s.fea i).d.p) (h0 : s.aux.doVE = false ∨ a.val = 0) (δ : DState n nCam nPose) :
    ∃ (P : ℝ → V3) (J : V3), (∀ t, (s.boxPlus (δ.scale t)).landmark mc i = some (P t)) ∧ s.landmarkJac mc i δ = some J ∧ HasDerivV3 P J 0 := by
  obtain ⟨P, J, h1, h2, h3⟩ := C41_derivative s mc i a h hq hun δ
  refine ⟨P, J, h1, ?_, h3⟩
  rw [← h2, landmarkJac_usable s mc i a h, landmarkJac_usable s mc i a h]
  rcases h0 with h0 | h0
  · simp [h0, DState.asCam0]
  · have : State.cam0 a = a := Fin.ext h0.symm
    simp [this, DState.asCam0]

/-- C41 (finding): with online calibration the landmark Jacobian of a feature of camera 1 is not its derivative: moving camera 1
moves the landmark, but the Jacobian has no column for it. -/
theorem C41_finding_second_camera (mc : MultiCamera 2) : ∃ (s : State 1 2 1) (δ : DState 1 2 1), Usable s 0 1 ∧ (∀ c, (s.qCM c).IsUnit) ∧
    ∃ (P : ℝ → V3) (J : V3), (∀ t, (s.boxPlus (δ.scale t)).landmark mc 0 = some (P t)) ∧ s.landmarkJac mc 0 δ = some J ∧ ¬ HasDerivV3 P J 0 := by
  have hU : Usable (demoState true 1) 0 1 := ⟨rfl, rfl, Quat.isUnit_one⟩
  obtain ⟨P, J, h1, h2, h3⟩ := C41_derivative (demoState true 1) mc 0 1 hU (demoState_qCM _ _ _)
    (by norm_num [demoState, Unclamped, abs_of_pos]) { (0 : DState 1 2 1) with vep := fun c => if c = 0 then 0 else ⟨1, 0, 0⟩ }
  refine ⟨demoState true 1, { (0 : DState 1 2 1) with vep := fun c => if c = 0 then 0 else ⟨1, 0, 0⟩ }, hU, demoState_qCM _ _, P, _, h1,
    landmarkJac_usable _ mc 0 1 hU _, fun h => ?_⟩
  have h4 := HasDerivV3.unique h h3
  rw [landmarkJac_usable _ mc 0 1 hU, Option.some.injEq] at h2
  rw [← h2] at h4
  have h5 := congrArg V3.x h4
  simp [DState.asCam0, State.cam0, M3.one_mulVec, demoState] at h5

/-- Non-vacuity of `C41_jacobian` and `C41_landmark`: a feature of the second camera, no online calibration. -/
example (mc : MultiCamera 2) (δ : DState 1 2 1) : ∃ (P : ℝ → V3) (J : V3),
    (∀ t, ((demoState false 1).boxPlus (δ.scale t)).landmark mc 0 = some (P t)) ∧ (demoState false 1).landmarkJac mc 0 δ = some J ∧ HasDerivV3 P J 0 :=
  C41_jacobian _ mc 0 1 ⟨rfl, rfl, Quat.isUnit_one⟩ (demoState_qCM _ _ _) (by norm_num [demoState, Unclamped, abs_of_pos]) (.inl rfl) δ

end Rovio
