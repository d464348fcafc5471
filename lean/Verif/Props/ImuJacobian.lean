import Verif.Props.ImuPrediction
import Verif.Props.FeatureOutput

/-!
# C51: the Jacobians of the prediction
-/

namespace Rovio

open Spec Distance

variable {n nCam nPose : ℕ}

/-- Specification: the curve of states `F` has the derivative `d` at 0, component by component: vectors and distance parameters
as usual, attitudes by their angular velocity, bearings by the tangent vector `M d`.  `used` selects the feature slots,
`ext` tells whether the extrinsics are part of the claim. -/
structure HasDerivState (F : ℝ → State n nCam nPose) (d : DState n nCam nPose) (used : Fin n → Prop) (ext : Prop) : Prop where
  pos : HasDerivV3 (fun t => (F t).pos) d.pos 0
  vel : HasDerivV3 (fun t => (F t).vel) d.vel 0
  acb : HasDerivV3 (fun t => (F t).acb) d.acb 0
  gyb : HasDerivV3 (fun t => (F t).gyb) d.gyb 0
  att : HasAngVel (fun t => (F t).att) d.att 0
  vep : ext → ∀ c, HasDerivV3 (fun t => (F t).vep c) (d.vep c) 0
  vea : ext → ∀ c, HasAngVel (fun t => (F t).vea c) (d.vea c) 0
  nor : ∀ i, used i → HasDerivV3 (fun t => ((F t).fea i).c.nor.vec) (((F 0).fea i).c.nor.M (d.nor i)) 0
  dep : ∀ i, used i → HasDerivAt (fun t => ((F t).fea i).d.p) (d.dep i) 0
  pop : ∀ k, HasDerivV3 (fun t => (F t).pop k) (d.pop k) 0
  poa : ∀ k, HasAngVel (fun t => (F t).poa k) (d.poa k) 0

/-! ### Features -/

/-- Derivative of the rotation vector of a bearing. -/
lemma deriv_dm {nv cv cr : ℝ → V3} {nv' cv' cr' : V3} {D : ℝ → ℝ} {D' : ℝ} (hn : HasDerivV3 nv nv' 0) (hcv : HasDerivV3 cv cv' 0)
    (hcr : HasDerivV3 cr cr' 0) (hD : HasDerivAt D D' 0) (h0 : D 0 ≠ 0) (dt : ℝ) (e e' : V3) :
    HasDerivV3 (fun t => (-dt) • ((1 / D t) • (M3.skew (nv t)).mulVec (cv t) + (M3.one - M3.outer (nv t) (nv t)).mulVec (cr t)) + (e + t • e'))
      ((-dt) • ((1 / D 0) • (nv'.cross (cv 0) + (nv 0).cross cv') - (D' / D 0 ^ 2) • (nv 0).cross (cv 0) + cr' -
        (nv'.dot (cr 0) + (nv 0).dot cr') • nv 0 - (nv 0).dot (cr 0) • nv') + e') 0 := by
  have hi : HasDerivAt (fun t => 1 / D t) (-D' / D 0 ^ 2) 0 := by
    have := hD.inv h0
    exact (this.congr_of_eventuallyEq (Filter.Eventually.of_forall fun t => by simp))
  have h1 := HasDerivV3.smul hi (hn.cross hcv)
  have h2 := hcr.sub (HasDerivV3.smul (hn.dot hcr) hn)
  refine (((h1.add h2).const_smul (-dt)).add (HasDerivV3.line e e')).congr (fun t => ?_) |>.congr_deriv ?_
  · simp only [M3.sub_mulVec, M3.one_mulVec, V3.skew_mulVec, M3.outer_mulVec]
  · rw [show (-D' / D 0 ^ 2) = -(D' / D 0 ^ 2) by ring]
    generalize D' / D 0 ^ 2 = x
    generalize 1 / D 0 = y
    ext <;> simp only [V3.smul_x, V3.smul_y, V3.smul_z, V3.add_x, V3.add_y, V3.add_z, V3.sub_x, V3.sub_y, V3.sub_z] <;> ring

/-- Derivative of the predicted bearing. -/
lemma deriv_nOut {nor : ℝ → Nor} {nv' : V3} {dm : ℝ → V3} {dm' : V3} (hn : HasDerivV3 (fun t => (nor t).vec) nv' 0) (hdm : HasDerivV3 dm dm' 0) :
    HasDerivV3 (fun t => ((nor t).rotated (Quat.exp (dm t))).vec)
      (((Lmat (dm 0)).mulVec dm').cross ((Quat.exp (dm 0)).rotate (nor 0).vec) + (Quat.exp (dm 0)).rotate nv') 0 := by
  refine ((hasAngVel_exp hdm).rotate hn).congr fun t => ?_
  simp only [Nor.vec, Nor.rotated]; exact Quat.rotate_mul _ _ _

/-- A vector orthogonal to the bearing is recovered from its tangent coordinates. -/
lemma Nor.M_Mt_of_orth {m : Nor} (h : m.q.IsUnit) {v : V3} (ho : m.vec.dot v = 0) : m.M (m.Mt v) = v := by
  rw [Nor.M_Mt h, ho]; ext <;> simp

lemma deriv_camRor {s : State n nCam nPose} (m : ImuMeas) (a : Fin nCam) (δ : DState n nCam nPose) :
    HasDerivV3 (fun t => (s.along δ t).camRor a (m.gyr - (s.along δ t).gyb))
      ((if s.aux.doVE then δ.vea a else 0).cross (s.camRor a (m.gyr - s.gyb)) - (s.qCM a).rotate δ.gyb) 0 := by
  have h := (s.deriv_qCM δ a).rotate ((HasDerivV3.const (t := 0) m.gyr).sub (s.deriv_gyb δ))
  refine h.congr_deriv ?_
  rw [s.at0_qCM δ a, s.at0_gyb δ]
  unfold State.camRor
  rw [show (0 : V3) - δ.gyb = -δ.gyb by ext <;> simp, Quat.rotate_neg]
  generalize (s.qCM a).rotate δ.gyb = x
  ext <;> simp <;> ring

lemma deriv_camVel {s : State n nCam nPose} (hu : UnitState s) (m : ImuMeas) (a : Fin nCam) (δ : DState n nCam nPose) :
    HasDerivV3 (fun t => (s.along δ t).camVel a (m.gyr - (s.along δ t).gyb))
      ((if s.aux.doVE then δ.vea a else 0).cross (s.camVel a (m.gyr - s.gyb)) +
        ((s.qCM a).rotate (s.MrMC a)).cross ((s.qCM a).rotate δ.gyb) +
        (s.qCM a).rotate ((m.gyr - s.gyb).cross (if s.aux.doVE then δ.vep a else 0)) - (s.qCM a).rotate δ.vel) 0 := by
  have h := (s.deriv_qCM δ a).rotate ((((HasDerivV3.const (t := 0) m.gyr).sub (s.deriv_gyb δ)).cross (s.deriv_MrMC δ a)).sub (s.deriv_vel δ))
  refine h.congr_deriv ?_
  rw [s.at0_qCM δ a, s.at0_gyb δ, s.at0_MrMC δ a, s.at0_vel δ]
  unfold State.camVel
  rw [Quat.cross_rotate (hu.qCM a)]
  simp only [Quat.rotate_add, Quat.rotate_sub]
  have : (0 - δ.gyb).cross (s.MrMC a) = (s.MrMC a).cross δ.gyb := by ext <;> simp <;> ring
  rw [this]
  generalize (s.qCM a).rotate ((s.MrMC a).cross δ.gyb) = x
  generalize (s.qCM a).rotate ((m.gyr - s.gyb).cross (if s.aux.doVE then δ.vep a else 0)) = y
  generalize (s.qCM a).rotate δ.vel = z
  ext <;> simp <;> ring

/-- The bearing rows as the derivative of the rotated bearing. -/
lemma feaJacVec_eq (s : State n nCam nPose) (m : ImuMeas) (dt : ℝ) (i : Fin n) (a : Fin nCam) (δ : DState n nCam nPose) :
    s.feaJacVec m dt i a (s.fea i).c.nor δ =
      ((Lmat (s.predDm a (m.gyr - s.gyb) dt 0 i)).mulVec ((-dt) • ((1 / getDistance (s.fea i).d) • (((s.fea i).c.nor.M (δ.nor i)).cross (s.camVel a (m.gyr - s.gyb)) +
          (s.fea i).c.nor.vec.cross ((if s.aux.doVE then δ.vea a else 0).cross (s.camVel a (m.gyr - s.gyb)) +
            ((s.qCM a).rotate (s.MrMC a)).cross ((s.qCM a).rotate δ.gyb) +
            (s.qCM a).rotate ((m.gyr - s.gyb).cross (if s.aux.doVE then δ.vep a else 0)) - (s.qCM a).rotate δ.vel)) -
          (getDistanceDerivative (s.fea i).d * δ.dep i / getDistance (s.fea i).d ^ 2) • (s.fea i).c.nor.vec.cross (s.camVel a (m.gyr - s.gyb)) +
          ((if s.aux.doVE then δ.vea a else 0).cross (s.camRor a (m.gyr - s.gyb)) - (s.qCM a).rotate δ.gyb) -
          (((s.fea i).c.nor.M (δ.nor i)).dot (s.camRor a (m.gyr - s.gyb)) +
            (s.fea i).c.nor.vec.dot ((if s.aux.doVE then δ.vea a else 0).cross (s.camRor a (m.gyr - s.gyb)) - (s.qCM a).rotate δ.gyb)) • (s.fea i).c.nor.vec -
          (s.fea i).c.nor.vec.dot (s.camRor a (m.gyr - s.gyb)) • (s.fea i).c.nor.M (δ.nor i)))).cross
        ((Quat.exp (s.predDm a (m.gyr - s.gyb) dt 0 i)).rotate (s.fea i).c.nor.vec) +
        (Quat.exp (s.predDm a (m.gyr - s.gyb) dt 0 i)).rotate ((s.fea i).c.nor.M (δ.nor i)) := by
  have hdm : bearingStep (s.fea i).c.nor (s.fea i).d (s.camVel a (m.gyr - s.gyb)) (s.camRor a (m.gyr - s.gyb)) dt 0 = s.predDm a (m.gyr - s.gyb) dt 0 i := rfl
  have hrv : ∀ (nor : Nor) (q : Quat), (nor.rotated q).vec = q.rotate nor.vec := fun nor q => Quat.rotate_mul _ _ _
  have h1 : (1.0 : ℝ) = 1 := by norm_num
  unfold State.feaJacVec bearingMat
  simp only [hdm, hrv, h1]
  generalize (s.fea i).c.nor.M (δ.nor i) = n'
  generalize (s.fea i).c.nor.vec = nv
  generalize s.camVel a (m.gyr - s.gyb) = cv
  generalize s.camRor a (m.gyr - s.gyb) = cr
  generalize s.predDm a (m.gyr - s.gyb) dt 0 i = dm
  generalize (m.gyr - s.gyb) = ror
  generalize (s.qCM a).rotate (s.MrMC a) = r
  generalize getDistance (s.fea i).d = D
  generalize getDistanceDerivative (s.fea i).d = D'
  generalize Lmat dm = L
  generalize (Quat.exp dm).rotate nv = nO
  simp only [M3.mul_mulVec, M3.add_mulVec, M3.sub_mulVec, M3.neg_mulVec, M3.smul_mulVec, M3.one_mulVec, M3.outer_mulVec, V3.skew_mulVec, Quat.mat_mulVec]
  generalize (Quat.exp dm).rotate n' = qn'
  generalize (s.qCM a).rotate δ.gyb = g'
  generalize (s.qCM a).rotate δ.vel = v'
  obtain ⟨⟨a1, a2, a3⟩, ⟨b1, b2, b3⟩, ⟨c1, c2, c3⟩⟩ := L
  cases s.aux.doVE
  · simp only [Bool.false_eq_true, if_false]
    rw [show (ror.cross 0) = 0 by ext <;> simp, Quat.rotate_zero]
    ext <;> simp [M3.mulVec, V3.dot] <;> ring
  · simp only [if_true]
    generalize (s.qCM a).rotate (ror.cross (δ.vep a)) = p'
    ext <;> simp [M3.mulVec, V3.dot] <;> ring

/-- The rows of a slot are the derivatives of its predicted bearing and distance parameter. -/
lemma deriv_fea {s : State n nCam nPose} (hr : Ready s) (hu : UnitState s) (m : ImuMeas) (δ : DState n nCam nPose) (dt : ℝ) {i : Fin n} {a : Fin nCam}
    (ha : camIdx nCam (s.fea i).c.camID = some a) (hun : Unclamped (s.fea i).d.type (s.fea i).d.p) (hd : getDistance (s.fea i).d ≠ 0) :
    ∃ J : V2 × ℝ, s.feaJac m dt i δ = some J ∧
      HasDerivV3 (fun t => (((s.along δ t).fea i).c.nor.rotated (Quat.exp ((s.along δ t).predDm a (m.gyr - (s.along δ t).gyb) dt 0 i))).vec)
        (((s.fea i).c.nor.rotated (Quat.exp (s.predDm a (m.gyr - s.gyb) dt 0 i))).M J.1) 0 ∧
      HasDerivAt (fun t => (s.along δ t).predDep a (m.gyr - (s.along δ t).gyb) dt 0 i) J.2 0 := by
  have hgn := MultiCamera.getNor_of_valid (hr.nor i)
  have hcr := deriv_camRor (s := s) m a δ
  have hcv := deriv_camVel hu m a δ
  have hn := Fea.deriv_nor (s.fea i) (hu.nor i) (δ.nor i)
  have hD := Fea.deriv_dist (s.fea i) hun (δ.dep i)
  have e0 : (s.along δ 0).camRor a (m.gyr - (s.along δ 0).gyb) = s.camRor a (m.gyr - s.gyb) := by
    unfold State.camRor; rw [s.at0_qCM δ a, s.at0_gyb δ]
  have e1 : (s.along δ 0).camVel a (m.gyr - (s.along δ 0).gyb) = s.camVel a (m.gyr - s.gyb) := by
    unfold State.camVel; rw [s.at0_qCM δ a, s.at0_gyb δ, s.at0_MrMC δ a, s.at0_vel δ]
  have hnorEq : ∀ t, ((s.along δ t).fea i).c.nor = (s.fea i).c.nor.boxPlus (t • δ.nor i) := fun t => by
    simp [State.along_fea, Fea.boxPlus, FC.setNor]
  have hdEq : ∀ t, ((s.along δ t).fea i).d = ⟨(s.fea i).d.type, (s.fea i).d.p + t * δ.dep i⟩ := fun t => rfl
  have en : ((s.fea i).c.nor.boxPlus ((0:ℝ) • δ.nor i)) = (s.fea i).c.nor := Nor.boxPlus_zero _ _
  have ed : getDistance ⟨(s.fea i).d.type, (s.fea i).d.p + 0 * δ.dep i⟩ = getDistance (s.fea i).d := by simp
  -- the rotation vector
  have hdm := deriv_dm hn hcv hcr hD (by rw [ed]; exact hd) dt 0 0
  rw [e0, e1, en, ed] at hdm
  have hdmEq : ∀ t, (s.along δ t).predDm a (m.gyr - (s.along δ t).gyb) dt 0 i =
      (-dt) • ((1 / getDistance ⟨(s.fea i).d.type, (s.fea i).d.p + t * δ.dep i⟩) • (M3.skew ((s.fea i).c.nor.boxPlus (t • δ.nor i)).vec).mulVec
        ((s.along δ t).camVel a (m.gyr - (s.along δ t).gyb)) +
        (M3.one - M3.outer ((s.fea i).c.nor.boxPlus (t • δ.nor i)).vec ((s.fea i).c.nor.boxPlus (t • δ.nor i)).vec).mulVec
          ((s.along δ t).camRor a (m.gyr - (s.along δ t).gyb))) + (0 + t • 0) := fun t => by
    unfold State.predDm bearingStep
    rw [hnorEq, hdEq]
    congr 1
    ext <;> simp [Nor.N]
  have hdm2 := hdm.congr hdmEq
  have hdm0 : (s.along δ 0).predDm a (m.gyr - (s.along δ 0).gyb) dt 0 i = bearingStep (s.fea i).c.nor (s.fea i).d (s.camVel a (m.gyr - s.gyb)) (s.camRor a (m.gyr - s.gyb)) dt 0 := by
    unfold State.predDm
    rw [e0, e1, hnorEq, en, hdEq]
    simp
  have hnOut := deriv_nOut hn hdm2
  rw [hdm0, en, V3.add_zero'] at hnOut
  -- the distance parameter
  have hpd : HasDerivAt (fun t : ℝ => getParameterDerivative ⟨(s.fea i).d.type, (s.fea i).d.p + t * δ.dep i⟩)
      (getParameterDerivativeCombined (s.fea i).d * δ.dep i) 0 := by
    have h1 := C02_combined_derivative (s.fea i).d.type (s.fea i).d.p hun
    have h2 : HasDerivAt (fun t : ℝ => (s.fea i).d.p + t * δ.dep i) (δ.dep i) 0 :=
      (((hasDerivAt_id' (0:ℝ)).mul_const (δ.dep i)).const_add _).congr_deriv (by simp)
    have h3 : HasDerivAt (fun q => getParameterDerivative ⟨(s.fea i).d.type, q⟩) (getParameterDerivativeCombined ⟨(s.fea i).d.type, (s.fea i).d.p⟩)
        ((s.fea i).d.p + 0 * δ.dep i) := by simpa using h1
    exact h3.comp 0 h2
  have hp : HasDerivAt (fun t : ℝ => (s.fea i).d.p + t * δ.dep i) (δ.dep i) 0 :=
    (((hasDerivAt_id' (0:ℝ)).mul_const (δ.dep i)).const_add _).congr_deriv (by simp)
  have hdep := hp.sub ((hpd.const_mul dt).mul (hn.dot hcv))
  rw [e1, en] at hdep
  refine ⟨(((s.fea i).c.nor.rotated (Quat.exp (s.predDm a (m.gyr - s.gyb) dt 0 i))).Mt (s.feaJacVec m dt i a (s.fea i).c.nor δ),
    s.feaJacDep m dt i a (s.fea i).c.nor δ), ?_, ?_, ?_⟩
  · unfold State.feaJac
    simp only [ha, hgn, Option.bind_eq_bind, Option.bind_some, Option.pure_def]
    rfl
  · have hrv : ∀ (nor : Nor) (q : Quat), (nor.rotated q).vec = q.rotate nor.vec := fun nor q => Quat.rotate_mul _ _ _
    have hun' : ((s.fea i).c.nor.rotated (Quat.exp (s.predDm a (m.gyr - s.gyb) dt 0 i))).q.IsUnit := (Quat.isUnit_exp _).mul (hu.nor i)
    dsimp only
    rw [Nor.M_Mt_of_orth hun', feaJacVec_eq]
    · refine hnOut.congr fun t => ?_
      rw [hnorEq]
    · rw [feaJacVec_eq, hrv]
      have hp := Quat.dot_rotate (Quat.isUnit_exp (s.predDm a (m.gyr - s.gyb) dt 0 i)) (s.fea i).c.nor.vec ((s.fea i).c.nor.M (δ.nor i))
      rw [Nor.vec_M (hu.nor i)] at hp
      rw [show ∀ x y z : V3, x.dot (y.cross x + z) = x.dot z from fun x y z => by simp [V3.dot]; ring, hp]
  · refine (hdep.congr_deriv ?_).congr_of_eventuallyEq (Filter.Eventually.of_forall fun t => ?_)
    · have h1 : (1.0 : ℝ) = 1 := by norm_num
      unfold State.feaJacDep
      simp only [h1, M3.mul_mulVec, V3.skew_mulVec, Quat.mat_mulVec]
      generalize (s.fea i).c.nor.M (δ.nor i) = n'
      generalize (s.fea i).c.nor.vec = nv
      generalize s.camVel a (m.gyr - s.gyb) = cv
      generalize (m.gyr - s.gyb) = ror
      generalize (s.qCM a).rotate (s.MrMC a) = r
      generalize (s.qCM a).rotate δ.gyb = g'
      generalize (s.qCM a).rotate δ.vel = v'
      simp only [zero_mul, add_zero]
      rw [show (⟨(s.fea i).d.type, (s.fea i).d.p⟩ : FeatureDistance) = (s.fea i).d from rfl]
      cases s.aux.doVE
      · simp only [Bool.false_eq_true, if_false]
        rw [show (ror.cross 0) = 0 by ext <;> simp, Quat.rotate_zero]
        simp [V3.dot]; ring
      · simp only [if_true]
        generalize (s.qCM a).rotate (ror.cross (δ.vep a)) = p'
        simp [V3.dot]; ring
    · unfold State.predDep
      dsimp only [Pi.sub_apply, Pi.mul_apply]
      rw [hnorEq, hdEq]
      simp

/-! ### C51: the state Jacobian -/

/-- The predicted bearing at the start of a curve of states. -/
lemma nor_at0 {s : State n nCam nPose} {cfg : PredCfg} {m : ImuMeas} {dt : ℝ} {δ : DState n nCam nPose} {x : State n nCam nPose}
    (f : PredFacts cfg m (s.along δ 0) 0 dt x) {i : Fin n} {a : Fin nCam} (ha : camIdx nCam (s.fea i).c.camID = some a) :
    (x.fea i).c.nor = (s.fea i).c.nor.rotated (Quat.exp (s.predDm a (m.gyr - s.gyb) dt 0 i)) := by
  have ff := f.fea i a (by rw [s.along_fea, Fea.boxPlus_cam]; exact ha)
  have hz : m.gyr - (s.along δ 0).gyb + (1 / Real.sqrt dt) • (0 : DState n nCam nPose).att = m.gyr - s.gyb := by
    simp only [DState.zero_att, V3.smul_zero', V3.add_zero', s.at0_gyb δ]
  rw [hz] at ff
  have e1 : ((s.along δ 0).fea i).c.nor = (s.fea i).c.nor := by
    rw [s.along_fea]; simp only [Fea.boxPlus, FC.setNor]; simp [Nor.boxPlus_zero]
  have e2 : (s.along δ 0).predDm a (m.gyr - s.gyb) dt 0 i = s.predDm a (m.gyr - s.gyb) dt 0 i := by
    unfold State.predDm State.camVel State.camRor
    rw [e1, s.at0_qCM δ a, s.at0_MrMC δ a, s.at0_vel δ]
    congr 1
    show (⟨(s.fea i).d.type, (s.fea i).d.p + 0 * δ.dep i⟩ : FeatureDistance) = _
    simp
  rw [ff.nor, e1, e2]

/-- C51: the state Jacobian of the prediction is its derivative: for every increment of the state, moving the state along the
increment and predicting moves the predicted state with the derivative the Jacobian reports, in every component (position,
velocity, biases, attitude, extrinsics, alignments, and the bearings and distance parameters of all occupied slots). -/
theorem C51_state (s : State n nCam nPose) (hr : Ready s) (hu : UnitState s) (cfg : PredCfg) (m : ImuMeas) (out : State n nCam nPose) (dt : ℝ) (hdt : 0 < dt)
    (hd : ∀ i a, camIdx nCam (s.fea i).c.camID = some a → Unclamped (s.fea i).d.type (s.fea i).d.p ∧ getDistance (s.fea i).d ≠ 0) (δ : DState n nCam nPose) :
    ∃ (F : ℝ → State n nCam nPose) (J : DState n nCam nPose), (∀ t, State.evalPrediction cfg m true out (s.along δ t) 0 dt = some (F t)) ∧
      s.predJac m dt δ = some J ∧ HasDerivState F J (fun i => (camIdx nCam (s.fea i).c.camID).isSome) True := by
  have hcam : ∀ t i, ((s.along δ t).fea i).c.camID = (s.fea i).c.camID := fun t i => by rw [s.along_fea]; exact Fea.boxPlus_cam _ _ _
  choose F hF f using fun t => evalPrediction_facts (ready_along hr δ t) (unitState_along hu δ t) cfg m out 0 hdt
  have hJ : ∀ i, ∃ J : V2 × ℝ, s.feaJac m dt i δ = some J ∧ ((camIdx nCam (s.fea i).c.camID).isSome → HasDerivV3 (fun t => ((F t).fea i).c.nor.vec) (((F 0).fea i).c.nor.M J.1) 0 ∧
      HasDerivAt (fun t => ((F t).fea i).d.p) J.2 0) := by
    intro i
    cases ha : camIdx nCam (s.fea i).c.camID with
    | none => exact ⟨(0, 0), by simp only [State.feaJac, ha], fun h => by simp at h⟩
    | some a =>
      obtain ⟨J, h1, h2, h3⟩ := deriv_fea hr hu m δ dt ha (hd i a ha).1 (hd i a ha).2
      have hz : ∀ t, m.gyr - (s.along δ t).gyb + (1 / Real.sqrt dt) • (0 : DState n nCam nPose).att = m.gyr - (s.along δ t).gyb := fun t => by
        simp only [DState.zero_att, V3.smul_zero', V3.add_zero']
      have ff := fun t => (f t).fea i a (by rw [hcam]; exact ha)
      simp only [hz] at ff
      refine ⟨J, h1, fun _ => ⟨?_, ?_⟩⟩
      · have e0 := nor_at0 (f 0) ha
        rw [e0]
        exact h2.congr fun t => by rw [(ff t).nor]
      · refine h3.congr_of_eventuallyEq (Filter.Eventually.of_forall fun t => ?_)
        show ((F t).fea i).d.p = _
        rw [(ff t).d]
  choose J hJ1 hJ2 using hJ
  have hz : ∀ v : V3, v + (1 / Real.sqrt dt) • (0 : V3) = v := fun v => by rw [V3.smul_zero', V3.add_zero']
  have hz' : ∀ v : V3, v - (1 / Real.sqrt dt) • (0 : V3) = v := fun v => by rw [V3.smul_zero', V3.sub_zero']
  have hz2 : ∀ v : V3, v + Real.sqrt dt • (0 : V3) = v := fun v => by rw [V3.smul_zero', V3.add_zero']
  refine ⟨F, s.predJacOf m dt δ J, hF, by rw [State.predJac, optAll_some hJ1]; rfl,
    ⟨?_, ?_, ?_, ?_, ?_, fun _ c => ?_, fun _ c => ?_, fun i hi => (hJ2 i hi).1, fun i hi => (hJ2 i hi).2, fun k => ?_, fun k => ?_⟩⟩
  · refine (((s.deriv_pos δ).sub (((s.deriv_att δ).rotate (s.deriv_vel δ)).const_smul dt)).congr fun t => ?_).congr_deriv ?_
    · rw [(f t).pos, DState.zero_pos, hz']
    · rw [s.at0_att δ, s.at0_vel δ]
      simp only [State.predJacOf, M3.one_mulVec, M3.smul_mulVec, V3.skew_mulVec, Quat.mat_mulVec]
      generalize s.att.rotate s.vel = x
      generalize s.att.rotate δ.vel = y
      ext <;> simp <;> ring
  · have hg := ((s.deriv_att δ).inv (by rw [s.at0_att δ]; exact hu.att)).rotate (HasDerivV3.const (t := 0) gravity)
    have hror := ((HasDerivV3.const (t := 0) m.gyr).sub (s.deriv_gyb δ)).const_smul dt
    refine ((((s.deriv_vel δ).sub (hror.cross (s.deriv_vel δ))).sub
      ((((HasDerivV3.const (t := 0) m.acc).sub (s.deriv_acb δ)).add hg).const_smul dt)).congr fun t => ?_).congr_deriv ?_
    · rw [(f t).vel, DState.zero_att, DState.zero_vel, hz, hz', M3.sub_mulVec, M3.one_mulVec, V3.skew_mulVec]
    · rw [s.at0_att δ, s.at0_vel δ, s.at0_gyb δ]
      simp only [State.predJacOf, M3.one_mulVec, M3.smul_mulVec, M3.sub_mulVec, M3.mul_mulVec, V3.skew_mulVec, ← Quat.mat_inv, Quat.mat_mulVec]
      rw [show -(s.att.inv.rotate δ.att) = s.att.inv.rotate (-δ.att) by rw [Quat.rotate_neg], Quat.cross_rotate hu.att.inv, Quat.rotate_zero]
      rw [show gravity.cross δ.att = (-δ.att).cross gravity by ext <;> simp <;> ring]
      generalize s.att.inv.rotate ((-δ.att).cross gravity) = x
      ext <;> simp <;> ring
  · refine ((s.deriv_acb δ).congr fun t => by rw [(f t).acb, DState.zero_acb, hz2]).congr_deriv ?_
    simp only [State.predJacOf, M3.one_mulVec]
  · refine ((s.deriv_gyb δ).congr fun t => by rw [(f t).gyb, DState.zero_gyb, hz2]).congr_deriv ?_
    simp only [State.predJacOf, M3.one_mulVec]
  · have hror := ((HasDerivV3.const (t := 0) m.gyr).sub (s.deriv_gyb δ)).const_smul dt
    refine (((s.deriv_att δ).mul (hasAngVel_exp hror) (by rw [s.at0_att δ]; exact hu.att)).congr fun t => by rw [(f t).att, DState.zero_att, hz]).congr_deriv ?_
    rw [s.at0_att δ, s.at0_gyb δ]
    simp only [State.predJacOf, M3.one_mulVec, M3.smul_mulVec, M3.mul_mulVec, Quat.mat_mulVec]
    rw [show ∀ x : V3, (Lmat (dt • (m.gyr - s.gyb))).mulVec (dt • (0 - x)) = (-dt) • (Lmat (dt • (m.gyr - s.gyb))).mulVec x from fun x => by
      generalize Lmat (dt • (m.gyr - s.gyb)) = L
      ext <;> simp [M3.mulVec, V3.dot] <;> ring, Quat.rotate_smul]
    ext <;> simp <;> ring
  · cases hv : s.aux.doVE
    · refine (HasDerivV3.line (s.vep c) (δ.vep c)).congr (fun t => ?_) |>.congr_deriv ?_
      · rw [((f t).vep hv).1]; rfl
      · simp only [State.predJacOf, M3.one_mulVec]
    · refine (HasDerivV3.line (s.vep c) (δ.vep c)).congr (fun t => ?_) |>.congr_deriv ?_
      · have h := (f t).MrMC c
        have hv' : (F t).aux.doVE = true := (f t).doVE.trans hv
        have hv'' : (s.along δ t).aux.doVE = true := hv
        simp only [State.MrMC, hv', hv'', if_true, DState.zero_vep, hz2] at h
        exact h
      · simp only [State.predJacOf, M3.one_mulVec]
  · cases hv : s.aux.doVE
    · refine (HasAngVel.boxPlus (s.vea c) (δ.vea c)).congr (fun t => ?_) |>.congr_deriv ?_
      · rw [((f t).vep hv).2]; rfl
      · simp only [State.predJacOf, M3.one_mulVec]
    · refine (HasAngVel.boxPlus (s.vea c) (δ.vea c)).congr (fun t => ?_) |>.congr_deriv ?_
      · have h := (f t).qCM c
        have hv' : (F t).aux.doVE = true := (f t).doVE.trans hv
        have hv'' : (s.along δ t).aux.doVE = true := hv
        simp only [State.qCM, hv', hv'', if_true, DState.zero_vea, V3.smul_zero', Quat.exp_zero, Quat.one_mul'] at h
        exact h
      · simp only [State.predJacOf, M3.one_mulVec]
  · refine (HasDerivV3.line (s.pop k) (δ.pop k)).congr (fun t => ?_) |>.congr_deriv ?_
    · rw [(f t).pop, DState.zero_pop, hz2]; rfl
    · simp only [State.predJacOf, M3.one_mulVec]
  · refine (HasAngVel.boxPlus (s.poa k) (δ.poa k)).congr (fun t => ?_) |>.congr_deriv ?_
    · rw [(f t).poa, DState.zero_poa, V3.smul_zero', Quat.exp_zero, Quat.one_mul']; rfl
    · simp only [State.predJacOf, M3.one_mulVec]

/-! ### C51: the noise Jacobian -/

lemma Nor.N_smul (m : Nor) (t : ℝ) (u : V2) : m.N (t • u) = t • m.N u := by
  ext <;> simp [Nor.N] <;> ring

lemma dt_div_sqrt {dt : ℝ} (h : 0 < dt) : dt * (1 / Real.sqrt dt) = Real.sqrt dt := by
  have h1 := Real.sqrt_pos.mpr h
  have h2 := Real.mul_self_sqrt h.le
  field_simp
  nlinarith

/-- The noise rows of a slot are the derivatives of its predicted bearing and distance parameter. -/
lemma deriv_fea_noise {s : State n nCam nPose} (hr : Ready s) (hu : UnitState s) (m : ImuMeas) (w : DState n nCam nPose) {dt : ℝ} (hdt : 0 < dt) {i : Fin n} {a : Fin nCam}
    (ha : camIdx nCam (s.fea i).c.camID = some a) (hd : getDistance (s.fea i).d ≠ 0) :
    ∃ J : V2 × ℝ, s.feaNoise m dt i w = some J ∧
      HasDerivV3 (fun t => ((s.fea i).c.nor.rotated (Quat.exp (s.predDm a (m.gyr - s.gyb + (1 / Real.sqrt dt) • (t • w.att)) dt (w.scale t) i))).vec)
        (((s.fea i).c.nor.rotated (Quat.exp (s.predDm a (m.gyr - s.gyb) dt 0 i))).M J.1) 0 ∧
      HasDerivAt (fun t => s.predDep a (m.gyr - s.gyb + (1 / Real.sqrt dt) • (t • w.att)) dt (w.scale t) i) J.2 0 := by
  have hgn := MultiCamera.getNor_of_valid (hr.nor i)
  have hsq := dt_div_sqrt hdt
  have hror : HasDerivV3 (fun t : ℝ => m.gyr - s.gyb + (1 / Real.sqrt dt) • (t • w.att)) ((1 / Real.sqrt dt) • w.att) 0 :=
    (HasDerivV3.line (t := 0) (m.gyr - s.gyb) ((1 / Real.sqrt dt) • w.att)).congr fun t => by ext <;> simp <;> ring
  have hcr : HasDerivV3 (fun t : ℝ => s.camRor a (m.gyr - s.gyb + (1 / Real.sqrt dt) • (t • w.att))) ((s.qCM a).rotate ((1 / Real.sqrt dt) • w.att)) 0 :=
    hror.rotate_const _
  have hcv : HasDerivV3 (fun t : ℝ => s.camVel a (m.gyr - s.gyb + (1 / Real.sqrt dt) • (t • w.att)))
      ((s.qCM a).rotate (((1 / Real.sqrt dt) • w.att).cross (s.MrMC a))) 0 := by
    refine ((hror.cross (HasDerivV3.const (s.MrMC a))).sub (HasDerivV3.const s.vel)).rotate_const (s.qCM a) |>.congr_deriv ?_
    congr 1
    ext <;> simp
  have hn := HasDerivV3.const (t := 0) (s.fea i).c.nor.vec
  have e : m.gyr - s.gyb + (1 / Real.sqrt dt) • ((0:ℝ) • w.att) = m.gyr - s.gyb := by ext <;> simp
  have hdm := deriv_dm hn hcv hcr (hasDerivAt_const (0:ℝ) (getDistance (s.fea i).d)) hd dt 0 (Real.sqrt dt • (s.fea i).c.nor.N (w.nor i))
  have hdmEq : ∀ t, s.predDm a (m.gyr - s.gyb + (1 / Real.sqrt dt) • (t • w.att)) dt (w.scale t) i = _ := fun t => by
    show bearingStep (s.fea i).c.nor (s.fea i).d _ _ dt (t • w.nor i) = (-dt) • ((1 / getDistance (s.fea i).d) • (M3.skew (s.fea i).c.nor.vec).mulVec
        (s.camVel a (m.gyr - s.gyb + (1 / Real.sqrt dt) • (t • w.att))) +
        (M3.one - M3.outer (s.fea i).c.nor.vec (s.fea i).c.nor.vec).mulVec (s.camRor a (m.gyr - s.gyb + (1 / Real.sqrt dt) • (t • w.att)))) +
        (0 + t • (Real.sqrt dt • (s.fea i).c.nor.N (w.nor i)))
    unfold bearingStep
    rw [Nor.N_smul]
    congr 1
    ext <;> simp <;> ring
  have hdm2 := hdm.congr hdmEq
  have hdm0 : s.predDm a (m.gyr - s.gyb + (1 / Real.sqrt dt) • ((0:ℝ) • w.att)) dt (w.scale 0) i = s.predDm a (m.gyr - s.gyb) dt 0 i := by
    rw [e]
    show bearingStep _ _ _ _ dt ((0:ℝ) • w.nor i) = bearingStep _ _ _ _ dt 0
    congr 1
    ext <;> simp
  have hnOut := deriv_nOut (nor := fun _ => (s.fea i).c.nor) hn hdm2
  rw [hdm0, e] at hnOut
  have hvec : s.feaNoiseVec m dt i a (s.fea i).c.nor w =
      ((Lmat (s.predDm a (m.gyr - s.gyb) dt 0 i)).mulVec ((-dt) • ((1 / getDistance (s.fea i).d) • ((0 : V3).cross (s.camVel a (m.gyr - s.gyb)) +
          (s.fea i).c.nor.vec.cross ((s.qCM a).rotate (((1 / Real.sqrt dt) • w.att).cross (s.MrMC a)))) -
          (0 / getDistance (s.fea i).d ^ 2) • (s.fea i).c.nor.vec.cross (s.camVel a (m.gyr - s.gyb)) +
          (s.qCM a).rotate ((1 / Real.sqrt dt) • w.att) -
          ((0 : V3).dot (s.camRor a (m.gyr - s.gyb)) + (s.fea i).c.nor.vec.dot ((s.qCM a).rotate ((1 / Real.sqrt dt) • w.att))) • (s.fea i).c.nor.vec -
          (s.fea i).c.nor.vec.dot (s.camRor a (m.gyr - s.gyb)) • 0) + Real.sqrt dt • (s.fea i).c.nor.N (w.nor i))).cross
        ((Quat.exp (s.predDm a (m.gyr - s.gyb) dt 0 i)).rotate (s.fea i).c.nor.vec) +
        (Quat.exp (s.predDm a (m.gyr - s.gyb) dt 0 i)).rotate 0 := by
    have h1 : (1.0 : ℝ) = 1 := by norm_num
    have hdm : bearingStep (s.fea i).c.nor (s.fea i).d (s.camVel a (m.gyr - s.gyb)) (s.camRor a (m.gyr - s.gyb)) dt 0 = s.predDm a (m.gyr - s.gyb) dt 0 i := rfl
    unfold State.feaNoiseVec
    simp only [hdm, h1, ← Quat.cross_rotate (hu.qCM a), Quat.rotate_smul, Quat.rotate_zero]
    simp only [M3.mul_mulVec, M3.add_mulVec, M3.sub_mulVec, M3.neg_mulVec, M3.smul_mulVec, M3.one_mulVec, M3.outer_mulVec, V3.skew_mulVec, Quat.mat_mulVec]
    rw [show ∀ (x : V3) (c : ℝ), -dt • (c • ((0 : V3).cross (s.camVel a (m.gyr - s.gyb)) + x.cross (((1 / Real.sqrt dt) • (s.qCM a).rotate w.att).cross ((s.qCM a).rotate (s.MrMC a)))) -
          (0 / getDistance (s.fea i).d ^ 2) • x.cross (s.camVel a (m.gyr - s.gyb)) + (1 / Real.sqrt dt) • (s.qCM a).rotate w.att -
          ((0 : V3).dot (s.camRor a (m.gyr - s.gyb)) + x.dot ((1 / Real.sqrt dt) • (s.qCM a).rotate w.att)) • x - x.dot (s.camRor a (m.gyr - s.gyb)) • 0) =
          (-(dt * (1 / Real.sqrt dt))) • (c • x.cross (((s.qCM a).rotate w.att).cross ((s.qCM a).rotate (s.MrMC a))) + (s.qCM a).rotate w.att - x.dot ((s.qCM a).rotate w.att) • x) from
        fun x c => by
          generalize (s.qCM a).rotate w.att = y
          generalize (s.qCM a).rotate (s.MrMC a) = z
          generalize 1 / Real.sqrt dt = k
          simp only [zero_div]
          ext <;> simp [V3.dot] <;> ring]
    rw [hsq]
    generalize (s.fea i).c.nor.vec = nv
    generalize s.predDm a (m.gyr - s.gyb) dt 0 i = dm
    generalize (s.qCM a).rotate (s.MrMC a) = r
    generalize (s.qCM a).rotate w.att = y
    generalize getDistance (s.fea i).d = D
    generalize Lmat dm = L
    generalize (Quat.exp dm).rotate nv = nO
    generalize (s.fea i).c.nor.N (w.nor i) = nn
    generalize Real.sqrt dt = k
    obtain ⟨⟨a1, a2, a3⟩, ⟨b1, b2, b3⟩, ⟨c1, c2, c3⟩⟩ := L
    ext <;> simp [M3.mulVec, V3.dot] <;> ring
  refine ⟨(((s.fea i).c.nor.rotated (Quat.exp (s.predDm a (m.gyr - s.gyb) dt 0 i))).Mt (s.feaNoiseVec m dt i a (s.fea i).c.nor w),
    s.feaNoiseDep dt i a (s.fea i).c.nor w), ?_, ?_, ?_⟩
  · unfold State.feaNoise
    simp only [ha, hgn, Option.bind_eq_bind, Option.bind_some, Option.pure_def]
    rfl
  · have hrv : ∀ (nor : Nor) (q : Quat), (nor.rotated q).vec = q.rotate nor.vec := fun nor q => Quat.rotate_mul _ _ _
    have hun' : ((s.fea i).c.nor.rotated (Quat.exp (s.predDm a (m.gyr - s.gyb) dt 0 i))).q.IsUnit := (Quat.isUnit_exp _).mul (hu.nor i)
    dsimp only
    rw [Nor.M_Mt_of_orth hun', hvec]
    · exact hnOut
    · rw [hvec, hrv, Quat.rotate_zero]
      rw [show ∀ x y : V3, x.dot (y.cross x + 0) = 0 from fun x y => by simp [V3.dot]; ring]
  · have h1 : HasDerivAt (fun t : ℝ => t * w.dep i * Real.sqrt dt) (w.dep i * Real.sqrt dt) 0 :=
      ((hasDerivAt_id' (0:ℝ)).mul_const (w.dep i)).mul_const (Real.sqrt dt) |>.congr_deriv (by simp)
    have hdep := (((hn.dot hcv).const_mul (dt * getParameterDerivative (s.fea i).d)).const_sub (s.fea i).d.p).add h1
    rw [e] at hdep
    refine (hdep.congr_deriv ?_).congr_of_eventuallyEq (Filter.Eventually.of_forall fun t => ?_)
    · unfold State.feaNoiseDep
      simp only [M3.mul_mulVec, V3.skew_mulVec, Quat.mat_mulVec, ← Quat.cross_rotate (hu.qCM a), Quat.rotate_smul]
      generalize 1 / Real.sqrt dt = k at hsq ⊢
      rw [← hsq]
      generalize (s.fea i).c.nor.vec = nv
      generalize (s.qCM a).rotate (s.MrMC a) = r
      generalize (s.qCM a).rotate w.att = y
      simp [V3.dot]; ring
    · rfl

/-- C51: the noise Jacobian of the prediction is its derivative with respect to the process noise, in every component; the
extrinsics are included when they are estimated online (see `C51_finding_extrinsic_noise` otherwise). -/
theorem C51_noise (s : State n nCam nPose) (hr : Ready s) (hu : UnitState s) (cfg : PredCfg) (m : ImuMeas) (out : State n nCam nPose) (dt : ℝ) (hdt : 0 < dt)
    (hd : ∀ i a, camIdx nCam (s.fea i).c.camID = some a → getDistance (s.fea i).d ≠ 0) (w : DState n nCam nPose) :
    ∃ (F : ℝ → State n nCam nPose) (J : DState n nCam nPose), (∀ t, State.evalPrediction cfg m true out s (w.scale t) dt = some (F t)) ∧
      s.noiseJac m dt w = some J ∧ HasDerivState F J (fun i => (camIdx nCam (s.fea i).c.camID).isSome) (s.aux.doVE = true) := by
  choose F hF f using fun t => evalPrediction_facts hr hu cfg m out (w.scale t) hdt
  have hsq := dt_div_sqrt hdt
  have hJ : ∀ i, ∃ J : V2 × ℝ, s.feaNoise m dt i w = some J ∧ ((camIdx nCam (s.fea i).c.camID).isSome → HasDerivV3 (fun t => ((F t).fea i).c.nor.vec) (((F 0).fea i).c.nor.M J.1) 0 ∧
      HasDerivAt (fun t => ((F t).fea i).d.p) J.2 0) := by
    intro i
    cases ha : camIdx nCam (s.fea i).c.camID with
    | none => exact ⟨(0, 0), by simp only [State.feaNoise, ha], fun h => by simp at h⟩
    | some a =>
      obtain ⟨J, h1, h2, h3⟩ := deriv_fea_noise hr hu m w hdt ha (hd i a ha)
      have ff := fun t => (f t).fea i a ha
      refine ⟨J, h1, fun _ => ⟨?_, ?_⟩⟩
      · have e0 : ((F 0).fea i).c.nor = (s.fea i).c.nor.rotated (Quat.exp (s.predDm a (m.gyr - s.gyb) dt 0 i)) := by
          rw [(ff 0).nor]
          congr 2
          rw [show m.gyr - s.gyb + (1 / Real.sqrt dt) • (w.scale 0).att = m.gyr - s.gyb by ext <;> simp [DState.scale]]
          show bearingStep _ _ _ _ dt ((0:ℝ) • w.nor i) = bearingStep _ _ _ _ dt 0
          congr 1
          ext <;> simp
        rw [e0]
        exact h2.congr fun t => by rw [(ff t).nor]; rfl
      · refine h3.congr_of_eventuallyEq (Filter.Eventually.of_forall fun t => ?_)
        show ((F t).fea i).d.p = _
        rw [(ff t).d]
        rfl
  choose J hJ1 hJ2 using hJ
  have lin : ∀ (v u : V3), HasDerivV3 (fun t : ℝ => v + Real.sqrt dt • (t • u)) ((Real.sqrt dt • M3.one).mulVec u) 0 := fun v u => by
    refine (HasDerivV3.line (t := 0) v (Real.sqrt dt • u)).congr (fun t => ?_) |>.congr_deriv ?_
    · ext <;> simp <;> ring
    · rw [M3.smul_mulVec, M3.one_mulVec]
  have ang : ∀ (q : Quat) (u : V3), HasAngVel (fun t : ℝ => Quat.exp (Real.sqrt dt • (t • u)) * q) ((Real.sqrt dt • M3.one).mulVec u) 0 := fun q u => by
    refine (HasAngVel.boxPlus q (Real.sqrt dt • u)).congr (fun t => ?_) |>.congr_deriv ?_
    · unfold Quat.boxPlus
      rw [show Real.sqrt dt • (t • u) = t • (Real.sqrt dt • u) by ext <;> simp <;> ring]
    · rw [M3.smul_mulVec, M3.one_mulVec]
  have hror : HasDerivV3 (fun t : ℝ => dt • (m.gyr - s.gyb + (1 / Real.sqrt dt) • (t • w.att))) (Real.sqrt dt • w.att) 0 := by
    refine (HasDerivV3.line (t := 0) (dt • (m.gyr - s.gyb)) (Real.sqrt dt • w.att)).congr (fun t => ?_)
    generalize 1 / Real.sqrt dt = k at hsq ⊢
    rw [← hsq]
    ext <;> simp <;> ring
  have e : m.gyr - s.gyb + (1 / Real.sqrt dt) • ((0:ℝ) • w.att) = m.gyr - s.gyb := by ext <;> simp
  refine ⟨F, s.noiseJacOf m dt w J, hF, by rw [State.noiseJac, optAll_some hJ1]; rfl,
    ⟨?_, ?_, ?_, ?_, ?_, fun hv c => ?_, fun hv c => ?_, fun i hi => (hJ2 i hi).1, fun i hi => (hJ2 i hi).2, fun k => ?_, fun k => ?_⟩⟩
  · refine (lin (s.pos - dt • s.att.rotate s.vel) w.pos).congr fun t => ?_
    rw [(f t).pos]
    generalize 1 / Real.sqrt dt = k at hsq ⊢
    rw [← hsq]
    ext <;> simp [DState.scale] <;> ring
  · refine ((((HasDerivV3.const (t := 0) s.vel).sub (hror.cross (HasDerivV3.const s.vel))).sub
      (HasDerivV3.const (dt • (m.acc - s.acb + s.att.inv.rotate gravity)))).add (lin 0 w.vel) |>.congr fun t => ?_).congr_deriv ?_
    · rw [(f t).vel, M3.sub_mulVec, M3.one_mulVec, V3.skew_mulVec]
      generalize 1 / Real.sqrt dt = k at hsq ⊢
      rw [← hsq]
      ext <;> simp [DState.scale] <;> ring
    · simp only [State.noiseJacOf, M3.smul_mulVec, M3.one_mulVec, V3.skew_mulVec]
      ext <;> simp <;> ring
  · exact (lin s.acb w.acb).congr fun t => (f t).acb
  · exact (lin s.gyb w.gyb).congr fun t => (f t).gyb
  · refine (((HasAngVel.const (t := 0) s.att).mul (hasAngVel_exp hror) hu.att).congr fun t => (f t).att).congr_deriv ?_
    rw [e]
    simp only [State.noiseJacOf, M3.smul_mulVec, M3.mul_mulVec, Quat.mat_mulVec]
    rw [show ∀ x : V3, (Lmat (dt • (m.gyr - s.gyb))).mulVec (Real.sqrt dt • x) = Real.sqrt dt • (Lmat (dt • (m.gyr - s.gyb))).mulVec x from fun x => by
      generalize Lmat (dt • (m.gyr - s.gyb)) = L
      ext <;> simp [M3.mulVec, V3.dot] <;> ring, Quat.rotate_smul]
    ext <;> simp
  · refine (lin (s.vep c) (w.vep c)).congr fun t => ?_
    have h := (f t).MrMC c
    have hv' : (F t).aux.doVE = true := (f t).doVE.trans hv
    simp only [State.MrMC, hv', hv, if_true] at h
    exact h
  · refine (ang (s.vea c) (w.vea c)).congr fun t => ?_
    have h := (f t).qCM c
    have hv' : (F t).aux.doVE = true := (f t).doVE.trans hv
    simp only [State.qCM, hv', hv, if_true] at h
    exact h
  · exact (lin (s.pop k) (w.pop k)).congr fun t => (f t).pop k
  · exact (ang (s.poa k) (w.poa k)).congr fun t => (f t).poa k

/-- C51 (finding): without online calibration the noise Jacobian still charges the extrinsics with process noise (the covariance
of the camera position grows) although the prediction leaves the extrinsic states alone: the noise goes into the fixed
calibration used instead. -/
theorem C51_finding_extrinsic_noise (s : State n nCam nPose) (hr : Ready s) (hu : UnitState s) (hv : s.aux.doVE = false) (cfg : PredCfg) (m : ImuMeas)
    (out : State n nCam nPose) (dt : ℝ) (hdt : 0 < dt) (w : DState n nCam nPose) :
    ∃ s', State.evalPrediction cfg m true out s w dt = some s' ∧ s'.vep = s.vep ∧ s'.vea = s.vea ∧
      (∀ c, s'.aux.MrMC c = s.aux.MrMC c + Real.sqrt dt • w.vep c) ∧
      ∀ J, s.noiseJac m dt w = some J → ∀ c, J.vep c = Real.sqrt dt • w.vep c := by
  obtain ⟨s', e, f⟩ := evalPrediction_facts hr hu cfg m out w hdt
  refine ⟨s', e, (f.vep hv).1, (f.vep hv).2, fun c => ?_, fun J hJ c => ?_⟩
  · have h := f.MrMC c
    have hv' : s'.aux.doVE = false := f.doVE.trans hv
    simpa only [State.MrMC, hv', hv, Bool.false_eq_true, if_false] using h
  · obtain ⟨g, -, rfl⟩ := Option.map_eq_some_iff.mp hJ
    simp only [State.noiseJacOf, M3.smul_mulVec, M3.one_mulVec]

/-- C51 (finding): a slot without a camera is left as it is by the prediction, but its rows of the state Jacobian are zero: the
Jacobian claims that the slot forgets its previous value. -/
theorem C51_finding_unused_slot (s : State n nCam nPose) (hr : Ready s) (hu : UnitState s) (cfg : PredCfg) (m : ImuMeas) (out : State n nCam nPose) (dt : ℝ) (hdt : 0 < dt)
    (i : Fin n) (hi : camIdx nCam (s.fea i).c.camID = none) (δ J : DState n nCam nPose) (hJ : s.predJac m dt δ = some J) :
    J.dep i = 0 ∧ ∀ t, ∃ s', State.evalPrediction cfg m true out (s.along δ t) 0 dt = some s' ∧ (s'.fea i).d.p = (s.fea i).d.p + t * δ.dep i := by
  refine ⟨?_, fun t => ?_⟩
  · obtain ⟨g, hg, rfl⟩ := Option.map_eq_some_iff.mp hJ
    have h := optAll_eq_some hg i
    simp only [State.feaJac, hi] at h
    simp only [State.predJacOf, ← Option.some.inj h]
  · obtain ⟨s', e, f⟩ := evalPrediction_facts (ready_along hr δ t) (unitState_along hu δ t) cfg m out 0 hdt
    refine ⟨s', e, ?_⟩
    rw [f.unused i (by rw [s.along_fea, Fea.boxPlus_cam]; exact hi)]
    rfl

/-- Non-vacuity of `C51_state` and `C51_noise`: one landmark in the second camera, online calibration. -/
example (δ w : DState 1 2 1) :
    (∃ (F : ℝ → State 1 2 1) (J : DState 1 2 1), (∀ t, State.evalPrediction ⟨0.1, 0.1, M3.one⟩ ⟨⟨0, 1, 9⟩, ⟨1, 2, 3⟩⟩ true (demoState true 1) ((demoState true 1).along δ t) 0 0.05 = some (F t)) ∧
      (demoState true 1).predJac ⟨⟨0, 1, 9⟩, ⟨1, 2, 3⟩⟩ 0.05 δ = some J ∧ HasDerivState F J (fun i => (camIdx 2 ((demoState true 1).fea i).c.camID).isSome) True) ∧
    (∃ (F : ℝ → State 1 2 1) (J : DState 1 2 1), (∀ t, State.evalPrediction ⟨0.1, 0.1, M3.one⟩ ⟨⟨0, 1, 9⟩, ⟨1, 2, 3⟩⟩ true (demoState true 1) (demoState true 1) (w.scale t) 0.05 = some (F t)) ∧
      (demoState true 1).noiseJac ⟨⟨0, 1, 9⟩, ⟨1, 2, 3⟩⟩ 0.05 w = some J ∧ HasDerivState F J (fun i => (camIdx 2 ((demoState true 1).fea i).c.camID).isSome) ((demoState true 1).aux.doVE = true)) := by
  have hmk : makeNonZero 0.5 = 0.5 := by norm_num [makeNonZero]
  have hd : ∀ i : Fin 1, getDistance ((demoState true 1).fea i).d ≠ 0 := fun i => by
    show 1 / makeNonZero 0.5 ≠ 0
    rw [hmk]; norm_num
  refine ⟨C51_state _ (demoState_ready _ _) (demoState_unit _ _) _ _ _ _ (by norm_num) (fun i a _ => ⟨?_, hd i⟩) δ,
    C51_noise _ (demoState_ready _ _) (demoState_unit _ _) _ _ _ _ (by norm_num) (fun i a _ => hd i) w⟩
  norm_num [demoState, Unclamped, abs_of_pos]

/-! ### C74: transport of the patch warping -/

/-- A direction in the tangent plane of one bearing, nothing else moving. -/
def DState.bearing (i : Fin n) (u : V2) : DState n nCam nPose := { (0 : DState n nCam nPose) with nor := fun j => if j = i then u else 0 }

lemma M2.mul_mulVec (A B : M2) (v : V2) : (A.mul B).mulVec v = A.mulVec (B.mulVec v) := by
  ext <;> simp [M2.mul, M2.mulVec] <;> ring

lemma bearingMat_lin (A : M3) (m m' : Nor) (u : V2) :
    m'.Mt (A.mulVec (m.M u)) = u.x • m'.Mt (A.mulVec (m.M ⟨1, 0⟩)) + u.y • m'.Mt (A.mulVec (m.M ⟨0, 1⟩)) := by
  ext <;> simp [Nor.Mt, Nor.M, M3.mulVec, V3.dot] <;> ring

/-- C74: the prediction carries the stored warping of a patch along with the image: a patch point displaced from the bearing
by `W u` (tangent coordinates, same distance parameter) is predicted, to first order, to be displaced by `W' u` from the predicted
bearing, where `W` and `W'` are the warpings before and after the prediction. -/
theorem C74_warp_transport (s : State n nCam nPose) (hr : Ready s) (hu : UnitState s) (cfg : PredCfg) (m : ImuMeas) (out : State n nCam nPose) (dt : ℝ) (hdt : 0 < dt)
    (hd : ∀ i a, camIdx nCam (s.fea i).c.camID = some a → Unclamped (s.fea i).d.type (s.fea i).d.p ∧ getDistance (s.fea i).d ≠ 0)
    (i : Fin n) (a : Fin nCam) (ha : camIdx nCam (s.fea i).c.camID = some a) (ht : (s.fea i).c.trackWarping = true)
    (c : FC) (W : M2) (hW : (s.fea i).c.getWarpNor = some (c, W)) :
    ∃ s' c' W', State.evalPrediction cfg m true out s 0 dt = some s' ∧ (s'.fea i).c.getWarpNor = some (c', W') ∧
      ∀ u : V2, ∃ b : ℝ → V3, (∀ t, ∃ st, State.evalPrediction cfg m true out (s.along (DState.bearing i (W.mulVec u)) t) 0 dt = some st ∧ b t = (st.fea i).c.nor.vec) ∧
        HasDerivV3 b ((s'.fea i).c.nor.M (W'.mulVec u)) 0 := by
  obtain ⟨s', e, f⟩ := evalPrediction_facts hr hu cfg m out 0 hdt
  have hz : m.gyr - s.gyb + (1 / Real.sqrt dt) • (0 : DState n nCam nPose).att = m.gyr - s.gyb := by
    simp only [DState.zero_att, V3.smul_zero', V3.add_zero']
  have ff := f.fea i a ha
  rw [hz] at ff
  obtain ⟨hw1, -, -, c0, old, hold, hwn⟩ := ff.warp ht
  rw [hW] at hold
  obtain ⟨rfl, rfl⟩ : c = c0 ∧ W = old := by simpa using hold
  refine ⟨s', (s'.fea i).c, (s'.fea i).c.warpNor, e, by simp [FC.getWarpNor, FC.comWarpNor, hw1], fun u => ?_⟩
  obtain ⟨F, J, hF, hJ, hD⟩ := C51_state s hr hu cfg m out dt hdt hd (DState.bearing i (W.mulVec u))
  have h := hD.nor i (by rw [ha]; rfl)
  refine ⟨fun t => ((F t).fea i).c.nor.vec, fun t => ⟨F t, hF t, rfl⟩, h.congr_deriv ?_⟩
  have en : ((F 0).fea i).c.nor = (s'.fea i).c.nor := by
    obtain ⟨x, ex, fx⟩ := evalPrediction_facts (ready_along hr (DState.bearing i (W.mulVec u)) 0) (unitState_along hu (DState.bearing i (W.mulVec u)) 0) cfg m out 0 hdt
    rw [hF 0] at ex
    rw [Option.some.inj ex, nor_at0 fx ha, ff.nor]
  have eJ : J.nor i = (s'.fea i).c.nor.Mt ((bearingMat (s.fea i).c.nor (s.fea i).d (s.camVel a (m.gyr - s.gyb)) (s.camRor a (m.gyr - s.gyb)) dt
      (s.predDm a (m.gyr - s.gyb) dt 0 i)).mulVec ((s.fea i).c.nor.M (W.mulVec u))) := by
    obtain ⟨g, hg, rfl⟩ := Option.map_eq_some_iff.mp hJ
    have h1 := optAll_eq_some hg i
    simp only [State.feaJac, ha, MultiCamera.getNor_of_valid (hr.nor i), Option.bind_eq_bind, Option.bind_some, Option.pure_def] at h1
    have h2 := Option.some.inj h1
    show (g i).1 = _
    rw [← h2, ff.nor]
    show ((s.fea i).c.nor.rotated (Quat.exp (s.predDm a (m.gyr - s.gyb) dt 0 i))).Mt (s.feaJacVec m dt i a (s.fea i).c.nor (DState.bearing i (W.mulVec u))) = _
    congr 1
    unfold State.feaJacVec
    have hz3 : ∀ A : M3, A.mulVec 0 = 0 := fun A => by ext <;> simp [M3.mulVec, V3.dot]
    have hb : (DState.bearing i (W.mulVec u) : DState n nCam nPose).nor i = W.mulVec u := by simp [DState.bearing]
    simp only [hb, show (DState.bearing i (W.mulVec u) : DState n nCam nPose).vel = 0 from rfl, show (DState.bearing i (W.mulVec u) : DState n nCam nPose).gyb = 0 from rfl,
      show (DState.bearing i (W.mulVec u) : DState n nCam nPose).vea a = 0 from rfl, show (DState.bearing i (W.mulVec u) : DState n nCam nPose).vep a = 0 from rfl,
      show (DState.bearing i (W.mulVec u) : DState n nCam nPose).dep i = 0 from rfl, hz3, V3.smul_zero']
    simp only [show s.predDm a (m.gyr - s.gyb) dt 0 i = bearingStep (s.fea i).c.nor (s.fea i).d (s.camVel a (m.gyr - s.gyb)) (s.camRor a (m.gyr - s.gyb)) dt 0 from rfl]
    cases s.aux.doVE <;> ext <;> simp
  rw [en, eJ, hwn, M2.mul_mulVec, M2.ofCols_mulVec _ (bearingMat_lin _ _ _)]

/-- Non-vacuity of `C74_warp_transport`: the demo landmark with warp tracking and the identity warping. -/
example : ∃ s' c' W', State.evalPrediction ⟨0.1, 0.1, M3.one⟩ ⟨⟨0, 1, 9⟩, ⟨1, 2, 3⟩⟩ true (demoState true 1) (demoState true 1) 0 0.05 = some s' ∧
      (s'.fea 0).c.getWarpNor = some (c', W') ∧
      ∀ u : V2, ∃ b : ℝ → V3, (∀ t, ∃ st, State.evalPrediction ⟨0.1, 0.1, M3.one⟩ ⟨⟨0, 1, 9⟩, ⟨1, 2, 3⟩⟩ true (demoState true 1)
          ((demoState true 1).along (DState.bearing 0 (((demoState true 1).fea 0).c.warpNor.mulVec u)) t) 0 0.05 = some st ∧ b t = (st.fea 0).c.nor.vec) ∧
        HasDerivV3 b ((s'.fea 0).c.nor.M (W'.mulVec u)) 0 := by
  have hmk : makeNonZero 0.5 = 0.5 := by norm_num [makeNonZero]
  refine C74_warp_transport _ (demoState_ready _ _) (demoState_unit _ _) _ _ _ _ (by norm_num) (fun i a _ => ⟨?_, ?_⟩) 0 1 rfl rfl
    ((demoState true 1).fea 0).c _ rfl
  · norm_num [demoState, Unclamped, abs_of_pos]
  · show 1 / makeNonZero 0.5 ≠ 0
    rw [hmk]; norm_num

end Rovio
