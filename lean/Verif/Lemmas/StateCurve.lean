import Verif.Lemmas.Kinematics
import Verif.Props.FeatureDistance

/-!
# Derivatives of the parts of the state along an increment
-/

namespace Rovio

open Spec Distance

variable {n nCam nPose : ℕ}

namespace State

/-- The curve `t ↦ s ⊞ tδ`. -/
noncomputable def along (s : State n nCam nPose) (δ : DState n nCam nPose) (t : ℝ) : State n nCam nPose := s.boxPlus (δ.scale t)

section
variable (s : State n nCam nPose) (δ : DState n nCam nPose)

lemma along_aux (t : ℝ) : (s.along δ t).aux = s.aux := rfl
lemma along_pos (t : ℝ) : (s.along δ t).pos = s.pos + t • δ.pos := rfl
lemma along_vel (t : ℝ) : (s.along δ t).vel = s.vel + t • δ.vel := rfl
lemma along_acb (t : ℝ) : (s.along δ t).acb = s.acb + t • δ.acb := rfl
lemma along_gyb (t : ℝ) : (s.along δ t).gyb = s.gyb + t • δ.gyb := rfl
lemma along_att (t : ℝ) : (s.along δ t).att = s.att.boxPlus (t • δ.att) := rfl
lemma along_fea (t : ℝ) (i : Fin n) : (s.along δ t).fea i = (s.fea i).boxPlus (t • δ.nor i) (t * δ.dep i) := rfl

lemma deriv_pos : HasDerivV3 (fun t => (s.along δ t).pos) δ.pos 0 := HasDerivV3.line _ _
lemma deriv_vel : HasDerivV3 (fun t => (s.along δ t).vel) δ.vel 0 := HasDerivV3.line _ _
lemma deriv_acb : HasDerivV3 (fun t => (s.along δ t).acb) δ.acb 0 := HasDerivV3.line _ _
lemma deriv_gyb : HasDerivV3 (fun t => (s.along δ t).gyb) δ.gyb 0 := HasDerivV3.line _ _
lemma deriv_att : HasAngVel (fun t => (s.along δ t).att) δ.att 0 := HasAngVel.boxPlus _ _

lemma deriv_qCM (c : Fin nCam) : HasAngVel (fun t => (s.along δ t).qCM c) (if s.aux.doVE then δ.vea c else 0) 0 := by
  cases h : s.aux.doVE
  · simp only [qCM, along_aux, h, Bool.false_eq_true, if_false]; exact HasAngVel.const _
  · simp only [qCM, along_aux, h, if_true]; exact HasAngVel.boxPlus _ _

lemma deriv_MrMC (c : Fin nCam) : HasDerivV3 (fun t => (s.along δ t).MrMC c) (if s.aux.doVE then δ.vep c else 0) 0 := by
  cases h : s.aux.doVE
  · simp only [MrMC, along_aux, h, Bool.false_eq_true, if_false]; exact HasDerivV3.const _
  · simp only [MrMC, along_aux, h, if_true]; exact HasDerivV3.line _ _

lemma at0_pos : (s.along δ 0).pos = s.pos := by rw [along_pos]; ext <;> simp
lemma at0_vel : (s.along δ 0).vel = s.vel := by rw [along_vel]; ext <;> simp
lemma at0_acb : (s.along δ 0).acb = s.acb := by rw [along_acb]; ext <;> simp
lemma at0_gyb : (s.along δ 0).gyb = s.gyb := by rw [along_gyb]; ext <;> simp
lemma at0_att : (s.along δ 0).att = s.att := Quat.boxPlus_zero _ _
lemma at0_qCM (c : Fin nCam) : (s.along δ 0).qCM c = s.qCM c := by
  cases h : s.aux.doVE
  · simp only [qCM, along_aux, h, Bool.false_eq_true, if_false]
  · simp only [qCM, along_aux, h, if_true]; exact Quat.boxPlus_zero _ _
lemma at0_MrMC (c : Fin nCam) : (s.along δ 0).MrMC c = s.MrMC c := by
  cases h : s.aux.doVE
  · simp only [MrMC, along_aux, h, Bool.false_eq_true, if_false]
  · simp only [MrMC, along_aux, h, if_true]
    show s.vep c + (0:ℝ) • δ.vep c = _
    ext <;> simp

end

end State

lemma Nor.boxPlus_zero (m : Nor) (d : V2) : m.boxPlus ((0:ℝ) • d) = m := by
  have e : m.N ((0:ℝ) • d) = 0 := by ext <;> simp [Nor.N]
  unfold Nor.boxPlus
  rw [e, Quat.exp_zero, Quat.one_mul']

lemma Nor.boxPlus_unit {m : Nor} (h : m.q.IsUnit) (d : V2) : (m.boxPlus d).q.IsUnit := (Quat.isUnit_exp _).mul h

namespace Fea

/-- The increment of the model agrees with that of the coordinates when the bearing is available. -/
lemma boxPlus_coord (f : Fea) (h : f.c.validNor = true) (d : V2) (p : ℝ) : f.c.boxPlus d = some (f.boxPlus d p).c := by
  simp [FC.boxPlus, FC.getNor, FC.comNor, h, boxPlus]

lemma boxPlus_cam (f : Fea) (d : V2) (p : ℝ) : (f.boxPlus d p).c.camID = f.c.camID := by
  simp [boxPlus, FC.setNor]

lemma boxPlus_track (f : Fea) (d : V2) (p : ℝ) : (f.boxPlus d p).c.trackWarping = f.c.trackWarping := by
  simp [boxPlus, FC.setNor]

lemma getNor_boxPlus (f : Fea) (d : V2) (p : ℝ) : (f.boxPlus d p).c.getNor = some ((f.boxPlus d p).c, f.c.nor.boxPlus d) := by
  simp [FC.getNor, FC.comNor, boxPlus, FC.setNor]

lemma dist_boxPlus (f : Fea) (d : V2) (p : ℝ) : getDistance (f.boxPlus d p).d = getDistance ⟨f.d.type, f.d.p + p⟩ := rfl

/-- The bearing moves along the tangent increment. -/
lemma deriv_nor (f : Fea) (h : f.c.nor.q.IsUnit) (d : V2) :
    HasDerivV3 (fun t : ℝ => (f.c.nor.boxPlus (t • d)).vec) (f.c.nor.M d) 0 := Nor.hasDeriv_boxPlus h d

/-- The distance moves with its derivative. -/
lemma deriv_dist (f : Fea) (h : Unclamped f.d.type f.d.p) (x : ℝ) :
    HasDerivAt (fun t : ℝ => getDistance ⟨f.d.type, f.d.p + t * x⟩) (getDistanceDerivative f.d * x) 0 := by
  have h1 := C02_distance_derivative f.d.type f.d.p h
  have h2 : HasDerivAt (fun t : ℝ => f.d.p + t * x) x 0 :=
    (((hasDerivAt_id' (0:ℝ)).mul_const x).const_add _).congr_deriv (by simp)
  have h3 : HasDerivAt (fun q => getDistance ⟨f.d.type, q⟩) (getDistanceDerivative ⟨f.d.type, f.d.p⟩) (f.d.p + 0 * x) := by
    simpa using h1
  exact h3.comp 0 h2

end Fea

end Rovio
