import Verif.Model.ImuPrediction
import Verif.Lemmas.ExpJac
import Verif.Lemmas.StateCurve
import Verif.Lemmas.FeatureCoordinates
import Verif.Props.Outputs

/-!
# The prediction, field by field
-/

namespace Rovio

open Spec Distance

variable {n nCam nPose : ℕ}

lemma V3.smul_zero' (c : ℝ) : c • (0 : V3) = 0 := by ext <;> simp
lemma V3.add_zero' (v : V3) : v + 0 = v := by ext <;> simp
lemma V3.sub_zero' (v : V3) : v - 0 = v := by ext <;> simp

lemma optAll_some {α : Type} {f : Fin n → Option α} {g : Fin n → α} (h : ∀ i, f i = some (g i)) : optAll f = some g := by
  have h' : ∀ i, (f i).isSome := fun i => by rw [h i]; rfl
  unfold optAll
  rw [dif_pos h']
  congr 1
  funext i
  simp [h i]

lemma optAll_eq_some {α : Type} {f : Fin n → Option α} {g : Fin n → α} (h : optAll f = some g) : ∀ i, f i = some (g i) := by
  unfold optAll at h
  split_ifs at h with h'
  intro i
  rw [← Option.some.inj h]
  simp

lemma Quat.fix_unit {q : Quat} (h : q.IsUnit) : q.fix = q := by
  unfold Quat.IsUnit at h
  ext <;> simp [Quat.fix, h]

/-- Specification: all rotations of the state are rotations. -/
structure UnitState (s : State n nCam nPose) : Prop where
  att : s.att.IsUnit
  vea : ∀ c, (s.vea c).IsUnit
  aux : ∀ c, (s.aux.qCM c).IsUnit
  poa : ∀ k, (s.poa k).IsUnit
  nor : ∀ i, (s.fea i).c.nor.q.IsUnit

lemma UnitState.qCM {s : State n nCam nPose} (h : UnitState s) (c : Fin nCam) : (s.qCM c).IsUnit := by
  unfold State.qCM; split_ifs
  · exact h.vea c
  · exact h.aux c

/-- Specification: every slot has a bearing, and the slots in use have what is needed to read their warp. -/
structure Ready (s : State n nCam nPose) : Prop where
  nor : ∀ i, (s.fea i).c.validNor = true
  warp : ∀ i a, camIdx nCam (s.fea i).c.camID = some a → (s.fea i).c.trackWarping = true →
    (s.fea i).c.validWarpNor = true ∨ (s.fea i).c.cam.isSome

lemma ready_along {s : State n nCam nPose} (h : Ready s) (δ : DState n nCam nPose) (t : ℝ) : Ready (s.along δ t) := by
  refine ⟨fun i => ?_, fun i a ha hw => ?_⟩
  · simp [State.along, State.boxPlus, Fea.boxPlus, FC.setNor]
  · have := h.warp i a
    simp only [State.along, State.boxPlus, Fea.boxPlus, FC.setNor, Bool.and_false, Bool.false_eq_true, if_false] at ha hw ⊢
    exact this ha hw

lemma unitState_along {s : State n nCam nPose} (h : UnitState s) (δ : DState n nCam nPose) (t : ℝ) : UnitState (s.along δ t) := by
  refine ⟨h.att.boxPlus _, fun c => (h.vea c).boxPlus _, h.aux, fun k => (h.poa k).boxPlus _, fun i => ?_⟩
  simp only [State.along, State.boxPlus, Fea.boxPlus, FC.setNor, Bool.and_false, Bool.false_eq_true, if_false]
  exact Nor.boxPlus_unit (h.nor i) _

lemma getWarpNor_some {c : FC} (h : c.validWarpNor = true ∨ c.cam.isSome) : ∃ p, c.getWarpNor = some p := by
  unfold FC.getWarpNor
  rcases h with h | h
  · refine ⟨(c, c.warpNor), ?_⟩
    simp [FC.comWarpNor, h]
  · obtain ⟨cam, hc⟩ := Option.isSome_iff_exists.mp h
    obtain ⟨p, hp⟩ := FC.comWarpNor_total hc
    exact ⟨(p.1, p.1.warpNor), by rw [hp]; rfl⟩

/-- The predicted distance parameter and bearing of a slot in camera `a`. -/
noncomputable def State.predDep (s : State n nCam nPose) (a : Fin nCam) (ror : V3) (dt : ℝ) (w : DState n nCam nPose) (i : Fin n) : ℝ :=
  (s.fea i).d.p - dt * getParameterDerivative (s.fea i).d * (s.fea i).c.nor.vec.dot (s.camVel a ror) + w.dep i * Real.sqrt dt

/-- The rotation applied to the bearing of a slot in camera `a`. -/
noncomputable def State.predDm (s : State n nCam nPose) (a : Fin nCam) (ror : V3) (dt : ℝ) (w : DState n nCam nPose) (i : Fin n) : V3 :=
  bearingStep (s.fea i).c.nor (s.fea i).d (s.camVel a ror) (s.camRor a ror) dt (w.nor i)

/-- What the prediction does to a slot in camera `a`. -/
structure FeaFacts (s : State n nCam nPose) (a : Fin nCam) (ror : V3) (dt : ℝ) (w : DState n nCam nPose) (i : Fin n) (f : Fea) : Prop where
  camID : f.c.camID = (s.fea i).c.camID
  cam : f.c.cam = (s.fea i).c.cam
  track : f.c.trackWarping = (s.fea i).c.trackWarping
  validNor : f.c.validNor = true
  validC : f.c.validC = false
  nor : f.c.nor = (s.fea i).c.nor.rotated (Quat.exp (s.predDm a ror dt w i))
  d : f.d = ⟨(s.fea i).d.type, s.predDep a ror dt w i⟩
  warp : (s.fea i).c.trackWarping = true → f.c.validWarpNor = true ∧ f.c.validWarpC = false ∧ f.c.isWarpIdentity = false ∧
    ∃ c' old, (s.fea i).c.getWarpNor = some (c', old) ∧
    f.c.warpNor = (M2.ofCols fun u => f.c.nor.Mt ((bearingMat (s.fea i).c.nor (s.fea i).d (s.camVel a ror) (s.camRor a ror) dt
      (s.predDm a ror dt w i)).mulVec ((s.fea i).c.nor.M u))).mul old
  noWarp : (s.fea i).c.trackWarping = false → f.c.warpNor = (s.fea i).c.warpNor ∧ f.c.validWarpNor = (s.fea i).c.validWarpNor ∧
    f.c.warpC = (s.fea i).c.warpC ∧ f.c.validWarpC = (s.fea i).c.validWarpC ∧ f.c.isWarpIdentity = (s.fea i).c.isWarpIdentity

lemma predictFea_facts {s : State n nCam nPose} (hr : Ready s) {i : Fin n} {a : Fin nCam} (ha : camIdx nCam (s.fea i).c.camID = some a)
    (ror : V3) (dt : ℝ) (w : DState n nCam nPose) : ∃ f, s.predictFea ror dt w i = some f ∧ FeaFacts s a ror dt w i f := by
  have hn := MultiCamera.getNor_of_valid (hr.nor i)
  cases ht : (s.fea i).c.trackWarping with
  | false =>
    refine ⟨{ c := (s.fea i).c.setNor ((s.fea i).c.nor.rotated (Quat.exp (s.predDm a ror dt w i))) true,
              d := ⟨(s.fea i).d.type, s.predDep a ror dt w i⟩ }, ?_, ?_⟩
    · simp only [State.predictFea, ha, hn, ht, Option.bind_eq_bind, Option.bind_some, Bool.false_eq_true, if_false, Option.pure_def]
      rfl
    · constructor <;> simp [FC.setNor, ht]
  | true =>
    obtain ⟨⟨c', old⟩, hw⟩ := getWarpNor_some (hr.warp i a ha ht)
    refine ⟨{ c := ((s.fea i).c.setNor ((s.fea i).c.nor.rotated (Quat.exp (s.predDm a ror dt w i))) true).setWarpNor
                ((M2.ofCols fun u => ((s.fea i).c.nor.rotated (Quat.exp (s.predDm a ror dt w i))).Mt ((bearingMat (s.fea i).c.nor (s.fea i).d (s.camVel a ror)
                  (s.camRor a ror) dt (s.predDm a ror dt w i)).mulVec ((s.fea i).c.nor.M u))).mul old),
              d := ⟨(s.fea i).d.type, s.predDep a ror dt w i⟩ }, ?_, ?_⟩
    · simp only [State.predictFea, ha, hn, ht, hw, Option.bind_eq_bind, Option.bind_some, if_true, Option.pure_def]
      rfl
    · constructor <;> simp [FC.setNor, FC.setWarpNor, ht, hw]

lemma predictFea_unused {s : State n nCam nPose} {i : Fin n} (ha : camIdx nCam (s.fea i).c.camID = none)
    (ror : V3) (dt : ℝ) (w : DState n nCam nPose) : s.predictFea ror dt w i = some (s.fea i) := by
  simp only [State.predictFea, ha]

/-- What the (in-place) prediction does to the state. -/
structure PredFacts (cfg : PredCfg) (m : ImuMeas) (s : State n nCam nPose) (w : DState n nCam nPose) (dt : ℝ) (s' : State n nCam nPose) : Prop where
  pos : s'.pos = s.pos - dt • (s.att.rotate s.vel - (1 / Real.sqrt dt) • w.pos)
  vel : s'.vel = (M3.one - M3.skew (dt • (m.gyr - s.gyb + (1 / Real.sqrt dt) • w.att))).mulVec s.vel -
    dt • (m.acc - s.acb + s.att.inv.rotate gravity - (1 / Real.sqrt dt) • w.vel)
  acb : s'.acb = s.acb + Real.sqrt dt • w.acb
  gyb : s'.gyb = s.gyb + Real.sqrt dt • w.gyb
  att : s'.att = s.att * Quat.exp (dt • (m.gyr - s.gyb + (1 / Real.sqrt dt) • w.att))
  doVE : s'.aux.doVE = s.aux.doVE
  MrMC : ∀ c, s'.MrMC c = s.MrMC c + Real.sqrt dt • w.vep c
  qCM : ∀ c, s'.qCM c = Quat.exp (Real.sqrt dt • w.vea c) * s.qCM c
  vep : s.aux.doVE = false → s'.vep = s.vep ∧ s'.vea = s.vea
  aux : s.aux.doVE = true → s'.aux.MrMC = s.aux.MrMC ∧ s'.aux.qCM = s.aux.qCM
  pop : ∀ k, s'.pop k = s.pop k + Real.sqrt dt • w.pop k
  poa : ∀ k, s'.poa k = Quat.exp (Real.sqrt dt • w.poa k) * s.poa k
  fea : ∀ i a, camIdx nCam (s.fea i).c.camID = some a → FeaFacts s a (m.gyr - s.gyb + (1 / Real.sqrt dt) • w.att) dt w i (s'.fea i)
  unused : ∀ i, camIdx nCam (s.fea i).c.camID = none → s'.fea i = { s.fea i with c := (s.fea i).c.setNor (s.fea i).c.nor false }
  MwWMmeas : s'.aux.MwWMmeas = m.gyr
  MwWMest : s'.aux.MwWMest = m.gyr - s.gyb
  wMeasCov : s'.aux.wMeasCov = (1 / dt) • cfg.attNoise
  tInertial : s'.aux.tInertial = if s'.detectInertialMotion cfg m then 0 else s.aux.tInertial + dt
  tImage : s'.aux.tImage = s.aux.tImage + dt
  poseMeas : s'.aux.poseMeasRot = s.aux.poseMeasRot ∧ s'.aux.poseMeasLin = s.aux.poseMeasLin

lemma Fea.fix_of_unit {f : Fea} (hv : f.c.validNor = true) (hu : f.c.nor.q.IsUnit) : f.fix = some { f with c := f.c.setNor f.c.nor false } := by
  unfold Fea.fix
  rw [MultiCamera.getNor_of_valid hv]
  simp [Quat.fix_unit hu]

lemma feaFacts_fix {s : State n nCam nPose} {a : Fin nCam} {ror : V3} {dt : ℝ} {w : DState n nCam nPose} {i : Fin n} {f : Fea} (h : FeaFacts s a ror dt w i f) :
    FeaFacts s a ror dt w i { f with c := f.c.setNor f.c.nor false } := by
  have e : f.c.setNor f.c.nor false = f.c := by
    have h1 := h.validNor
    have h2 := h.validC
    simp only [FC.setNor, Bool.and_false, Bool.false_eq_true, if_false]
    cases hc : f.c
    simp_all
  rw [e]; exact h

lemma evalPrediction_facts {s : State n nCam nPose} (hr : Ready s) (hu : UnitState s) (cfg : PredCfg) (m : ImuMeas) (out : State n nCam nPose)
    (w : DState n nCam nPose) {dt : ℝ} (hdt : 0 < dt) :
    ∃ s', State.evalPrediction cfg m true out s w dt = some s' ∧ PredFacts cfg m s w dt s' := by
  have hf : ∀ i, ∃ f, s.predictFea (m.gyr - s.gyb + (1 / Real.sqrt dt) • w.att) dt w i = some f ∧ f.c.validNor = true ∧ f.c.nor.q.IsUnit ∧
      (∀ a, camIdx nCam (s.fea i).c.camID = some a → FeaFacts s a (m.gyr - s.gyb + (1 / Real.sqrt dt) • w.att) dt w i f) ∧
      (camIdx nCam (s.fea i).c.camID = none → f = s.fea i) := by
    intro i
    cases hc : camIdx nCam (s.fea i).c.camID with
    | none => exact ⟨_, predictFea_unused hc _ _ _, hr.nor i, hu.nor i, (fun a h => by cases h), fun _ => rfl⟩
    | some a =>
      obtain ⟨f, h1, h2⟩ := predictFea_facts hr hc (m.gyr - s.gyb + (1 / Real.sqrt dt) • w.att) dt w
      refine ⟨f, h1, h2.validNor, ?_, (fun b hb => by cases hb; exact h2), (fun h => by cases h)⟩
      rw [h2.nor]
      exact (Quat.isUnit_exp _).mul (hu.nor i)
  choose g hg1 hg2 hg3 hg4 hg5 using hf
  have hatt := Quat.fix_unit (hu.att.mul (Quat.isUnit_exp (dt • (m.gyr - s.gyb + (1 / Real.sqrt dt) • w.att))))
  have hvea : ∀ c, ((if s.aux.doVE then (fun i => Quat.exp (Real.sqrt dt • w.vea i) * s.qCM i) else s.vea) c).fix =
      (if s.aux.doVE then (fun i => Quat.exp (Real.sqrt dt • w.vea i) * s.qCM i) else s.vea) c := fun c => by
    refine Quat.fix_unit ?_
    split_ifs
    · exact (Quat.isUnit_exp _).mul (hu.qCM c)
    · exact hu.vea c
  have hpoa : ∀ k, (Quat.exp (Real.sqrt dt • w.poa k) * s.poa k).fix = Quat.exp (Real.sqrt dt • w.poa k) * s.poa k := fun k =>
    Quat.fix_unit ((Quat.isUnit_exp _).mul (hu.poa k))
  unfold State.evalPrediction
  rw [if_neg (not_le.mpr hdt)]
  simp only [if_true, optAll_some hg1, Option.bind_eq_bind, Option.bind_some, State.fix, optAll_some (fun i => Fea.fix_of_unit (hg2 i) (hg3 i)),
    Option.pure_def, hatt, hvea, hpoa]
  refine ⟨_, rfl, ?_⟩
  constructor <;> try rfl
  · intro c
    simp only [State.MrMC]
    split_ifs <;> rfl
  · intro c
    simp only [State.qCM]
    split_ifs <;> rfl
  · intro h; simp [h]
  · intro h; simp [h]
  · intro _; rfl
  · intro _; rfl
  · intro i a ha
    exact feaFacts_fix (hg4 i a ha)
  · intro i ha
    simp only [hg5 i ha]
  · exact ⟨rfl, rfl⟩

end Rovio
