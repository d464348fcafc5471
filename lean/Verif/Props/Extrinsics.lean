import Verif.Props.FeatureOutput

/-! # Property C58: extrinsics come from one source only -/

namespace Rovio

open Distance Spec

variable {n nCam nPose : ℕ}

/-- Everything geometric the filter derives from a state. -/
structure SameGeometry (s s' : State n nCam nPose) : Prop where
  rig : ∀ mc, s.updateMultiCamera mc = s'.updateMultiCamera mc
  cameraPose : ∀ i, s.WrWC i = s'.WrWC i ∧ s.qCW i = s'.qCW i
  imu : s.imuOut = s'.imuOut
  camera : ∀ i, s.camOut i = s'.camOut i ∧ s.camJac i = s'.camJac i
  landmark : ∀ mc i, s.landmark mc i = s'.landmark mc i ∧ s.landmarkJac mc i = s'.landmarkJac mc i
  feature : ∀ mc sfv i b out, s.featureOut mc sfv i b out = s'.featureOut mc sfv i b out
  featureJac : ∀ sfv ign i b, s.featureJac sfv ign i b = s'.featureJac sfv ign i b

/-- States which differ in the stored extrinsics only, and agree in the accessors, agree in all geometry. -/
lemma sameGeometry_of_accessors {s s' : State n nCam nPose} (hq : s.qCM = s'.qCM) (hr : s.MrMC = s'.MrMC) (hfea : s.fea = s'.fea)
    (hpos : s.pos = s'.pos) (hvel : s.vel = s'.vel) (hatt : s.att = s'.att) (hgyb : s.gyb = s'.gyb) (hVE : s.aux.doVE = s'.aux.doVE)
    (hw : s.aux.MwWMmeas = s'.aux.MwWMmeas) : SameGeometry s s' := by
  have hrig : ∀ mc, s.updateMultiCamera mc = s'.updateMultiCamera mc := fun mc => by simp [State.updateMultiCamera, hq, hr]
  have hb : ∀ sfv i a b, s.bearingBlock sfv i a b = s'.bearingBlock sfv i a b := fun sfv i a b => by
    unfold State.bearingBlock; simp only [hq, hr, hfea]
  refine ⟨hrig, fun i => ?_, ?_, fun i => ?_, fun mc i => ?_, fun mc sfv i b out => ?_, fun sfv ign i b => ?_⟩
  · simp only [State.WrWC, State.qCW, hq, hr, hpos, hatt, and_self]
  · simp only [State.imuOut, hpos, hvel, hatt, hgyb, hw]
  · constructor
    · simp only [State.camOut, hq, hr, hpos, hvel, hatt, hgyb, hw]
    · funext δ
      simp only [State.camJac, State.cam0, hq, hr, hvel, hatt, hgyb, hw, hVE]
  · constructor
    · simp only [State.landmark, hrig mc, hfea]
    · funext δ
      simp only [State.landmarkJac, hrig mc, hfea, hVE]
  · unfold State.featureOut
    simp only [hrig mc, hfea, hb]
  · funext δ
    unfold State.featureJac
    simp only [hq, hr, hfea, hVE]

/-- C58: with online calibration the estimated extrinsics are used, otherwise the configured ones; the respective other ones have no
influence on any camera pose, output or Jacobian. -/
theorem C58_single_source (s s' : State n nCam nPose) (hfea : s.fea = s'.fea) (hpos : s.pos = s'.pos) (hvel : s.vel = s'.vel)
    (hatt : s.att = s'.att) (hgyb : s.gyb = s'.gyb) (hw : s.aux.MwWMmeas = s'.aux.MwWMmeas) (hVE : s.aux.doVE = s'.aux.doVE)
    (h : if s.aux.doVE then s.vea = s'.vea ∧ s.vep = s'.vep else s.aux.qCM = s'.aux.qCM ∧ s.aux.MrMC = s'.aux.MrMC) : SameGeometry s s' := by
  refine sameGeometry_of_accessors ?_ ?_ hfea hpos hvel hatt hgyb hVE hw <;> funext c
  · simp only [State.qCM, ← hVE]
    split_ifs at h ⊢ <;> rw [h.1]
  · simp only [State.MrMC, ← hVE]
    split_ifs at h ⊢ <;> rw [h.2]

/-- C58: setting extrinsics while online calibration is enabled has no effect on the geometry. -/
theorem C58_setExtrinsics_ignored (s : State n nCam nPose) (hVE : s.aux.doVE = true) (q : Quat) (r : V3) (i : Fin nCam) :
    SameGeometry s (s.setExtrinsics q r i) :=
  C58_single_source _ _ rfl rfl rfl rfl rfl rfl rfl (by rw [if_pos hVE]; exact ⟨rfl, rfl⟩)

/-- C58: without online calibration, setting the extrinsics of a camera gives that camera the requested orientation and the requested
vector to the IMU (in camera coordinates), leaves the other cameras where they are, and changes nothing else of the state. -/
theorem C58_setExtrinsics (s : State n nCam nPose) (hVE : s.aux.doVE = false) (q : Quat) (hq : q.IsUnit) (CrCM : V3) (i : Fin nCam) :
    (s.setExtrinsics q CrCM i).qCM i = q ∧ ((s.setExtrinsics q CrCM i).qCM i).rotate (-(s.setExtrinsics q CrCM i).MrMC i) = CrCM ∧
    (∀ j ≠ i, (s.setExtrinsics q CrCM i).qCM j = s.qCM j ∧ (s.setExtrinsics q CrCM i).MrMC j = s.MrMC j) ∧
    { (s.setExtrinsics q CrCM i) with aux := s.aux } = s := by
  refine ⟨?_, ?_, fun j hj => ?_, rfl⟩
  · simp [State.setExtrinsics, State.qCM, hVE]
  · simp only [State.setExtrinsics, State.qCM, State.MrMC, hVE, Bool.false_eq_true, if_false, Function.update_self]
    rw [show -(-(q.inv.rotate CrCM)) = q.inv.rotate CrCM by ext <;> simp, Quat.rotate_rotate_inv hq]
  · simp [State.setExtrinsics, State.qCM, State.MrMC, hVE, hj]

/-- C58: the effect is observable: there is a state without online calibration whose camera pose changes. -/
example : ∃ (s : State 1 2 1) (q : Quat) (r : V3), q.IsUnit ∧ s.aux.doVE = false ∧ (s.setExtrinsics q r 1).WrWC 1 ≠ s.WrWC 1 := by
  refine ⟨{ demoState false 0 with att := Quat.one }, Quat.one, ⟨100, 0, 0⟩, Quat.isUnit_one, rfl, fun e => ?_⟩
  have := congrArg V3.x e
  simp [State.WrWC, State.setExtrinsics, State.MrMC, demoState] at this
  simp [Quat.rotate, Quat.inv] at this

example : (demoState true 0).aux.doVE = true := rfl

end Rovio
