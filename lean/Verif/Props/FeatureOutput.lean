import Verif.Props.Outputs

/-!
# Property C71: linearisation of a feature re-expressed in another camera
-/

namespace Rovio

open Spec Distance

variable {n nCam nPose : ℕ}

/-- The increment with reversed extrinsic rotations. -/
def DState.flipRot (δ : DState n nCam nPose) : DState n nCam nPose := { δ with vea := fun c => -(δ.vea c) }

/-- Position of the landmark of feature `i` relative to camera `b`, in that camera's frame. -/
noncomputable def State.seenFrom (s : State n nCam nPose) (i : Fin n) (a b : Fin nCam) : V3 :=
  (s.qCM b).rotate (Spec.bodyPoint (s.MrMC a) (s.qCM a) (getDistance (s.fea i).d) (s.fea i).c.nor.vec - s.MrMC b)

lemma State.seenFrom_eq (s : State n nCam nPose) (i : Fin n) (a b : Fin nCam) (hq : (s.qCM a).IsUnit) :
    (s.qCM b * (s.qCM a).inv).rotate (getDistance (s.fea i).d • (s.fea i).c.nor.vec - (s.qCM a).rotate (s.MrMC b - s.MrMC a)) = s.seenFrom i a b := by
  unfold State.seenFrom Spec.bodyPoint
  rw [Quat.rotate_mul, Quat.rotate_sub, Quat.rotate_inv_rotate hq]
  congr 1
  ext <;> simp <;> ring

lemma usable_along {s : State n nCam nPose} {i : Fin n} {a : Fin nCam} (h : Usable s i a) (δ : DState n nCam nPose) (t : ℝ) :
    Usable (s.along δ t) i a := by
  have e : ((s.along δ t).fea i).c.nor = (s.fea i).c.nor.boxPlus (t • δ.nor i) := by
    simp [State.along, State.boxPlus, Fea.boxPlus, FC.setNor, DState.scale]
  exact ⟨by rw [← h.cam]; exact Fea.boxPlus_cam _ _ _, by simp [State.along, State.boxPlus, Fea.boxPlus, FC.setNor],
    by rw [e]; exact Nor.boxPlus_unit h.unit _⟩

/-- What `featureOut` returns for another camera. -/
lemma featureOut_other {s : State n nCam nPose} {mc : MultiCamera nCam} {sfv : V3 → Nor} {i : Fin n} {a b : Fin nCam} (h : Usable s i a) (hab : a ≠ b)
    (hq : ∀ c, (s.qCM c).IsUnit) {out f : Fea} (hf : s.featureOut mc sfv i b out = some f) :
    f.c.camID = b.val ∧ f.c.validNor = true ∧ f.c.nor = sfv (s.seenFrom i a b) ∧ setParameter out.d (s.seenFrom i a b).norm = some f.d := by
  have hne : (a.val : ℤ) ≠ b.val := fun e => hab (Fin.ext (by exact_mod_cast e))
  have hm : (s.updateMultiCamera mc).moved a b (getDistance (s.fea i).d • (s.fea i).c.nor.vec) = s.seenFrom i a b := s.seenFrom_eq i a b (hq a)
  unfold State.featureOut MultiCamera.transformFeature at hf
  simp only [h.cam, if_pos hne, camIdx_val, MultiCamera.getNor_of_valid h.nor, Option.bind_eq_bind, Option.bind_some, Option.pure_def, hm] at hf
  cases hp : setParameter out.d (s.seenFrom i a b).norm with
  | none => simp [hp] at hf
  | some d' =>
    simp only [hp, Option.bind_some] at hf
    by_cases ht : (s.fea i).c.trackWarping = true
    · simp only [ht, if_true] at hf
      cases hw : (s.fea i).c.comWarpNor with
      | none => simp [hw] at hf
      | some r =>
        obtain ⟨fc, ok⟩ := r
        simp only [hw, Option.bind_some] at hf
        cases ok
        · simp only [Bool.false_eq_true, if_false, Option.some.injEq] at hf
          rw [← hf]; exact ⟨rfl, rfl, rfl, rfl⟩
        · simp only [if_true] at hf
          cases h1 : camIdx nCam fc.camID with
          | none => simp [h1] at hf
          | some a' =>
            cases h2 : fc.getNor with
            | none => simp [h1, h2] at hf
            | some r2 =>
              obtain ⟨fc2, nr⟩ := r2
              cases h3 : fc2.getWarpNor with
              | none => simp [h1, h2, h3] at hf
              | some r3 =>
                obtain ⟨fc3, w⟩ := r3
                simp only [h1, h2, h3, Option.bind_some, Option.some.injEq] at hf
                rw [← hf]; exact ⟨rfl, rfl, rfl, rfl⟩
    · simp only [ht, Bool.false_eq_true, if_false, Option.some.injEq] at hf
      rw [← hf]; exact ⟨rfl, rfl, rfl, rfl⟩

/-- The velocity of the re-expressed landmark, block by block as in the code. -/
noncomputable def State.seenJac (s : State n nCam nPose) (i : Fin n) (a b : Fin nCam) (δ : DState n nCam nPose) : V3 :=
  (s.qCM b * (s.qCM a).inv).mat.mulVec (getDistance (s.fea i).d • (s.fea i).c.nor.M (δ.nor i)) +
  (s.qCM b * (s.qCM a).inv).mat.mulVec (δ.dep i • (getDistanceDerivative (s.fea i).d • (s.fea i).c.nor.vec)) +
  (if s.aux.doVE then
    ((M3.skew (s.seenFrom i a b)).mul (-(s.qCM b * (s.qCM a).inv).mat) +
      (-(s.qCM b * (s.qCM a).inv).mat).mul (M3.skew ((s.qCM a).rotate (s.MrMC b - s.MrMC a)))).mulVec (δ.vea a) +
    ((M3.skew (s.seenFrom i a b)).mul M3.one).mulVec (δ.vea b) +
    ((-(s.qCM b * (s.qCM a).inv).mat).mul (-(s.qCM a).mat)).mulVec (δ.vep a) +
    ((-(s.qCM b * (s.qCM a).inv).mat).mul (s.qCM a).mat).mulVec (δ.vep b)
   else 0)

lemma featureJac_other {s : State n nCam nPose} {sfv : V3 → Nor} {ign : Bool} {i : Fin n} {a b : Fin nCam} (h : Usable s i a) (hab : a ≠ b)
    (hq : (s.qCM a).IsUnit) (δ : DState n nCam nPose) :
    s.featureJac sfv ign i b δ = some ((sfv (s.seenFrom i a b)).Mt ((1 / (s.seenFrom i a b).norm) • s.seenJac i a b δ),
      if ign then 0 else (sfv (s.seenFrom i a b)).vec.dot (s.seenJac i a b δ)) := by
  have hne : (a.val : ℤ) ≠ b.val := fun e => hab (Fin.ext (by exact_mod_cast e))
  unfold State.featureJac
  simp only [h.cam, if_pos hne, camIdx_val, MultiCamera.getNor_of_valid h.nor, Option.bind_eq_bind, Option.bind_some, Option.pure_def,
    s.seenFrom_eq i a b hq]
  rfl

/-- The derivative of the re-expressed landmark. -/
lemma deriv_seenFrom {s : State n nCam nPose} {i : Fin n} {a b : Fin nCam} (h : Usable s i a) (hq : ∀ c, (s.qCM c).IsUnit)
    (hun : Unclamped (s.fea i).d.type (s.fea i).d.p) (δ : DState n nCam nPose) :
    HasDerivV3 (fun t => (s.along δ t).seenFrom i a b) (s.seenJac i a b δ.flipRot) 0 := by
  have dqa := s.deriv_qCM δ a
  have hqa := s.at0_qCM δ a
  have hqb := s.at0_qCM δ b
  have dra := s.deriv_MrMC δ a
  have drb := s.deriv_MrMC δ b
  have hra := s.at0_MrMC δ a
  have hrb := s.at0_MrMC δ b
  have dn := (s.fea i).deriv_nor h.unit (δ.nor i)
  have dd := (s.fea i).deriv_dist hun (δ.dep i)
  have dP := HasDerivV3.smul dd dn
  have dinv := dqa.inv (by rw [hqa]; exact hq a)
  have hall := (s.deriv_qCM δ b).rotate ((dra.add (dinv.rotate dP)).sub drb)
  have e1 : ∀ t, ((s.along δ t).fea i).c.nor = (s.fea i).c.nor.boxPlus (t • δ.nor i) := fun t => by
    simp [State.along, State.boxPlus, Fea.boxPlus, FC.setNor, DState.scale]
  refine (hall.congr (fun t => ?_)).congr_deriv ?_
  · unfold State.seenFrom Spec.bodyPoint
    rw [e1]; rfl
  · have en : (s.fea i).c.nor.boxPlus ((0:ℝ) • δ.nor i) = (s.fea i).c.nor := Nor.boxPlus_zero _ _
    have ed : (⟨(s.fea i).d.type, (s.fea i).d.p + 0 * δ.dep i⟩ : FeatureDistance) = (s.fea i).d := by simp
    rw [en, ed, hqa, hqb, hra, hrb]
    unfold State.seenJac State.seenFrom Spec.bodyPoint
    simp only [DState.flipRot, M3.one_mulVec, M3.mul_mulVec, M3.add_mulVec, M3.neg_mulVec, V3.skew_mulVec, Quat.mat_mulVec, Quat.rotate_mul]
    generalize (s.fea i).c.nor.M (δ.nor i) = Mn
    generalize getDistance (s.fea i).d = D
    generalize getDistanceDerivative (s.fea i).d = D'
    generalize (s.fea i).c.nor.vec = v
    generalize s.MrMC a = ra
    generalize s.MrMC b = rb
    have hca : ∀ x y : V3, (s.qCM a).inv.rotate (x.cross y) = ((s.qCM a).inv.rotate x).cross ((s.qCM a).inv.rotate y) :=
      fun x y => (Quat.cross_rotate (hq a).inv x y).symm
    have hcb : ∀ x y : V3, (s.qCM b).rotate (x.cross y) = ((s.qCM b).rotate x).cross ((s.qCM b).rotate y) :=
      fun x y => (Quat.cross_rotate (hq b) x y).symm
    have hi : ∀ x, (s.qCM a).inv.rotate ((s.qCM a).rotate x) = x := Quat.rotate_inv_rotate (hq a)
    cases s.aux.doVE
    · simp only [Bool.false_eq_true, if_false, Quat.rotate_zero, Quat.rotate_add, Quat.rotate_smul, Quat.rotate_sub, Quat.rotate_neg]
      ext <;> simp [Quat.rotate] <;> ring
    · simp only [if_true, hca, hcb, hi, Quat.rotate_add, Quat.rotate_sub, Quat.rotate_neg, Quat.rotate_smul]
      generalize (s.qCM b).rotate ((s.qCM a).inv.rotate (δ.vea a)) = w
      generalize (s.qCM b).rotate ((s.qCM a).inv.rotate v) = v'
      generalize (s.qCM b).rotate ((s.qCM a).inv.rotate Mn) = m'
      generalize (s.qCM b).rotate ra = ra'
      generalize (s.qCM b).rotate rb = rb'
      generalize (s.qCM b).rotate (δ.vep a) = x1
      generalize (s.qCM b).rotate (δ.vep b) = x2
      ext <;> simp <;> ring

/-- Specification: the distance `x` lies strictly inside the range of the parametrisation. -/
def InRange : DType → ℝ → Prop
  | .inverse, x => 1e-6 < |x| ∧ |x| < 1e6
  | .log, x => 0 < x
  | _, _ => True

/-- C71, general form.  Let `f t` be the feature re-expressed in camera `b` after the increment `tδ`.  Its bearing and its distance
have derivatives, and these are the rows of the Jacobian applied to the increment with all extrinsic rotations reversed. -/
theorem C71_derivative (s : State n nCam nPose) (mc : MultiCamera nCam) (sfv : V3 → Nor) (hs : Spec.SetFromVector sfv) (hq : ∀ c, (s.qCM c).IsUnit)
    (i : Fin n) (a b : Fin nCam) (h : Usable s i a) (hab : a ≠ b) (hun : Unclamped (s.fea i).d.type (s.fea i).d.p)
    (hfar : 1e-6 < (s.seenFrom i a b).norm) (out : Fea) (hr : InRange out.d.type (s.seenFrom i a b).norm) (ign : Bool) (δ : DState n nCam nPose)
    (f : ℝ → Fea) (hf : ∀ᶠ t in nhds (0:ℝ), (s.boxPlus (δ.scale t)).featureOut mc sfv i b out = some (f t)) :
    ∃ J, s.featureJac sfv ign i b δ.flipRot = some J ∧ HasDerivV3 (fun t => (f t).c.nor.vec) ((f 0).c.nor.M J.1) 0 ∧
      (ign = false → HasDerivAt (fun t => getDistance (f t).d) J.2 0 ∧
        HasDerivAt (fun t => (f t).d.p) (getParameterDerivative (f 0).d * J.2) 0) := by
  have hne0 : s.seenFrom i a b ≠ 0 := by
    intro e; rw [e, V3.norm_zero] at hfar; norm_num at hfar
  have hd := deriv_seenFrom (b := b) h hq hun δ
  have h0 : (s.along δ 0).seenFrom i a b = s.seenFrom i a b := by
    unfold State.seenFrom
    have e1 : ((s.along δ 0).fea i).c.nor = (s.fea i).c.nor := by
      have : ((s.along δ 0).fea i).c.nor = (s.fea i).c.nor.boxPlus ((0:ℝ) • δ.nor i) := by
        simp [State.along, State.boxPlus, Fea.boxPlus, FC.setNor, DState.scale]
      rw [this]; exact Nor.boxPlus_zero _ _
    have e2 : getDistance ((s.along δ 0).fea i).d = getDistance (s.fea i).d := by
      show getDistance ⟨(s.fea i).d.type, (s.fea i).d.p + 0 * δ.dep i⟩ = _
      simp
    rw [e1, e2, s.at0_qCM, s.at0_qCM, s.at0_MrMC, s.at0_MrMC]
  have hq' : ∀ t c, ((s.along δ t).qCM c).IsUnit := fun t c => by
    cases hd : s.aux.doVE
    · have := hq c
      simp only [State.qCM, State.along_aux, hd, Bool.false_eq_true, if_false] at this ⊢; exact this
    · have := hq c
      simp only [State.qCM, State.along_aux, hd, if_true] at this ⊢; exact this.boxPlus _
  have hout : ∀ᶠ t in nhds (0:ℝ), (f t).c.nor = sfv ((s.along δ t).seenFrom i a b) ∧
      setParameter out.d ((s.along δ t).seenFrom i a b).norm = some (f t).d :=
    hf.mono fun t ht => by
      obtain ⟨_, _, h3, h4⟩ := featureOut_other (usable_along h δ t) hab (hq' t) ht
      exact ⟨h3, h4⟩
  have hz := hout.self_of_nhds
  rw [h0] at hz
  have hnd := hd.norm (by rw [h0]; exact hne0)
  have hcont : Filter.Tendsto (fun t => ((s.along δ t).seenFrom i a b).norm) (nhds 0) (nhds (s.seenFrom i a b).norm) := by
    have := hnd.continuousAt.tendsto
    rwa [h0] at this
  have hfar' : ∀ᶠ t in nhds (0:ℝ), 1e-6 < ((s.along δ t).seenFrom i a b).norm := hcont.eventually (lt_mem_nhds hfar)
  have hvec0 := hs.vec _ hfar
  refine ⟨_, featureJac_other h hab (hq a) δ.flipRot, ?_, fun hi => ?_⟩
  · have hn := hd.normalized (by rw [h0]; exact hne0)
    rw [h0] at hn
    refine (hn.congr_of_eventuallyEq ?_).congr_deriv ?_
    · filter_upwards [hout, hfar'] with t ht ht'
      rw [ht.1, hs.vec _ ht']
    · rw [hz.1, Nor.M_Mt (hs.unit _), hvec0]
      ext <;> simp [V3.dot] <;> ring
  · have hJ : (s.seenFrom i a b).dot (s.seenJac i a b δ.flipRot) / (s.seenFrom i a b).norm =
        (sfv (s.seenFrom i a b)).vec.dot (s.seenJac i a b δ.flipRot) := by
      rw [hvec0]; simp only [V3.normalized, V3.smul_dot]; ring
    simp only [hi, Bool.false_eq_true, if_false]
    rw [h0, hJ] at hnd
    rcases hod : out.d with ⟨ty, p0⟩
    rw [hod] at hz hout hr
    simp only at hr
    obtain ⟨param, hp1, hp2⟩ := C02_parameter_derivative ty p0 (s.seenFrom i a b).norm (by cases ty <;> exact hr)
    have hpe : ∀ᶠ t in nhds (0:ℝ), (f t).d = ⟨ty, param ((s.along δ t).seenFrom i a b).norm⟩ := by
      filter_upwards [hcont.eventually hp1, hout] with t h1 h2
      have := h2.2
      rw [h1] at this
      exact (Option.some.inj this).symm
    have hf0 := hpe.self_of_nhds
    rw [h0] at hf0
    have hcomp : HasDerivAt (fun t => param ((s.along δ t).seenFrom i a b).norm) (getParameterDerivative (f 0).d *
        (sfv (s.seenFrom i a b)).vec.dot (s.seenJac i a b δ.flipRot)) 0 := by
      rw [hf0]
      have hp2' : HasDerivAt param (getParameterDerivative ⟨ty, param (s.seenFrom i a b).norm⟩) ((s.along δ 0).seenFrom i a b).norm := by
        rw [h0]; exact hp2
      exact hp2'.comp (0:ℝ) hnd
    refine ⟨?_, hcomp.congr_of_eventuallyEq (hpe.mono fun t ht => by simp only [ht])⟩
    refine hnd.congr_of_eventuallyEq ?_
    have hrep : ∀ᶠ t in nhds (0:ℝ), Representable ty ((s.along δ t).seenFrom i a b).norm := by
      cases ty with
      | regular => exact Filter.Eventually.of_forall fun _ => trivial
      | hyperbolic => exact Filter.Eventually.of_forall fun _ => trivial
      | log =>
        filter_upwards [hfar'] with t ht
        exact lt_trans (by norm_num) ht
      | inverse =>
        have hlt : (s.seenFrom i a b).norm < 1e6 := by
          have := hr.2; rwa [abs_of_nonneg (V3.norm_nonneg _)] at this
        filter_upwards [hfar', hcont.eventually (gt_mem_nhds hlt)] with t h1 h2
        exact ⟨by rw [abs_of_nonneg (V3.norm_nonneg _)]; exact h1.le, by rw [abs_of_nonneg (V3.norm_nonneg _)]; exact h2.le⟩
    filter_upwards [hout, hrep] with t h1 h2
    obtain ⟨d', e1, _, e3⟩ := C01_roundtrip ⟨ty, p0⟩ _ h2
    have := h1.2
    rw [e1] at this
    rw [← Option.some.inj this]
    exact e3

/-- C71: without online calibration of the extrinsics the bearing rows are the derivative of the re-expressed bearing; the distance row
is the derivative of the re-expressed *distance*, hence that of the output's distance state only in the regular parametrisation. -/
theorem C71_jacobian (s : State n nCam nPose) (mc : MultiCamera nCam) (sfv : V3 → Nor) (hs : Spec.SetFromVector sfv) (hq : ∀ c, (s.qCM c).IsUnit)
    (i : Fin n) (a b : Fin nCam) (h : Usable s i a) (hab : a ≠ b) (hun : Unclamped (s.fea i).d.type (s.fea i).d.p)
    (hfar : 1e-6 < (s.seenFrom i a b).norm) (out : Fea) (hr : InRange out.d.type (s.seenFrom i a b).norm) (hVE : s.aux.doVE = false)
    (δ : DState n nCam nPose) (f : ℝ → Fea) (hf : ∀ᶠ t in nhds (0:ℝ), (s.boxPlus (δ.scale t)).featureOut mc sfv i b out = some (f t)) :
    ∃ J, s.featureJac sfv false i b δ = some J ∧ HasDerivV3 (fun t => (f t).c.nor.vec) ((f 0).c.nor.M J.1) 0 ∧
      HasDerivAt (fun t => getDistance (f t).d) J.2 0 ∧ (out.d.type = .regular → HasDerivAt (fun t => (f t).d.p) J.2 0) := by
  obtain ⟨J, h1, h2, h3⟩ := C71_derivative s mc sfv hs hq i a b h hab hun hfar out hr false δ f hf
  obtain ⟨h3, h4⟩ := h3 rfl
  refine ⟨J, ?_, h2, h3, fun ht => ?_⟩
  · rw [← h1, featureJac_other h hab (hq a), featureJac_other h hab (hq a)]
    simp [State.seenJac, hVE, DState.flipRot]
  · have : (f 0).d.type = .regular := by
      have hq0 : ∀ c, ((s.along δ 0).qCM c).IsUnit := fun c => by rw [s.at0_qCM]; exact hq c
      have := (featureOut_other (usable_along h δ 0) hab hq0 hf.self_of_nhds).2.2.2
      rcases hod : out.d with ⟨ty, p0⟩
      rw [hod] at this ht
      simp only at ht; subst ht
      simp only [setParameter, Option.some.injEq] at this
      rw [← this]
    have e : getParameterDerivative (f 0).d = 1 := by simp [getParameterDerivative, this]
    rw [e, one_mul] at h4
    exact h4

/-- C71: in the same camera nothing changes, and the Jacobian is that of the identity. -/
theorem C71_same_camera (s : State n nCam nPose) (mc : MultiCamera nCam) (sfv : V3 → Nor) (i : Fin n) (b : Fin nCam) (h : Usable s i b) (out : Fea)
    (ign : Bool) (δ : DState n nCam nPose) (f : ℝ → Fea) (hf : ∀ t, (s.boxPlus (δ.scale t)).featureOut mc sfv i b out = some (f t)) :
    ∃ J, s.featureJac sfv ign i b δ = some J ∧ HasDerivV3 (fun t => (f t).c.nor.vec) ((f 0).c.nor.M J.1) 0 ∧
      HasDerivAt (fun t => (f t).d.p) J.2 0 := by
  have key : ∀ t, (f t).c.nor = (s.fea i).c.nor.boxPlus (t • δ.nor i) ∧ (f t).d.p = (s.fea i).d.p + t * δ.dep i := by
    intro t
    have h1 := hf t
    have hcam : ((s.boxPlus (δ.scale t)).fea i).c.camID = b.val := (usable_along h δ t).cam
    have e1 : ((s.boxPlus (δ.scale t)).fea i).c.nor = (s.fea i).c.nor.boxPlus (t • δ.nor i) := by
      simp [State.boxPlus, Fea.boxPlus, FC.setNor, DState.scale]
    have e2 : ((s.boxPlus (δ.scale t)).fea i).d.p = (s.fea i).d.p + t * δ.dep i := rfl
    rw [← e1, ← e2]
    generalize s.boxPlus (δ.scale t) = s' at h1 hcam
    unfold State.featureOut MultiCamera.transformFeature at h1
    simp only [if_neg (not_not.mpr hcam), Option.bind_eq_bind, Option.bind_some, Option.pure_def] at h1
    by_cases ht : (s'.fea i).c.trackWarping = true
    · simp only [ht, if_true] at h1
      cases hw : (s'.fea i).c.comWarpNor with
      | none => simp [hw] at h1
      | some r =>
        obtain ⟨fc, ok⟩ := r
        simp only [hw, Option.bind_some] at h1
        cases ok
        · simp only [Bool.false_eq_true, if_false, Option.some.injEq] at h1
          rw [← h1]; exact ⟨rfl, rfl⟩
        · simp only [if_true] at h1
          cases g1 : camIdx nCam fc.camID with
          | none => simp [g1] at h1
          | some a' =>
            cases g2 : fc.getNor with
            | none => simp [g1, g2] at h1
            | some r2 =>
              obtain ⟨fc2, nr⟩ := r2
              cases g3 : fc2.getWarpNor with
              | none => simp [g1, g2, g3] at h1
              | some r3 =>
                obtain ⟨fc3, w⟩ := r3
                simp only [g1, g2, g3, Option.bind_some, Option.some.injEq] at h1
                rw [← h1]; exact ⟨rfl, rfl⟩
    · simp only [ht, Bool.false_eq_true, if_false, Option.some.injEq] at h1
      rw [← h1]; exact ⟨rfl, rfl⟩
  refine ⟨(δ.nor i, δ.dep i), ?_, ?_, ?_⟩
  · unfold State.featureJac
    rw [if_neg (not_not.mpr h.cam)]
  · rw [(key 0).1, Nor.boxPlus_zero]
    exact ((s.fea i).deriv_nor h.unit (δ.nor i)).congr (fun t => by rw [(key t).1])
  · simp only [fun t => (key t).2]
    exact (((hasDerivAt_id' (0:ℝ)).mul_const (δ.dep i)).const_add _).congr_deriv (by simp)

/-- A feature whose warp is expressed in the bearing tangent, or not tracked, can be re-expressed. -/
lemma featureOut_some {s : State n nCam nPose} {mc : MultiCamera nCam} {sfv : V3 → Nor} {i : Fin n} {a b : Fin nCam} (h : Usable s i a)
    (hq : (s.qCM a).IsUnit) {out : Fea} {d' : FeatureDistance} (hd : a ≠ b → setParameter out.d (s.seenFrom i a b).norm = some d')
    (hw : (s.fea i).c.trackWarping = false ∨ (s.fea i).c.validWarpNor = true) :
    ∃ f, s.featureOut mc sfv i b out = some f ∧ (a = b → f.c.nor = (s.fea i).c.nor ∧ f.d = (s.fea i).d) ∧ ((s.fea i).c.trackWarping = true →
      f.c.warpNor = (s.bearingBlock sfv i a b (s.fea i).c.nor).mul (s.fea i).c.warpNor ∧ f.c.validWarpNor = true ∧ f.c.validWarpC = false) := by
  have hm : (s.updateMultiCamera mc).moved a b (getDistance (s.fea i).d • (s.fea i).c.nor.vec) = s.seenFrom i a b := s.seenFrom_eq i a b hq
  unfold State.featureOut MultiCamera.transformFeature
  by_cases hab : a = b
  · subst hab
    simp only [h.cam, ne_eq, not_true_eq_false, if_false, Option.bind_eq_bind, Option.bind_some, Option.pure_def]
    by_cases ht : (s.fea i).c.trackWarping = true
    · have hv := hw.resolve_left (by rw [ht]; simp)
      simp only [ht, if_true, FC.comWarpNor, hv, Option.bind_some, h.cam, camIdx_val, MultiCamera.getNor_of_valid h.nor, FC.getWarpNor,
        Option.bind_eq_bind, Option.pure_def]
      exact ⟨_, rfl, fun _ => ⟨rfl, rfl⟩, fun _ => ⟨rfl, rfl, rfl⟩⟩
    · simp only [ht, Bool.false_eq_true, if_false]
      exact ⟨_, rfl, fun _ => ⟨rfl, rfl⟩, fun hc => absurd hc (by simp)⟩
  · have hne : (a.val : ℤ) ≠ b.val := fun e => hab (Fin.ext (by exact_mod_cast e))
    simp only [h.cam, if_pos hne, camIdx_val, MultiCamera.getNor_of_valid h.nor, Option.bind_eq_bind, Option.bind_some, Option.pure_def, hm, hd hab]
    by_cases ht : (s.fea i).c.trackWarping = true
    · have hv := hw.resolve_left (by rw [ht]; simp)
      simp only [ht, if_true, FC.comWarpNor, hv, Option.bind_some, h.cam, camIdx_val, MultiCamera.getNor_of_valid h.nor, FC.getWarpNor,
        Option.bind_eq_bind, Option.pure_def]
      exact ⟨_, rfl, fun e => absurd e hab, fun _ => ⟨rfl, rfl, rfl⟩⟩
    · simp only [ht, Bool.false_eq_true, if_false]
      exact ⟨_, rfl, fun e => absurd e hab, fun hc => absurd hc (by simp)⟩

lemma M2.ofCols_mulVec (f : V2 → V2) (hf : ∀ u, f u = u.x • f ⟨1, 0⟩ + u.y • f ⟨0, 1⟩) (u : V2) : (M2.ofCols f).mulVec u = f u := by
  rw [hf u]
  ext <;> simp [M2.ofCols, M2.mulVec] <;> ring

lemma bearingBlock_mulVec (s : State n nCam nPose) (sfv : V3 → Nor) (i : Fin n) (a b : Fin nCam) (hq : (s.qCM a).IsUnit) (u : V2) :
    (s.bearingBlock sfv i a b (s.fea i).c.nor).mulVec u = (sfv (s.seenFrom i a b)).Mt ((1 / (s.seenFrom i a b).norm) •
      (s.qCM b * (s.qCM a).inv).rotate (getDistance (s.fea i).d • (s.fea i).c.nor.M u)) := by
  unfold State.bearingBlock
  simp only [s.seenFrom_eq i a b hq]
  rw [M2.ofCols_mulVec]
  · rw [Quat.mat_mulVec]
  · intro u
    simp only [Quat.mat_mulVec]
    generalize getDistance (s.fea i).d = D
    generalize 1 / (s.seenFrom i a b).norm = N
    have : (s.qCM b * (s.qCM a).inv).rotate (D • (s.fea i).c.nor.M u) =
        u.x • (s.qCM b * (s.qCM a).inv).rotate (D • (s.fea i).c.nor.M ⟨1, 0⟩) + u.y • (s.qCM b * (s.qCM a).inv).rotate (D • (s.fea i).c.nor.M ⟨0, 1⟩) := by
      rw [← Quat.rotate_smul, ← Quat.rotate_smul, ← Quat.rotate_add]
      congr 1
      ext <;> simp [Nor.M] <;> ring
    rw [this]
    ext <;> simp [Nor.Mt, V3.dot] <;> ring

/-- C71: the warp handed to another camera is the composition of the feature's warp with the derivative of the re-expressed bearing:
a pixel displacement `u` of the patch, which moves the bearing by `W u` in the feature's camera, moves the bearing in camera `b`
by the new warp applied to `u`. -/
theorem C71_warp (s : State n nCam nPose) (mc : MultiCamera nCam) (sfv : V3 → Nor) (hs : Spec.SetFromVector sfv) (hq : ∀ c, (s.qCM c).IsUnit)
    (i : Fin n) (a b : Fin nCam) (h : Usable s i a) (hab : a ≠ b) (hun : Unclamped (s.fea i).d.type (s.fea i).d.p)
    (hfar : 1e-6 < (s.seenFrom i a b).norm) (out : Fea) (hr : InRange out.d.type (s.seenFrom i a b).norm)
    (ht : (s.fea i).c.trackWarping = true) (hv : (s.fea i).c.validWarpNor = true) (u : V2) (f : ℝ → Fea)
    (hf : ∀ᶠ t in nhds (0:ℝ), (s.boxPlus (DState.scale t { (0 : DState n nCam nPose) with nor := fun _ => (s.fea i).c.warpNor.mulVec u })).featureOut
      mc sfv i b out = some (f t))
    (f₀ : Fea) (hf₀ : s.featureOut mc sfv i b out = some f₀) :
    HasDerivV3 (fun t => (f t).c.nor.vec) (f₀.c.nor.M (f₀.c.warpNor.mulVec u)) 0 := by
  obtain ⟨J, h1, h2, -⟩ := C71_derivative s mc sfv hs hq i a b h hab hun hfar out hr true _ f hf
  have hnor := (featureOut_other h hab hq hf₀).2.2
  obtain ⟨f₁, hf₁, -, hwarp⟩ := featureOut_some (mc := mc) (sfv := sfv) (out := out) (d' := f₀.d) h (hq a) (fun _ => hnor.2) (.inr hv)
  obtain rfl : f₁ = f₀ := by rw [hf₁, Option.some.injEq] at hf₀; exact hf₀
  have hq0 : ∀ c, ((s.along { (0 : DState n nCam nPose) with nor := fun _ => (s.fea i).c.warpNor.mulVec u } 0).qCM c).IsUnit :=
    fun c => by rw [s.at0_qCM]; exact hq c
  refine h2.congr_deriv ?_
  have hn0 : (f 0).c.nor = f₁.c.nor := by
    have e := (featureOut_other (usable_along h { (0 : DState n nCam nPose) with nor := fun _ => (s.fea i).c.warpNor.mulVec u } 0) hab hq0
      hf.self_of_nhds).2.2.1
    rw [e, hnor.1]
    congr 1
    unfold State.seenFrom
    have e1 : ((s.along { (0 : DState n nCam nPose) with nor := fun _ => (s.fea i).c.warpNor.mulVec u } 0).fea i).c.nor = (s.fea i).c.nor := by
      have : ((s.along { (0 : DState n nCam nPose) with nor := fun _ => (s.fea i).c.warpNor.mulVec u } 0).fea i).c.nor =
          (s.fea i).c.nor.boxPlus ((0:ℝ) • (s.fea i).c.warpNor.mulVec u) := by
        simp [State.along, State.boxPlus, Fea.boxPlus, FC.setNor, DState.scale]
      rw [this]; exact Nor.boxPlus_zero _ _
    have e2 : getDistance ((s.along { (0 : DState n nCam nPose) with nor := fun _ => (s.fea i).c.warpNor.mulVec u } 0).fea i).d = getDistance (s.fea i).d := by
      show getDistance ⟨(s.fea i).d.type, (s.fea i).d.p + 0 * 0⟩ = _
      simp
    rw [e1, e2, s.at0_qCM, s.at0_qCM, s.at0_MrMC, s.at0_MrMC]
  rw [hn0]
  congr 1
  rw [featureJac_other h hab (hq a), Option.some.injEq] at h1
  rw [← h1, (hwarp ht).1]
  have e : ((s.bearingBlock sfv i a b (s.fea i).c.nor).mul (s.fea i).c.warpNor).mulVec u =
      (s.bearingBlock sfv i a b (s.fea i).c.nor).mulVec ((s.fea i).c.warpNor.mulVec u) := by
    ext <;> simp [M2.mul, M2.mulVec] <;> ring
  rw [e, bearingBlock_mulVec s sfv i a b (hq a)]
  simp only [State.seenJac, DState.flipRot, Quat.mat_mulVec, DState.zero_vea, DState.zero_vep, DState.zero_dep]
  congr 2
  have z1 : (0:ℝ) • getDistanceDerivative (s.fea i).d • (s.fea i).c.nor.vec = 0 := by ext <;> simp
  have z2 : ∀ A : M3, A.mulVec (-(0 : V3)) = 0 := fun A => by ext <;> simp [M3.mulVec, V3.dot]
  have z3 : ∀ A : M3, A.mulVec (0 : V3) = 0 := fun A => by ext <;> simp [M3.mulVec, V3.dot]
  rw [z1, Quat.rotate_zero, z2, z2, z3, z3]
  split <;> ext <;> simp

/-- Two cameras at the same place with the same orientation, online calibration on, one feature of camera 0 two metres ahead. -/
noncomputable def demoState2 : State 1 2 1 := { demoState true 0 with vep := fun _ => 0, vea := fun _ => Quat.one }

lemma demoState2_usable : Usable demoState2 0 0 := ⟨rfl, rfl, Quat.isUnit_one⟩
lemma demoState2_unit (c : Fin 2) : (demoState2.qCM c).IsUnit := by simp [demoState2, State.qCM, demoState, Quat.isUnit_one]
lemma demoState2_seen : demoState2.seenFrom 0 0 1 = ⟨0, 0, 2⟩ := by
  have : getDistance (⟨.inverse, 0.5⟩ : FeatureDistance) = 2 := by norm_num [getDistance, makeNonZero]
  have h2 : getDistance (demoState2.fea 0).d = 2 := this
  unfold State.seenFrom Spec.bodyPoint
  rw [h2]
  ext <;> simp [demoState2, demoState, State.qCM, State.MrMC, demoCoord, Nor.vec, V3.ez, Quat.rotate]
lemma demoState2_norm : (demoState2.seenFrom 0 0 1).norm = 2 := by
  rw [demoState2_seen]
  simp [V3.norm, V3.normSq]

/-- The re-expressed feature exists along every increment near the state. -/
lemma demoState2_out (mc : MultiCamera 2) (sfv : V3 → Nor) (δ : DState 1 2 1) (out : Fea) (ho : out.d.type ≠ .log) :
    ∃ f : ℝ → Fea, ∀ t, (demoState2.boxPlus (δ.scale t)).featureOut mc sfv 0 1 out = some (f t) := by
  have : ∀ t, ∃ f, (demoState2.boxPlus (δ.scale t)).featureOut mc sfv 0 1 out = some f := by
    intro t
    have hU := usable_along demoState2_usable δ t
    have hu : ((demoState2.along δ t).qCM 0).IsUnit := by
      simp only [State.qCM, State.along_aux, demoState2, demoState, if_true]
      exact Quat.isUnit_one.boxPlus _
    obtain ⟨d', hd'⟩ : ∃ d', setParameter out.d ((demoState2.along δ t).seenFrom 0 0 1).norm = some d' := by
      rcases hod : out.d with ⟨ty, p0⟩
      rw [hod] at ho
      cases ty with
      | log => exact absurd rfl ho
      | regular => exact ⟨_, rfl⟩
      | inverse => exact ⟨_, rfl⟩
      | hyperbolic => exact ⟨_, rfl⟩
    obtain ⟨f, hf, -⟩ := featureOut_some (mc := mc) (sfv := sfv) (b := 1) hU hu (fun _ => hd')
      (.inr (by simp [State.along, State.boxPlus, Fea.boxPlus, FC.setNor, demoState2, demoState, demoCoord]))
    exact ⟨f, hf⟩
  choose f hf using this
  exact ⟨f, hf⟩

/-- C71 (finding): with online calibration the columns of the extrinsic rotations have the wrong sign: turning camera 1 by `θ` about its
x axis moves the bearing of a feature straight ahead by `-θ` along y, while the Jacobian says `+θ`. -/
theorem C71_finding_rotation_sign (mc : MultiCamera 2) (sfv : V3 → Nor) (hs : Spec.SetFromVector sfv) :
    ∃ (s : State 1 2 1) (δ : DState 1 2 1) (out : Fea) (f : ℝ → Fea) (J : V2 × ℝ), Usable s 0 0 ∧ (∀ c, (s.qCM c).IsUnit) ∧
      (∀ t, (s.boxPlus (δ.scale t)).featureOut mc sfv 0 1 out = some (f t)) ∧ s.featureJac sfv false 0 1 δ = some J ∧
      (f 0).c.nor.M J.1 = ⟨0, 1, 0⟩ ∧ HasDerivV3 (fun t => (f t).c.nor.vec) ⟨0, -1, 0⟩ 0 := by
  obtain ⟨f, hf⟩ := demoState2_out mc sfv { (0 : DState 1 2 1) with vea := fun c => if c = 0 then 0 else ⟨1, 0, 0⟩ }
    ⟨demoCoord none 0, ⟨.inverse, 0.5⟩⟩ (by simp)
  have hn := demoState2_norm
  have hn2 : (⟨0, 0, 2⟩ : V3).norm = 2 := by rw [← demoState2_seen]; exact hn
  have hfar : 1e-6 < (demoState2.seenFrom 0 0 1).norm := by rw [hn]; norm_num
  have hv2 : (sfv ⟨0, 0, 2⟩).vec = ⟨0, 0, 1⟩ := by
    rw [← demoState2_seen, hs.vec _ hfar, V3.normalized, hn, demoState2_seen]
    ext <;> simp
  obtain ⟨J', h1, h2, -⟩ := C71_derivative demoState2 mc sfv hs demoState2_unit 0 0 1 demoState2_usable (by decide)
    (by norm_num [demoState2, demoState, Unclamped, abs_of_pos]) hfar ⟨demoCoord none 0, ⟨.inverse, 0.5⟩⟩
    (by show 1e-6 < |_| ∧ |_| < 1e6; rw [hn]; norm_num [abs_of_pos]) false _ f (Filter.Eventually.of_forall hf)
  have hnor : (f 0).c.nor = sfv ⟨0, 0, 2⟩ := by
    have hq0 : ∀ c, ((demoState2.along { (0 : DState 1 2 1) with vea := fun c => if c = 0 then 0 else ⟨1, 0, 0⟩ } 0).qCM c).IsUnit :=
      fun c => by rw [demoState2.at0_qCM]; exact demoState2_unit c
    rw [(featureOut_other (usable_along demoState2_usable _ 0) (by decide) hq0 (hf 0)).2.2.1, ← demoState2_seen]
    congr 1
    unfold State.seenFrom
    rw [demoState2.at0_qCM, demoState2.at0_qCM, demoState2.at0_MrMC, demoState2.at0_MrMC]
    have e1 : ((demoState2.along { (0 : DState 1 2 1) with vea := fun c => if c = 0 then 0 else ⟨1, 0, 0⟩ } 0).fea 0).c.nor = (demoState2.fea 0).c.nor := by
      have : ((demoState2.along { (0 : DState 1 2 1) with vea := fun c => if c = 0 then 0 else ⟨1, 0, 0⟩ } 0).fea 0).c.nor =
          (demoState2.fea 0).c.nor.boxPlus ((0:ℝ) • 0) := by
        simp [State.along, State.boxPlus, Fea.boxPlus, FC.setNor, DState.scale]
      rw [this]; exact Nor.boxPlus_zero _ _
    have e2 : getDistance ((demoState2.along { (0 : DState 1 2 1) with vea := fun c => if c = 0 then 0 else ⟨1, 0, 0⟩ } 0).fea 0).d = getDistance (demoState2.fea 0).d := by
      show getDistance ⟨(demoState2.fea 0).d.type, (demoState2.fea 0).d.p + 0 * 0⟩ = _
      simp
    rw [e1, e2]
  have hjac : ∀ ε : ℝ, ∀ w : Fin 2 → V3, (w 0 = 0 ∨ w 0 = -0) → w 1 = ε • (⟨1, 0, 0⟩ : V3) →
      demoState2.seenJac 0 0 1 { (0 : DState 1 2 1) with vea := w } = ⟨0, 2 * ε, 0⟩ := by
    intro ε w hw0 hw1
    have hw0' : w 0 = 0 := by rcases hw0 with h | h <;> rw [h]; ext <;> simp
    have hVE : demoState2.aux.doVE = true := rfl
    unfold State.seenJac
    rw [demoState2_seen]
    simp only [hVE, if_true, hw0', hw1, DState.zero_nor, DState.zero_dep, DState.zero_vep]
    ext <;> simp [M3.mulVec, M3.mul, M3.one, M3.skew, V3.dot, Nor.M, M3.c1, M3.c2, M3.c3]
  have hproj : ∀ x : ℝ, (sfv ⟨0, 0, 2⟩).M ((sfv ⟨0, 0, 2⟩).Mt ((1 / 2 : ℝ) • (⟨0, 2 * x, 0⟩ : V3))) = ⟨0, x, 0⟩ := by
    intro x
    rw [Nor.M_Mt (hs.unit _), hv2]
    ext <;> simp [V3.dot]
  refine ⟨demoState2, _, _, f, _, demoState2_usable, demoState2_unit, hf, featureJac_other demoState2_usable (by decide) (demoState2_unit _) _, ?_, ?_⟩
  · simp only [hnor, hn2, demoState2_seen]
    rw [hjac 1 _ (.inl rfl) (by ext <;> simp)]
    exact hproj 1
  · refine h2.congr_deriv ?_
    rw [featureJac_other demoState2_usable (by decide) (demoState2_unit _), Option.some.injEq] at h1
    rw [← h1]
    simp only [hnor, hn2, demoState2_seen, DState.flipRot]
    rw [hjac (-1) _ (.inl (by ext <;> simp)) (by ext <;> simp)]
    exact hproj (-1)

/-- C71 (finding): re-expressing a feature in its own camera rotates its warp by the roll between the feature's tangent basis and that of a
freshly constructed bearing, although the bearing itself (and so the meaning of the warp) is unchanged. -/
theorem C71_finding_warp_basis (mc : MultiCamera 2) (sfv : V3 → Nor) (hs : Spec.SetFromVector sfv) :
    ∃ (s : State 1 2 1) (out f : Fea), Usable s 0 0 ∧ (∀ c, (s.qCM c).IsUnit) ∧ (s.fea 0).c.validWarpNor = true ∧
      s.featureOut mc sfv 0 0 out = some f ∧ f.c.nor = (s.fea 0).c.nor ∧ (s.fea 0).c.warpNor = M2.one ∧ f.c.warpNor = ⟨0, -1, 1, 0⟩ := by
  obtain ⟨m, hm⟩ : ∃ m : Nor, m = sfv ⟨0, 0, 2⟩ := ⟨_, rfl⟩
  obtain ⟨r, hr⟩ : ∃ r : Quat, r = ⟨√(1/2), 0, 0, √(1/2)⟩ := ⟨_, rfl⟩
  have hsq : √(1/2) * √(1/2) = (1/2 : ℝ) := Real.mul_self_sqrt (by norm_num)
  have hru : r.IsUnit := by
    simp only [hr, Quat.IsUnit, Quat.normSq]; nlinarith
  have hmu : m.q.IsUnit := hm ▸ hs.unit _
  have rx : r.rotate V3.ex = V3.ey := by
    ext <;> simp only [hr, Quat.rotate, V3.ex, V3.ey] <;> nlinarith
  have ry : r.rotate V3.ey = -V3.ex := by
    ext <;> simp only [hr, Quat.rotate, V3.ex, V3.ey, V3.neg_x, V3.neg_y, V3.neg_z] <;> nlinarith
  have rz : r.rotate V3.ez = V3.ez := by
    ext <;> simp only [hr, Quat.rotate, V3.ez] <;> nlinarith
  have hn2 : (⟨0, 0, 2⟩ : V3).norm = 2 := by rw [← demoState2_seen]; exact demoState2_norm
  have hv2 : m.vec = ⟨0, 0, 1⟩ := by
    rw [hm, hs.vec _ (by rw [hn2]; norm_num), V3.normalized, hn2]
    ext <;> simp
  have hvec : (⟨m.q * r⟩ : Nor).vec = ⟨0, 0, 1⟩ := by
    rw [← hv2]; show (m.q * r).rotate _ = m.q.rotate _
    rw [Quat.rotate_mul, rz]
  have hp1 : (⟨m.q * r⟩ : Nor).perp1 = m.perp2 := by
    show (m.q * r).rotate _ = m.q.rotate _
    rw [Quat.rotate_mul, rx]
  have hp2 : (⟨m.q * r⟩ : Nor).perp2 = -m.perp1 := by
    show (m.q * r).rotate _ = -m.q.rotate _
    rw [Quat.rotate_mul, ry, Quat.rotate_neg]
  obtain ⟨s, hsd⟩ : ∃ s : State 1 2 1, s = { demoState2 with fea := fun _ => ⟨{ demoCoord none 0 with nor := ⟨m.q * r⟩ }, ⟨.inverse, 0.5⟩⟩ } := ⟨_, rfl⟩
  have hU : Usable s 0 0 := by rw [hsd]; exact ⟨rfl, rfl, hmu.mul hru⟩
  have hq : ∀ c, (s.qCM c).IsUnit := by rw [hsd]; exact demoState2_unit
  have hfea : s.fea 0 = ⟨{ demoCoord none 0 with nor := ⟨m.q * r⟩ }, ⟨.inverse, 0.5⟩⟩ := by rw [hsd]
  have hd : getDistance (s.fea 0).d = 2 := by rw [hfea]; norm_num [getDistance, makeNonZero]
  have hseen : s.seenFrom 0 0 0 = ⟨0, 0, 2⟩ := by
    unfold State.seenFrom Spec.bodyPoint
    rw [hd, hfea]
    simp only [hvec]
    rw [hsd]
    ext <;> simp [demoState2, demoState, State.qCM, State.MrMC, Quat.rotate]
  obtain ⟨f, hf, hsame, hw⟩ := featureOut_some (mc := mc) (sfv := sfv) (out := s.fea 0) (d' := (s.fea 0).d) (b := 0) hU (hq 0) (fun h => absurd rfl h)
    (.inr (by rw [hfea]; rfl))
  refine ⟨s, s.fea 0, f, hU, hq, by rw [hfea]; rfl, hf, ?_, by rw [hfea]; rfl, ?_⟩
  · exact (hsame rfl).1
  · rw [(hw (by rw [hfea]; rfl)).1]
    have h1 : (s.fea 0).c.warpNor = M2.one := by rw [hfea]; rfl
    have hb : ∀ u, (s.bearingBlock sfv 0 0 0 (s.fea 0).c.nor).mulVec u = ⟨-u.y, u.x⟩ := by
      intro u
      rw [bearingBlock_mulVec s sfv 0 0 0 (hq 0), hseen, hn2, hd, ← hm, Quat.mul_inv_self (hq 0), Quat.rotate_one, hfea]
      simp only [Nor.M, hp1, hp2, Nor.Mt]
      have a1 := Nor.perp1_perp1 hmu
      have a2 := Nor.perp2_perp2 hmu
      have a3 := Nor.perp1_perp2 hmu
      generalize m.perp1 = p at *
      generalize m.perp2 = q at *
      simp only [V3.dot] at a1 a2 a3
      ext
      · simp [V3.dot]; linear_combination (-u.x) * a3 - u.y * a2
      · simp [V3.dot]; linear_combination u.x * a1 + u.y * a3
    have c1 := hb ⟨1, 0⟩
    have c2 := hb ⟨0, 1⟩
    rw [h1]
    generalize s.bearingBlock sfv 0 0 0 (s.fea 0).c.nor = B at c1 c2
    simp only [M2.mulVec, V2.mk.injEq] at c1 c2
    ext <;> simp [M2.mul, M2.one] <;> linarith [c1.1, c1.2, c2.1, c2.2]

/-- C71: in the same camera the warp is re-expressed in the tangent basis of a freshly constructed bearing: as displacements of the
bearing vector, the old and the new warp agree when read in those two bases. -/
theorem C71_same_camera_warp (s : State n nCam nPose) (mc : MultiCamera nCam) (sfv : V3 → Nor) (hs : Spec.SetFromVector sfv) (i : Fin n) (a : Fin nCam)
    (hq : (s.qCM a).IsUnit) (h : Usable s i a) (hfar : 1e-6 < getDistance (s.fea i).d) (out : Fea)
    (ht : (s.fea i).c.trackWarping = true) (hv : (s.fea i).c.validWarpNor = true) :
    ∃ f, s.featureOut mc sfv i a out = some f ∧ f.c.nor = (s.fea i).c.nor ∧ f.d = (s.fea i).d ∧
      (∀ u, (sfv (getDistance (s.fea i).d • (s.fea i).c.nor.vec)).M (f.c.warpNor.mulVec u) = (s.fea i).c.nor.M ((s.fea i).c.warpNor.mulVec u)) ∧
      (sfv (getDistance (s.fea i).d • (s.fea i).c.nor.vec) = (s.fea i).c.nor → f.c.warpNor = (s.fea i).c.warpNor) := by
  obtain ⟨f, hf, hsame, hw⟩ := featureOut_some (mc := mc) (sfv := sfv) (out := out) (d' := out.d) (b := a) h hq (fun h => absurd rfl h) (.inr hv)
  have hD : 0 < getDistance (s.fea i).d := lt_trans (by norm_num) hfar
  have hnu : (s.fea i).c.nor.vec.norm = 1 := Nor.norm_vec h.unit
  have hseen : s.seenFrom i a a = getDistance (s.fea i).d • (s.fea i).c.nor.vec := by
    rw [← s.seenFrom_eq i a a hq]
    rw [Quat.mul_inv_self hq, Quat.rotate_one]
    have : s.MrMC a - s.MrMC a = 0 := by ext <;> simp
    rw [this, Quat.rotate_zero]
    ext <;> simp
  have hnorm : (s.seenFrom i a a).norm = getDistance (s.fea i).d := by
    rw [hseen, V3.norm_smul, hnu, abs_of_pos hD, mul_one]
  have hb : ∀ u, (s.bearingBlock sfv i a a (s.fea i).c.nor).mulVec u =
      (sfv (getDistance (s.fea i).d • (s.fea i).c.nor.vec)).Mt ((s.fea i).c.nor.M u) := by
    intro u
    rw [bearingBlock_mulVec s sfv i a a hq, hnorm, Quat.mul_inv_self hq, Quat.rotate_one, hseen]
    congr 1
    ext <;> simp <;> field_simp
  have hmul : ∀ u, f.c.warpNor.mulVec u = (sfv (getDistance (s.fea i).d • (s.fea i).c.nor.vec)).Mt
      ((s.fea i).c.nor.M ((s.fea i).c.warpNor.mulVec u)) := by
    intro u
    rw [← hb, (hw ht).1]
    ext <;> simp [M2.mul, M2.mulVec] <;> ring
  have hvn : (sfv (getDistance (s.fea i).d • (s.fea i).c.nor.vec)).vec = (s.fea i).c.nor.vec := by
    rw [← hseen, hs.vec _ (by rw [hnorm]; exact hfar), V3.normalized, hnorm, hseen]
    ext <;> simp <;> field_simp
  refine ⟨f, hf, (hsame rfl).1, (hsame rfl).2, fun u => ?_, fun e => ?_⟩
  · rw [hmul, Nor.M_Mt (hs.unit _), hvn, Nor.vec_M h.unit]
    ext <;> simp
  · have hm' : ∀ u, f.c.warpNor.mulVec u = (s.fea i).c.warpNor.mulVec u := fun u => by
      rw [hmul, e, Nor.Mt_M h.unit]
    have c1 := hm' ⟨1, 0⟩
    have c2 := hm' ⟨0, 1⟩
    simp only [M2.mulVec, V2.mk.injEq] at c1 c2
    ext <;> linarith [c1.1, c1.2, c2.1, c2.2]

/-- C71 (finding): for other than the regular parametrisation the distance row is not the derivative of the output's distance state.
With inverse distances and two cameras at the same place the output parameter simply follows the input parameter (derivative 1), but
the Jacobian says `-4`. -/
theorem C71_finding_distance_row (mc : MultiCamera 2) (sfv : V3 → Nor) (hs : Spec.SetFromVector sfv) :
    ∃ (s : State 1 2 1) (δ : DState 1 2 1) (out : Fea) (f : ℝ → Fea) (J : V2 × ℝ), Usable s 0 0 ∧ (∀ c, (s.qCM c).IsUnit) ∧
      out.d.type = (s.fea 0).d.type ∧ (∀ t, (s.boxPlus (δ.scale t)).featureOut mc sfv 0 1 out = some (f t)) ∧
      s.featureJac sfv false 0 1 δ = some J ∧ J.2 = -4 ∧ HasDerivAt (fun t => (f t).d.p) 1 0 := by
  obtain ⟨f, hf⟩ := demoState2_out mc sfv { (0 : DState 1 2 1) with dep := fun _ => 1 } ⟨demoCoord none 0, ⟨.inverse, 0.5⟩⟩ (by simp)
  have hn := demoState2_norm
  have hfar : 1e-6 < (demoState2.seenFrom 0 0 1).norm := by rw [hn]; norm_num
  obtain ⟨J, h1, -, h3⟩ := C71_derivative demoState2 mc sfv hs demoState2_unit 0 0 1 demoState2_usable (by decide)
    (by norm_num [demoState2, demoState, Unclamped, abs_of_pos]) hfar ⟨demoCoord none 0, ⟨.inverse, 0.5⟩⟩
    (by show 1e-6 < |_| ∧ |_| < 1e6; rw [hn]; norm_num [abs_of_pos]) false _ f (Filter.Eventually.of_forall hf)
  have hflip : ({ (0 : DState 1 2 1) with dep := fun _ => 1 } : DState 1 2 1).flipRot = { (0 : DState 1 2 1) with dep := fun _ => 1 } := by
    have : -(0 : V3) = 0 := by ext <;> simp
    simp only [DState.flipRot, DState.zero_vea, this]
  rw [hflip] at h1
  have hJ : J.2 = -4 := by
    have hn2 : (⟨0, 0, 2⟩ : V3).norm = 2 := by rw [← demoState2_seen]; exact hn
    have hv2 : (sfv ⟨0, 0, 2⟩).vec = ⟨0, 0, 1⟩ := by
      rw [← demoState2_seen, hs.vec _ hfar, V3.normalized, hn, demoState2_seen]
      ext <;> simp
    rw [featureJac_other demoState2_usable (by decide) (demoState2_unit _), Option.some.injEq] at h1
    rw [← h1]
    simp only [Bool.false_eq_true, if_false, demoState2_seen, hv2]
    have hd : getDistanceDerivative (demoState2.fea 0).d = -4 := by
      show getDistanceDerivative (⟨.inverse, 0.5⟩ : FeatureDistance) = -4
      norm_num [getDistanceDerivative, makeNonZero]
    unfold State.seenJac
    rw [hd]
    have hVE : demoState2.aux.doVE = true := rfl
    simp only [hVE, if_true, DState.zero_nor, DState.zero_vep, DState.zero_vea]
    simp [M3.mulVec, M3.mul, M3.one, M3.skew, V3.dot, Nor.M, Quat.mat, Quat.inv, demoState2, demoState, State.qCM, demoCoord, Nor.vec, V3.ez,
      Quat.rotate]
  have hp0 : (f 0).d = ⟨.inverse, 0.5⟩ := by
    have hq0 : ∀ c, ((demoState2.along { (0 : DState 1 2 1) with dep := fun _ => 1 } 0).qCM c).IsUnit :=
      fun c => by rw [demoState2.at0_qCM]; exact demoState2_unit c
    have h4 := (featureOut_other (usable_along demoState2_usable _ 0) (by decide) hq0 (hf 0)).2.2.2
    have h5 : ((demoState2.along { (0 : DState 1 2 1) with dep := fun _ => 1 } 0).seenFrom 0 0 1).norm = 2 := by
      rw [← hn]
      congr 1
      unfold State.seenFrom
      rw [demoState2.at0_qCM, demoState2.at0_qCM, demoState2.at0_MrMC, demoState2.at0_MrMC]
      have e1 : ((demoState2.along { (0 : DState 1 2 1) with dep := fun _ => 1 } 0).fea 0).c.nor = (demoState2.fea 0).c.nor := by
        have : ((demoState2.along { (0 : DState 1 2 1) with dep := fun _ => 1 } 0).fea 0).c.nor =
            (demoState2.fea 0).c.nor.boxPlus ((0:ℝ) • 0) := by
          simp [State.along, State.boxPlus, Fea.boxPlus, FC.setNor, DState.scale]
        rw [this]; exact Nor.boxPlus_zero _ _
      have e2 : getDistance ((demoState2.along { (0 : DState 1 2 1) with dep := fun _ => 1 } 0).fea 0).d = getDistance (demoState2.fea 0).d := by
        show getDistance ⟨(demoState2.fea 0).d.type, (demoState2.fea 0).d.p + 0 * 1⟩ = _
        simp
      rw [e1, e2]
    rw [h5] at h4
    simp only [setParameter, Option.some.injEq] at h4
    rw [← h4]
    norm_num [makeNonZero]
  refine ⟨demoState2, _, _, f, J, demoState2_usable, demoState2_unit, rfl, hf, h1, hJ, ?_⟩
  refine (h3 rfl).2.congr_deriv ?_
  rw [hp0, hJ]
  norm_num [getParameterDerivative, makeNonZero]

/-- The hypotheses of `C71_derivative`, `C71_warp` are met: two cameras at the same place, tracked warp, existing output along any
increment. -/
example (mc : MultiCamera 2) (sfv : V3 → Nor) (δ : DState 1 2 1) : Usable demoState2 0 0 ∧ (∀ c, (demoState2.qCM c).IsUnit) ∧
    Unclamped (demoState2.fea 0).d.type (demoState2.fea 0).d.p ∧ 1e-6 < (demoState2.seenFrom 0 0 1).norm ∧
    InRange .inverse (demoState2.seenFrom 0 0 1).norm ∧ (demoState2.fea 0).c.trackWarping = true ∧ (demoState2.fea 0).c.validWarpNor = true ∧
    ∃ f : ℝ → Fea, ∀ t, (demoState2.boxPlus (δ.scale t)).featureOut mc sfv 0 1 ⟨demoCoord none 0, ⟨.inverse, 0.5⟩⟩ = some (f t) :=
  ⟨demoState2_usable, demoState2_unit, by norm_num [demoState2, demoState, Unclamped, abs_of_pos], by rw [demoState2_norm]; norm_num,
    by show 1e-6 < |_| ∧ |_| < 1e6; rw [demoState2_norm]; norm_num [abs_of_pos], rfl, rfl, demoState2_out _ _ _ _ (by simp)⟩

end Rovio
