import Verif.Model.ImgInnov
import Verif.Props.FeatureOutput
import Verif.Props.Camera

/-!
# Property C79: the reprojection innovation and its linearisation
-/

namespace Rovio

open Spec Distance

variable {n nCam nPose : ℕ}

/-- The coordinates of a feature re-expressed in camera `b`: its camera and its stored bearing. -/
lemma featureOut_coords {s : State n nCam nPose} {mc : MultiCamera nCam} {sfv : V3 → Nor} {i : Fin n} {a b : Fin nCam} (h : Usable s i a)
    {out f : Fea} (hf : s.featureOut mc sfv i b out = some f) :
    f.c.validNor = true ∧ (a = b → f.c.cam = (s.fea i).c.cam ∧ f.c.validC = (s.fea i).c.validC ∧ f.c.nor = (s.fea i).c.nor) ∧
      (a ≠ b → f.c.cam = some (mc.cams b) ∧ f.c.validC = false) := by
  obtain ⟨c, d, hc, hcam, hv, hw⟩ : ∃ c d, (s.updateMultiCamera mc).transformFeature sfv b (s.fea i).c (s.fea i).d out.c out.d = some (c, d) ∧
      f.c.cam = c.cam ∧ f.c.validC = c.validC ∧ f.c.nor = c.nor ∧ f.c.validNor = c.validNor := by
    unfold State.featureOut at hf
    simp only [Option.bind_eq_bind, Option.pure_def] at hf
    obtain ⟨⟨c, d⟩, hc, hf⟩ := Option.bind_eq_some_iff.mp hf
    refine ⟨c, d, hc, ?_⟩
    simp only at hf
    by_cases ht : (s.fea i).c.trackWarping = true
    · rw [if_pos ht] at hf
      obtain ⟨⟨fc, ok⟩, hw, hf⟩ := Option.bind_eq_some_iff.mp hf
      simp only at hf
      cases ok
      · simp only [Bool.false_eq_true, if_false, Option.some.injEq] at hf
        rw [← hf]; exact ⟨rfl, rfl, rfl, rfl⟩
      · rw [if_pos rfl] at hf
        obtain ⟨a', -, hf⟩ := Option.bind_eq_some_iff.mp hf
        obtain ⟨⟨fc2, nr⟩, -, hf⟩ := Option.bind_eq_some_iff.mp hf
        obtain ⟨⟨fc3, w⟩, -, hf⟩ := Option.bind_eq_some_iff.mp hf
        simp only [Option.some.injEq] at hf
        rw [← hf]; exact ⟨rfl, rfl, rfl, rfl⟩
    · rw [if_neg ht] at hf
      simp only [Option.some.injEq] at hf
      rw [← hf]; exact ⟨rfl, rfl, rfl, rfl⟩
  unfold MultiCamera.transformFeature at hc
  rw [hcam, hv, hw.1, hw.2]
  by_cases hab : a = b
  · subst hab
    rw [if_neg (not_not.mpr h.cam), Option.some.injEq, Prod.mk.injEq] at hc
    rw [← hc.1]
    exact ⟨h.nor, fun _ => ⟨rfl, rfl, rfl⟩, fun e => absurd rfl e⟩
  · have hne : (a.val : ℤ) ≠ b.val := fun e => hab (Fin.ext (by exact_mod_cast e))
    simp only [h.cam, if_pos hne, camIdx_val, MultiCamera.getNor_of_valid h.nor, Option.bind_eq_bind, Option.bind_some, Option.pure_def] at hc
    obtain ⟨d', -, hc⟩ := Option.bind_eq_some_iff.mp hc
    rw [Option.some.injEq, Prod.mk.injEq] at hc
    rw [← hc.1]
    refine ⟨?_, fun e => absurd e hab, fun _ => ?_⟩
    · split <;> rfl
    · split <;> exact ⟨rfl, rfl⟩

/-- Specification: the camera `counter` places after the feature's own camera, cyclically. -/
def camAfter (counter : ℕ) (a : Fin nCam) : Fin nCam := ⟨(counter + a.val) % nCam, Nat.mod_lt _ (lt_of_le_of_lt (Nat.zero_le _) a.2)⟩

/-- The feature of the current increment, its camera being known. -/
lemma imgFeature_eq {s : State n nCam nPose} {mc : MultiCamera nCam} {sfv : V3 → Nor} {i : Fin n} {a : Fin nCam} (h : Usable s i a) (counter : ℕ) (out : Fea) :
    s.imgFeature mc sfv i counter out = (s.featureOut mc sfv i (camAfter counter a) out).map fun f => (camAfter counter a, f) := by
  unfold State.imgFeature
  rw [h.cam, camIdx_val]
  simp only [Option.bind_eq_bind, Option.bind_some, Option.pure_def, show activeCam counter a = camAfter counter a from rfl]
  cases s.featureOut mc sfv i (camAfter counter a) out <;> rfl

lemma FC.getC_project {c : FC} {cam : CamI} {p : V2} (h1 : c.cam = some cam) (h2 : c.validC = false) (h3 : c.validNor = true) (h4 : cam.b2p c.nor = some p) :
    ∃ c', c.getC = some (c', p) := by
  refine ⟨{ c with c := p, validC := true }, ?_⟩
  simp [FC.getC, FC.comC, h1, h2, h3, h4]

lemma bearingJ_mulVec (C : Camera) {m : Nor} {c : V2} {J3 : Camera.M23} (h : C.bearingToPixelJ m.vec = some (c, J3)) :
    ∃ J, C.bearingToPixelNJ m = some (c, J) ∧ ∀ u, J.mulVec u = J3.mulVec (m.M u) := by
  unfold Camera.bearingToPixelNJ
  rw [h]
  refine ⟨_, rfl, fun u => ?_⟩
  ext <;> simp [M2.mulVec, Camera.M23.mulVec, Nor.M, V3.dot] <;> ring

/-- The re-expressed bearing along an increment: it exists near the state, is a unit bearing and has the Jacobian's derivative. -/
lemma featureOut_curve (s : State n nCam nPose) (mc : MultiCamera nCam) (sfv : V3 → Nor) (hs : Spec.SetFromVector sfv) (hq : ∀ c, (s.qCM c).IsUnit)
    (i : Fin n) (a b : Fin nCam) (h : Usable s i a) (hw : (s.fea i).c.trackWarping = false ∨ (s.fea i).c.validWarpNor = true)
    (hun : Unclamped (s.fea i).d.type (s.fea i).d.p) (out : Fea)
    (hfar : a ≠ b → 1e-6 < (s.seenFrom i a b).norm ∧ InRange out.d.type (s.seenFrom i a b).norm) (δ : DState n nCam nPose) :
    ∃ (f : ℝ → Fea) (f₀ : Fea) (J : V2 × ℝ), (∀ᶠ t in nhds (0:ℝ), (s.boxPlus (δ.scale t)).featureOut mc sfv i b out = some (f t)) ∧
      s.featureOut mc sfv i b out = some f₀ ∧ (f 0).c.nor = f₀.c.nor ∧
      s.featureJac sfv true i b (if a = b then δ else δ.flipRot) = some J ∧ HasDerivV3 (fun t => (f t).c.nor.vec) (f₀.c.nor.M J.1) 0 := by
  have hw' : ∀ t, ((s.along δ t).fea i).c.trackWarping = false ∨ ((s.along δ t).fea i).c.validWarpNor = true := fun t => by
    simpa only [State.along, State.boxPlus, Fea.boxPlus, FC.setNor, Bool.and_false, Bool.false_eq_true, if_false] using hw
  have hq' : ∀ t c, ((s.along δ t).qCM c).IsUnit := fun t c => by
    cases hd : s.aux.doVE
    · have := hq c
      simp only [State.qCM, State.along_aux, hd, Bool.false_eq_true, if_false] at this ⊢; exact this
    · have := hq c
      simp only [State.qCM, State.along_aux, hd, if_true] at this ⊢; exact this.boxPlus _
  have e1 : ((s.along δ 0).fea i).c.nor = (s.fea i).c.nor := by
    have : ((s.along δ 0).fea i).c.nor = (s.fea i).c.nor.boxPlus ((0:ℝ) • δ.nor i) := by
      simp [State.along, State.boxPlus, Fea.boxPlus, FC.setNor, DState.scale]
    rw [this]; exact Nor.boxPlus_zero _ _
  have h0 : (s.along δ 0).seenFrom i a b = s.seenFrom i a b := by
    unfold State.seenFrom
    have e2 : getDistance ((s.along δ 0).fea i).d = getDistance (s.fea i).d := by
      show getDistance ⟨(s.fea i).d.type, (s.fea i).d.p + 0 * δ.dep i⟩ = _
      simp
    rw [e1, e2, s.at0_qCM, s.at0_qCM, s.at0_MrMC, s.at0_MrMC]
  by_cases hab : a = b
  · subst hab
    have hex : ∀ t, ∃ f, (s.boxPlus (δ.scale t)).featureOut mc sfv i a out = some f := fun t => by
      obtain ⟨f, hf, -⟩ := featureOut_some (mc := mc) (sfv := sfv) (out := out) (d' := out.d) (b := a) (usable_along h δ t) (hq' t a)
        (fun e => absurd rfl e) (hw' t)
      exact ⟨f, hf⟩
    choose f hf using hex
    obtain ⟨f₀, hf₀, -⟩ := featureOut_some (mc := mc) (sfv := sfv) (out := out) (d' := out.d) (b := a) h (hq a) (fun e => absurd rfl e) hw
    obtain ⟨J, hJ, hd, -⟩ := C71_same_camera s mc sfv i a h out true δ f hf
    have hn : (f 0).c.nor = f₀.c.nor := by
      rw [((featureOut_coords (usable_along h δ 0) (hf 0)).2.1 rfl).2.2, ((featureOut_coords h hf₀).2.1 rfl).2.2, e1]
    refine ⟨f, f₀, J, Filter.Eventually.of_forall hf, hf₀, hn, by rw [if_pos rfl]; exact hJ, ?_⟩
    rw [← hn]; exact hd
  · obtain ⟨hfar, hr⟩ := hfar hab
    have hne0 : s.seenFrom i a b ≠ 0 := by
      intro e; rw [e, V3.norm_zero] at hfar; norm_num at hfar
    have hnd := (deriv_seenFrom (b := b) h hq hun δ).norm (by rw [h0]; exact hne0)
    have hcont : Filter.Tendsto (fun t => ((s.along δ t).seenFrom i a b).norm) (nhds 0) (nhds (s.seenFrom i a b).norm) := by
      have := hnd.continuousAt.tendsto
      rwa [h0] at this
    have hset : ∀ᶠ x in nhds (s.seenFrom i a b).norm, ∃ d', setParameter out.d x = some d' := by
      rcases hod : out.d with ⟨ty, p0⟩
      rw [hod] at hr
      obtain ⟨param, hp1, -⟩ := C02_parameter_derivative ty p0 (s.seenFrom i a b).norm (by cases ty <;> exact hr)
      exact hp1.mono fun x hx => ⟨_, hx⟩
    have hex : ∀ᶠ t in nhds (0:ℝ), ∃ f, (s.boxPlus (δ.scale t)).featureOut mc sfv i b out = some f := by
      filter_upwards [hcont.eventually hset] with t ht
      obtain ⟨d', hd'⟩ := ht
      obtain ⟨f, hf, -⟩ := featureOut_some (mc := mc) (sfv := sfv) (out := out) (d' := d') (b := b) (usable_along h δ t) (hq' t a)
        (fun _ => hd') (hw' t)
      exact ⟨f, hf⟩
    have hf : ∀ᶠ t in nhds (0:ℝ), (s.boxPlus (δ.scale t)).featureOut mc sfv i b out = some (((s.boxPlus (δ.scale t)).featureOut mc sfv i b out).getD out) :=
      hex.mono fun t ⟨f, hf⟩ => by rw [hf]; rfl
    obtain ⟨d', hd'⟩ := hset.self_of_nhds
    obtain ⟨f₀, hf₀, -⟩ := featureOut_some (mc := mc) (sfv := sfv) (out := out) (d' := d') (b := b) h (hq a) (fun _ => hd') hw
    obtain ⟨J, hJ, hd, -⟩ := C71_derivative s mc sfv hs hq i a b h hab hun hfar out hr true δ _ hf
    have hn : (((s.boxPlus (δ.scale 0)).featureOut mc sfv i b out).getD out).c.nor = f₀.c.nor := by
      have := (featureOut_other (usable_along h δ 0) hab (hq' 0) hf.self_of_nhds).2.2.1
      rw [this, h0, (featureOut_other h hab hq hf₀).2.2.1]
    refine ⟨_, f₀, J, hf, hf₀, hn, by rw [if_neg hab]; exact hJ, ?_⟩
    rw [← hn]; exact hd

/-- C79, general form: near the state the reprojection innovation of a feature seen in the active camera exists and is differentiable; the
Jacobian handed to the filter is its derivative -- applied, when the feature is seen in another camera, to the increment with reversed
extrinsic rotations (the sign of C71). -/
theorem C79_linearisation (s : State n nCam nPose) (mc : MultiCamera nCam) (C : Fin nCam → Camera) (gb : Fin nCam → V2 → Nor) (sfv : V3 → Nor)
    (hmc : ∀ b, mc.cams b = (C b).toI sfv (gb b)) (hs : Spec.SetFromVector sfv) (hq : ∀ c, (s.qCM c).IsUnit)
    (i : Fin n) (a : Fin nCam) (h : Usable s i a) (hcam : (s.fea i).c.cam = some (mc.cams a))
    (hw : (s.fea i).c.trackWarping = false ∨ (s.fea i).c.validWarpNor = true) (hun : Unclamped (s.fea i).d.type (s.fea i).d.p) (out : Fea) (counter : ℕ)
    (hfar : a ≠ camAfter counter a → 1e-6 < (s.seenFrom i a (camAfter counter a)).norm ∧
      InRange out.d.type (s.seenFrom i a (camAfter counter a)).norm)
    (f₀ : Fea) (hf₀ : s.featureOut mc sfv i (camAfter counter a) out = some f₀) (hfront : 0 < f₀.c.nor.vec.z)
    (hreg : (C (camAfter counter a)).RegularAt ⟨f₀.c.nor.vec.x / f₀.c.nor.vec.z, f₀.c.nor.vec.y / f₀.c.nor.vec.z⟩)
    (meas meas' : FC) (m : V2) (hm : meas.getC = some (meas', m)) (stale : M2) (δ : DState n nCam nPose) :
    ∃ (y : ℝ → V2) (F : V2), (∀ᶠ t in nhds (0:ℝ), (s.boxPlus (δ.scale t)).imgInnov mc sfv i counter out meas 0 = some (y t)) ∧
      s.imgJac mc sfv i counter out stale (if a = camAfter counter a then δ else δ.flipRot) = some F ∧ HasDerivV2 y F 0 ∧
      ∃ p, (C (camAfter counter a)).bearingToPixelN f₀.c.nor = some p ∧ y 0 = m - p := by
  set b := camAfter counter a with hb
  obtain ⟨f, f₁, J, hf, hf₁, hn0, hJ, hd⟩ := featureOut_curve s mc sfv hs hq i a b h hw hun out hfar δ
  obtain rfl : f₁ = f₀ := by rw [hf₁, Option.some.injEq] at hf₀; exact hf₀
  obtain ⟨c3, J3, hJ3⟩ : ∃ c J, (C b).bearingToPixelJ f₁.c.nor.vec = some (c, J) := by
    unfold Camera.bearingToPixelJ
    rw [if_neg (not_le.mpr hfront)]
    exact ⟨_, _, rfl⟩
  obtain ⟨J2, hJ2, hlin⟩ := bearingJ_mulVec (C b) hJ3
  obtain ⟨pix, hp1, hp2, hp3⟩ := Camera.C13_bearingToPixel (C b) _ _ 0 hd c3 J3 (by rw [hn0]; exact hJ3) (by rw [hn0]; exact hreg)
  refine ⟨fun t => m - pix t, J2.neg.mulVec J.1, ?_, ?_, ?_, c3, ?_, by simp only [hp2]⟩
  · filter_upwards [hf, hp1] with t ht hpt
    have hU := usable_along h δ t
    obtain ⟨hv, hsame, hother⟩ := featureOut_coords hU ht
    have hcv : (f t).c.cam = some (mc.cams b) ∧ (f t).c.validC = false := by
      by_cases hab : a = b
      · obtain ⟨e1, e2, -⟩ := hsame hab
        rw [e1, e2]
        refine ⟨?_, by simp [State.along, State.boxPlus, Fea.boxPlus, FC.setNor]⟩
        rw [← hab, ← hcam]
        simp [State.along, State.boxPlus, Fea.boxPlus, FC.setNor]
      · exact hother hab
    obtain ⟨c', hc'⟩ := FC.getC_project (p := pix t) hcv.1 hcv.2 hv (by rw [hmc]; exact hpt)
    have e := imgFeature_eq (mc := mc) (sfv := sfv) hU counter out
    rw [show camAfter counter a = b from rfl] at e
    show (s.along δ t).imgInnov mc sfv i counter out meas 0 = _
    unfold State.imgInnov
    rw [e]
    have ht' : (s.along δ t).featureOut mc sfv i b out = some (f t) := ht
    simp only [ht', Option.map_some, hm, hc', Option.bind_eq_bind, Option.bind_some, Option.pure_def, Option.some.injEq]
    ext <;> simp
  · obtain ⟨hv, -⟩ := featureOut_coords h hf₁
    unfold State.imgJac
    rw [imgFeature_eq h, ← hb, hf₁]
    simp only [Option.map_some, Option.bind_eq_bind, Option.bind_some, Option.pure_def, hJ, MultiCamera.getNor_of_valid hv]
    have : State.pixJ stale (mc.cams b) f₁.c.nor = J2 := by
      unfold State.pixJ
      rw [hmc, show ((C b).toI sfv (gb b)).b2pJ f₁.c.nor = (C b).bearingToPixelNJ f₁.c.nor from rfl, hJ2]
    rw [this]
  · constructor
    · refine (hp3.x.const_sub m.x).congr_deriv ?_
      rw [← hlin]; simp [M2.neg, M2.mulVec]; ring
    · refine (hp3.y.const_sub m.y).congr_deriv ?_
      rw [← hlin]; simp [M2.neg, M2.mulVec]; ring
  · have := hp1.self_of_nhds
    rw [hp2, hn0] at this
    exact this

/-- C79: without online calibration, or when the feature is seen in its own camera, the Jacobian handed to the filter is the derivative of the
reprojection innovation along every state increment. -/
theorem C79_jacobian (s : State n nCam nPose) (mc : MultiCamera nCam) (C : Fin nCam → Camera) (gb : Fin nCam → V2 → Nor) (sfv : V3 → Nor)
    (hmc : ∀ b, mc.cams b = (C b).toI sfv (gb b)) (hs : Spec.SetFromVector sfv) (hq : ∀ c, (s.qCM c).IsUnit)
    (i : Fin n) (a : Fin nCam) (h : Usable s i a) (hcam : (s.fea i).c.cam = some (mc.cams a))
    (hw : (s.fea i).c.trackWarping = false ∨ (s.fea i).c.validWarpNor = true) (hun : Unclamped (s.fea i).d.type (s.fea i).d.p) (out : Fea) (counter : ℕ)
    (hfar : a ≠ camAfter counter a → 1e-6 < (s.seenFrom i a (camAfter counter a)).norm ∧
      InRange out.d.type (s.seenFrom i a (camAfter counter a)).norm)
    (hVE : a = camAfter counter a ∨ s.aux.doVE = false)
    (f₀ : Fea) (hf₀ : s.featureOut mc sfv i (camAfter counter a) out = some f₀) (hfront : 0 < f₀.c.nor.vec.z)
    (hreg : (C (camAfter counter a)).RegularAt ⟨f₀.c.nor.vec.x / f₀.c.nor.vec.z, f₀.c.nor.vec.y / f₀.c.nor.vec.z⟩)
    (meas meas' : FC) (m : V2) (hm : meas.getC = some (meas', m)) (stale : M2) (δ : DState n nCam nPose) :
    ∃ (y : ℝ → V2) (F : V2), (∀ᶠ t in nhds (0:ℝ), (s.boxPlus (δ.scale t)).imgInnov mc sfv i counter out meas 0 = some (y t)) ∧
      s.imgJac mc sfv i counter out stale δ = some F ∧ HasDerivV2 y F 0 := by
  obtain ⟨y, F, h1, h2, h3, -⟩ := C79_linearisation s mc C gb sfv hmc hs hq i a h hcam hw hun out counter hfar f₀ hf₀ hfront hreg meas meas' m hm stale δ
  refine ⟨y, F, h1, ?_, h3⟩
  by_cases hab : a = camAfter counter a
  · rw [if_pos hab] at h2; exact h2
  · rw [if_neg hab] at h2
    rw [← h2]
    have hv := hVE.resolve_left hab
    have : s.featureJac sfv true i (camAfter counter a) δ = s.featureJac sfv true i (camAfter counter a) δ.flipRot := by
      rw [featureJac_other h hab (hq a), featureJac_other h hab (hq a)]
      simp [State.seenJac, hv, DState.flipRot]
    unfold State.imgJac
    rw [imgFeature_eq h, hf₀]
    simp only [Option.map_some, Option.bind_eq_bind, Option.bind_some, this]

/-- C79: the innovation is the measured minus the predicted pixel plus the noise: the noise enters with the identity. -/
theorem C79_noise (s : State n nCam nPose) (mc : MultiCamera nCam) (sfv : V3 → Nor) (i : Fin n) (counter : ℕ) (out : Fea) (meas : FC) (noise y : V2)
    (hy : s.imgInnov mc sfv i counter out meas 0 = some y) : s.imgInnov mc sfv i counter out meas noise = some (y + imgNoiseJac.mulVec noise) := by
  unfold State.imgInnov at hy ⊢
  simp only [Option.bind_eq_bind, Option.pure_def] at hy ⊢
  obtain ⟨⟨b, f⟩, h1, hy⟩ := Option.bind_eq_some_iff.mp hy
  obtain ⟨⟨m', m⟩, h2, hy⟩ := Option.bind_eq_some_iff.mp hy
  obtain ⟨⟨c', c⟩, h3, hy⟩ := Option.bind_eq_some_iff.mp hy
  rw [h1]
  simp only [Option.bind_some, h2, h3, Option.some.injEq] at hy ⊢
  rw [← hy]
  ext <;> simp [imgNoiseJac, M2.one, M2.mulVec]

/-- C79: the reported pixel of a feature and its Jacobian: along an increment of the feature the pixel has the derivative returned. -/
theorem C79_pixel_output (C : Camera) (gb : V2 → Nor) (sfv : V3 → Nor) (f : Fea) (hc : f.c.cam = some (C.toI sfv gb)) (hv : f.c.validNor = true)
    (hu : f.c.nor.q.IsUnit) (hfront : 0 < f.c.nor.vec.z) (hreg : C.RegularAt ⟨f.c.nor.vec.x / f.c.nor.vec.z, f.c.nor.vec.y / f.c.nor.vec.z⟩) (d : V2) (p : ℝ) :
    ∃ (pix : ℝ → V2) (J : V2), (∀ᶠ t in nhds (0:ℝ), pixelOut (f.boxPlus (t • d) (t * p)) = some (pix t)) ∧ pixelJac f d = some J ∧ HasDerivV2 pix J 0 := by
  obtain ⟨c3, J3, hJ3⟩ : ∃ c J, C.bearingToPixelJ f.c.nor.vec = some (c, J) := by
    unfold Camera.bearingToPixelJ
    rw [if_neg (not_le.mpr hfront)]
    exact ⟨_, _, rfl⟩
  obtain ⟨J2, hJ2, -⟩ := bearingJ_mulVec C hJ3
  obtain ⟨pix, h1, -, h3⟩ := Camera.C13_bearing_increment C f.c.nor hu d c3 J2 hJ2 hreg
  refine ⟨pix, J2.mulVec d, h1.mono fun t ht => ?_, ?_, h3⟩
  · obtain ⟨c', hc'⟩ := FC.getC_project (c := (f.boxPlus (t • d) (t * p)).c) (cam := C.toI sfv gb) (p := pix t)
      (by simpa [Fea.boxPlus, FC.setNor] using hc) (by simp [Fea.boxPlus, FC.setNor]) (by simp [Fea.boxPlus, FC.setNor])
      (by simpa [Fea.boxPlus, FC.setNor, Camera.toI] using ht)
    simp [pixelOut, hc']
  · have : (C.toI sfv gb).b2pJ f.c.nor = some (c3, J2) := hJ2
    simp [pixelJac, FC.getJ, hc, MultiCamera.getNor_of_valid hv, this]

/-- C79: the pixel uncertainty of the predicted feature is that of the innovation: up to the sign, the row the filter uses is the pixel output's
Jacobian after the feature output's Jacobian, so both give the same covariance. -/
theorem C79_pixel_covariance (s : State n nCam nPose) (mc : MultiCamera nCam) (C : Fin nCam → Camera) (gb : Fin nCam → V2 → Nor) (sfv : V3 → Nor)
    (hmc : ∀ b, mc.cams b = (C b).toI sfv (gb b)) (i : Fin n) (a : Fin nCam) (h : Usable s i a) (hcam : (s.fea i).c.cam = some (mc.cams a)) (out : Fea)
    (counter : ℕ) (f₀ : Fea) (hf₀ : s.featureOut mc sfv i (camAfter counter a) out = some f₀) (hfront : 0 < f₀.c.nor.vec.z) (stale : M2)
    (δ : DState n nCam nPose) (J : V2 × ℝ) (hJ : s.featureJac sfv true i (camAfter counter a) δ = some J) :
    ∃ p, pixelJac f₀ J.1 = some p ∧ s.imgJac mc sfv i counter out stale δ = some (-p) := by
  obtain ⟨c3, J3, hJ3⟩ : ∃ c J, (C (camAfter counter a)).bearingToPixelJ f₀.c.nor.vec = some (c, J) := by
    unfold Camera.bearingToPixelJ
    rw [if_neg (not_le.mpr hfront)]
    exact ⟨_, _, rfl⟩
  obtain ⟨J2, hJ2, -⟩ := bearingJ_mulVec _ hJ3
  obtain ⟨hv, hsame, hother⟩ := featureOut_coords h hf₀
  have hcv : f₀.c.cam = some (mc.cams (camAfter counter a)) := by
    by_cases hab : a = camAfter counter a
    · rw [(hsame hab).1, hcam, ← hab]
    · exact (hother hab).1
  have e : (mc.cams (camAfter counter a)).b2pJ f₀.c.nor = some (c3, J2) := by rw [hmc]; exact hJ2
  refine ⟨J2.mulVec J.1, ?_, ?_⟩
  · simp [pixelJac, FC.getJ, hcv, MultiCamera.getNor_of_valid hv, e]
  · unfold State.imgJac
    rw [imgFeature_eq h, hf₀]
    simp only [Option.map_some, Option.bind_eq_bind, Option.bind_some, Option.pure_def, hJ, MultiCamera.getNor_of_valid hv, State.pixJ, e, Option.some.injEq]
    ext <;> simp [M2.neg, M2.mulVec] <;> ring

/-- C79 (finding): when the linearisation point puts the feature behind the other camera, nothing is reported: the innovation compares the measurement with
the pixel left in the output object by an earlier call, and the Jacobian uses the projection Jacobian of an earlier call. -/
theorem C79_finding_behind (s : State n nCam nPose) (mc : MultiCamera nCam) (C : Fin nCam → Camera) (gb : Fin nCam → V2 → Nor) (sfv : V3 → Nor)
    (hmc : ∀ b, mc.cams b = (C b).toI sfv (gb b)) (i : Fin n) (a : Fin nCam) (h : Usable s i a) (out : Fea)
    (counter : ℕ) (hab : a ≠ camAfter counter a) (hq : ∀ c, (s.qCM c).IsUnit) (f₀ : Fea) (hf₀ : s.featureOut mc sfv i (camAfter counter a) out = some f₀)
    (hbehind : f₀.c.nor.vec.z ≤ 0) (meas meas' : FC) (m : V2) (hm : meas.getC = some (meas', m)) (stale : M2) (δ : DState n nCam nPose) :
    s.imgInnov mc sfv i counter out meas 0 = some (m - f₀.c.c) ∧
    ∃ J, s.featureJac sfv true i (camAfter counter a) δ = some J ∧ s.imgJac mc sfv i counter out stale δ = some (stale.neg.mulVec J.1) := by
  obtain ⟨hv, -, hother⟩ := featureOut_coords h hf₀
  obtain ⟨hcam, hvc⟩ := hother hab
  have e : (mc.cams (camAfter counter a)).b2p f₀.c.nor = none := by
    rw [hmc]; simp [Camera.toI, Camera.bearingToPixelN, Camera.bearingToPixel, hbehind]
  have eJ : (mc.cams (camAfter counter a)).b2pJ f₀.c.nor = none := by
    rw [hmc]; simp [Camera.toI, Camera.bearingToPixelNJ, Camera.bearingToPixelJ, hbehind]
  have hJ := featureJac_other (sfv := sfv) (ign := true) h hab (hq a) δ
  refine ⟨?_, _, hJ, ?_⟩
  · have hg : f₀.c.getC = some (f₀.c, f₀.c.c) := by simp [FC.getC, FC.comC, hcam, hvc, hv, e]
    unfold State.imgInnov
    rw [imgFeature_eq h, hf₀]
    simp only [Option.map_some, Option.bind_eq_bind, Option.bind_some, Option.pure_def, hm, hg, Option.some.injEq]
    ext <;> simp
  · unfold State.imgJac
    rw [imgFeature_eq h, hf₀]
    simp only [Option.map_some, Option.bind_eq_bind, Option.bind_some, Option.pure_def, hJ, MultiCamera.getNor_of_valid hv, State.pixJ, eJ]

/-- A failing direct measurement changes nothing: innovation zero, Jacobian zero and the iteration cancelled. -/
theorem C79_direct_failure (s : State n nCam nPose) (mc : MultiCamera nCam) (sfv : V3 → Nor) (eqs : Fin nCam → RedEq) (i : Fin n) (a : Fin nCam) (h : Usable s i a)
    (out : Fea) (counter : ℕ) (f₀ : Fea) (hf₀ : s.featureOut mc sfv i (camAfter counter a) out = some f₀) (hfail : eqs (camAfter counter a) f₀.c = none)
    (stale : M2) (δ : DState n nCam nPose) :
    s.directInnov mc sfv eqs i counter out 0 = some (0, true) ∧ s.directJac mc sfv eqs i counter out stale δ = some (0, true) := by
  unfold State.directInnov State.directJac
  rw [imgFeature_eq h, hf₀]
  simp [hfail]

/-- C79: the direct method's Jacobian is the reprojection Jacobian seen through the (negative) linear equations: a state increment changes the linear model
`b - A p` of the intensity errors, `p` the displacement of the predicted pixel, by exactly the returned row. -/
theorem C79_direct_jacobian (s : State n nCam nPose) (mc : MultiCamera nCam) (sfv : V3 → Nor) (eqs : Fin nCam → RedEq) (i : Fin n) (a : Fin nCam) (h : Usable s i a)
    (out : Fea) (counter : ℕ) (f₀ : Fea) (hf₀ : s.featureOut mc sfv i (camAfter counter a) out = some f₀) (A : M2) (r : V2)
    (hok : eqs (camAfter counter a) f₀.c = some (A, r)) (stale : M2) (δ : DState n nCam nPose) (F : V2) (hF : s.imgJac mc sfv i counter out stale δ = some F) :
    s.directInnov mc sfv eqs i counter out 0 = some (r, false) ∧ s.directJac mc sfv eqs i counter out stale δ = some (A.mulVec F, false) := by
  have hv := (featureOut_coords h hf₀).1
  unfold State.imgJac at hF
  rw [imgFeature_eq h, hf₀] at hF
  simp only [Option.map_some, Option.bind_eq_bind, Option.bind_some, Option.pure_def] at hF
  obtain ⟨J, hJ, hF⟩ := Option.bind_eq_some_iff.mp hF
  simp only [MultiCamera.getNor_of_valid hv, Option.bind_some, Option.some.injEq] at hF
  unfold State.directInnov State.directJac
  rw [imgFeature_eq h, hf₀]
  simp only [Option.map_some, Option.bind_eq_bind, Option.bind_some, Option.pure_def, hok, hJ, MultiCamera.getNor_of_valid hv, Option.some.injEq, Prod.mk.injEq, and_true]
  refine ⟨by ext <;> simp, ?_⟩
  rw [← hF]
  ext <;> simp [M2.mul, M2.neg, M2.mulVec] <;> ring

/-! ### A concrete case -/

/-- A camera with radial distortion. -/
noncomputable def demoCam : Camera := { Camera.default' with k1 := 0.1, fx := 450, fy := 460, cx := 376, cy := 240 }

/-- Two such cameras. -/
noncomputable def demoCams (sfv : V3 → Nor) : MultiCamera 2 where
  BrBC := fun _ => 0
  qCB := fun _ => Quat.one
  cams := fun _ => demoCam.toI sfv (fun _ => ⟨Quat.one⟩)

/-- A feature of camera 0 two metres ahead; camera 1 half a metre to the right. -/
noncomputable def demoState3 (sfv : V3 → Nor) : State 1 2 1 :=
  { demoState false 0 with
    fea := fun _ => ⟨demoCoord (some (demoCam.toI sfv (fun _ => ⟨Quat.one⟩))) 0, ⟨.inverse, 0.5⟩⟩
    aux := { (demoState false 0).aux with qCM := fun _ => Quat.one, MrMC := fun c => if c = 0 then 0 else ⟨0.5, 0, 0⟩ } }

lemma demoState3_seen (sfv : V3 → Nor) : (demoState3 sfv).seenFrom 0 0 1 = ⟨-0.5, 0, 2⟩ := by
  have : getDistance ⟨.inverse, 0.5⟩ = 2 := by norm_num [getDistance, makeNonZero, abs_of_pos]
  have h2 : getDistance ((demoState3 sfv).fea 0).d = 2 := this
  unfold State.seenFrom Spec.bodyPoint
  rw [h2]
  ext <;> simp [demoState3, demoState, State.qCM, State.MrMC, demoCoord, Nor.vec, V3.ez, Quat.rotate]

/-- Non-vacuity of `C79_jacobian`: the second camera, a distorted pinhole, tracks the feature of the first. -/
example (sfv : V3 → Nor) (hs : Spec.SetFromVector sfv) (δ : DState 1 2 1) (meas : FC) (hm : meas.validC = true) :
    ∃ (y : ℝ → V2) (F : V2), (∀ᶠ t in nhds (0:ℝ), ((demoState3 sfv).boxPlus (δ.scale t)).imgInnov (demoCams sfv) sfv 0 1 ⟨demoCoord none 0, ⟨.inverse, 0.5⟩⟩ meas 0 = some (y t)) ∧
      (demoState3 sfv).imgJac (demoCams sfv) sfv 0 1 ⟨demoCoord none 0, ⟨.inverse, 0.5⟩⟩ M2.zero δ = some F ∧ HasDerivV2 y F 0 := by
  have hU : Usable (demoState3 sfv) 0 0 := ⟨rfl, rfl, Quat.isUnit_one⟩
  have hq : ∀ c, ((demoState3 sfv).qCM c).IsUnit := fun c => Quat.isUnit_one
  have hact : camAfter 1 (0 : Fin 2) = 1 := rfl
  have hnn : (2:ℝ) ≤ ((demoState3 sfv).seenFrom 0 0 1).norm ∧ ((demoState3 sfv).seenFrom 0 0 1).norm ≤ 3 := by
    rw [demoState3_seen]
    simp only [V3.norm, V3.normSq]
    constructor
    · apply Real.le_sqrt_of_sq_le; norm_num
    · rw [Real.sqrt_le_left (by norm_num)]; norm_num
  have hfar : 1e-6 < ((demoState3 sfv).seenFrom 0 0 1).norm := lt_of_lt_of_le (by norm_num) hnn.1
  obtain ⟨f₀, hf₀, -⟩ := featureOut_some (mc := demoCams sfv) (sfv := sfv) (out := ⟨demoCoord none 0, ⟨.inverse, 0.5⟩⟩)
    (d' := ⟨.inverse, 1 / makeNonZero ((demoState3 sfv).seenFrom 0 0 1).norm⟩) (b := 1) hU (hq 0) (fun _ => rfl) (.inr rfl)
  have hvec : f₀.c.nor.vec = (1 / ((demoState3 sfv).seenFrom 0 0 1).norm) • (⟨-0.5, 0, 2⟩ : V3) := by
    rw [(featureOut_other hU (by decide) hq hf₀).2.2.1, hs.vec _ hfar, V3.normalized, demoState3_seen]
  have hpos : 0 < 1 / ((demoState3 sfv).seenFrom 0 0 1).norm := one_div_pos.mpr (lt_trans (by norm_num) hfar)
  refine C79_jacobian (demoState3 sfv) (demoCams sfv) (fun _ => demoCam) (fun _ _ => ⟨Quat.one⟩) sfv (fun _ => rfl) hs hq 0 0 hU rfl (.inr rfl) ?_
    ⟨demoCoord none 0, ⟨.inverse, 0.5⟩⟩ 1 (fun _ => ⟨hfar, ?_⟩) (.inr rfl) f₀ hf₀ ?_ trivial meas meas meas.c (by simp [FC.getC, FC.comC, hm]) _ δ
  · norm_num [demoState3, Unclamped, abs_of_pos]
  · show 1e-6 < |_| ∧ |_| < 1e6
    rw [hact, abs_of_pos (lt_trans (by norm_num) hfar)]
    exact ⟨hfar, lt_of_le_of_lt hnn.2 (by norm_num)⟩
  · rw [hvec]
    show 0 < _ * (2:ℝ)
    exact mul_pos hpos (by norm_num)

/-- Non-vacuity of `C79_finding_behind`: camera 1 five metres further ahead, so that the feature lies behind it. -/
example (sfv : V3 → Nor) (hs : Spec.SetFromVector sfv) : ∃ (s : State 1 2 1) (f₀ : Fea), Usable s 0 0 ∧ (∀ c, (s.qCM c).IsUnit) ∧
    s.featureOut (demoCams sfv) sfv 0 (camAfter 1 0) ⟨demoCoord none 0, ⟨.inverse, 0.5⟩⟩ = some f₀ ∧ f₀.c.nor.vec.z ≤ 0 := by
  let s : State 1 2 1 := { demoState3 sfv with aux := { (demoState3 sfv).aux with MrMC := fun c => if c = 0 then 0 else ⟨0, 0, 5⟩ } }
  have hU : Usable s 0 0 := ⟨rfl, rfl, Quat.isUnit_one⟩
  have hq : ∀ c, (s.qCM c).IsUnit := fun c => Quat.isUnit_one
  have hseen : s.seenFrom 0 0 1 = ⟨0, 0, -3⟩ := by
    have : getDistance ⟨.inverse, 0.5⟩ = 2 := by norm_num [getDistance, makeNonZero, abs_of_pos]
    have h2 : getDistance (s.fea 0).d = 2 := this
    unfold State.seenFrom Spec.bodyPoint
    rw [h2]
    ext <;> simp [s, demoState3, demoState, State.qCM, State.MrMC, demoCoord, Nor.vec, V3.ez, Quat.rotate]
    norm_num
  have hn : (s.seenFrom 0 0 1).norm = 3 := by
    rw [hseen]; simp only [V3.norm, V3.normSq]
    rw [show (0:ℝ) ^ 2 + 0 ^ 2 + (-3) ^ 2 = 3 ^ 2 by norm_num]
    exact Real.sqrt_sq (by norm_num)
  obtain ⟨f₀, hf₀, -⟩ := featureOut_some (mc := demoCams sfv) (sfv := sfv) (out := ⟨demoCoord none 0, ⟨.inverse, 0.5⟩⟩)
    (d' := ⟨.inverse, 1 / makeNonZero (s.seenFrom 0 0 1).norm⟩) (b := 1) hU (hq 0) (fun _ => rfl) (.inr rfl)
  refine ⟨s, f₀, hU, hq, hf₀, ?_⟩
  rw [(featureOut_other hU (by decide) hq hf₀).2.2.1, hs.vec _ (by rw [hn]; norm_num), V3.normalized, hn, hseen]
  show 1 / 3 * (-3 : ℝ) ≤ 0
  norm_num

end Rovio
