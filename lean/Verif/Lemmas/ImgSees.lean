import Verif.Spec.ImgSees
import Verif.Lemmas.Sim
import Verif.Lemmas.Unseen
import Verif.Lemmas.Scratch

/-!
# Lemmas for C100: what image processing sees of the estimate
-/

namespace Rovio

open Spec Matrix

variable {n nCam nPose : ℕ}

/-! ### The measurement equations -/

lemma M2.mulVec_zero' (A : M2) : A.mulVec 0 = 0 := by ext <;> simp [M2.mulVec]

/-- The components of an increment that image processing sees vanish. -/
structure DState.Offstage (ve : Bool) (δ : DState n nCam nPose) : Prop where
  vep : ve = true → ∀ c, δ.vep c = 0
  vea : ve = true → ∀ c, δ.vea c = 0
  nor : ∀ i, δ.nor i = 0
  dep : ∀ i, δ.dep i = 0

lemma DState.offstage_unit {ve : Bool} {b : Ix n nCam nPose} (h : b.seen ve = false) : (DState.unit b).Offstage ve := by
  cases b <;> first
    | (cases h; done)
    | (constructor <;> intros <;> simp [DState.unit, DState.ofFn, Pi.single_apply] <;> rfl)
    | (change ve = false at h; subst h; constructor <;> intros <;> first | contradiction | (simp [DState.unit, DState.ofFn, Pi.single_apply] <;> rfl))

lemma Ix.seen_mono {ve ve' : Bool} (h : ve' = true → ve = true) {a : Ix n nCam nPose} (ha : a.seen ve = false) : a.seen ve' = false := by
  cases ve <;> cases ve' <;> simp at h <;> cases a <;> first | rfl | exact ha

namespace State

variable {x y : State n nCam nPose}

lemma featureJac_offstage {sfv : V3 → Nor} {ig : Bool} {i : Fin n} {b : Fin nCam} {δ : DState n nCam nPose} (hδ : δ.Offstage x.aux.doVE) {r : V2 × ℝ}
    (h : x.featureJac sfv ig i b δ = some r) : r = (0, 0) := by
  unfold State.featureJac at h
  by_cases hc : (x.fea i).c.camID ≠ b.val
  · rw [if_pos hc] at h
    cases ha : camIdx nCam (x.fea i).c.camID with
    | none => simp [ha] at h
    | some a =>
      cases hn : (x.fea i).c.getNor with
      | none => simp [ha, hn] at h
      | some q =>
        simp only [ha, hn, Option.bind_eq_bind, Option.bind_some, Option.pure_def, Option.some.injEq] at h
        rw [← h]
        by_cases hve : x.aux.doVE = true
        · simp only [hδ.nor, hδ.dep, hδ.vea hve, hδ.vep hve, M3.mulVec_zero', V3.smul_zero', Nor.M_zero',
            V3.zero_smul', V3.add_zero', ite_self, Nor.Mt_zero', V3.dot_zero']
        · simp only [if_neg hve, hδ.nor, hδ.dep, M3.mulVec_zero', V3.smul_zero', Nor.M_zero', V3.zero_smul', V3.add_zero', ite_self, Nor.Mt_zero', V3.dot_zero']
  · rw [if_neg hc, Option.some.injEq] at h
    rw [← h, hδ.nor, hδ.dep]

lemma qCM_scene (h : SameScene x y) : x.qCM = y.qCM := funext h.qCM

lemma MrMC_scene (h : SameScene x y) : x.MrMC = y.MrMC := funext h.MrMC

lemma updateMultiCamera_scene (h : SameScene x y) (mc : MultiCamera nCam) : x.updateMultiCamera mc = y.updateMultiCamera mc := by
  unfold State.updateMultiCamera
  rw [qCM_scene h, MrMC_scene h]

lemma featureJac_scene (h : SameScene x y) : x.featureJac = y.featureJac := by
  funext sfv ig i b δ
  unfold State.featureJac
  rw [qCM_scene h, MrMC_scene h, h.fea, h.doVE]

lemma bearingBlock_scene (h : SameScene x y) : x.bearingBlock = y.bearingBlock := by
  funext sfv i a b nor
  unfold State.bearingBlock
  rw [qCM_scene h, MrMC_scene h, h.fea]

lemma featureOut_scene (h : SameScene x y) : x.featureOut = y.featureOut := by
  funext mc sfv i b out
  unfold State.featureOut
  rw [updateMultiCamera_scene h, bearingBlock_scene h, h.fea]

lemma imgFeature_scene (h : SameScene x y) : x.imgFeature = y.imgFeature := by
  funext mc sfv i c out
  unfold State.imgFeature
  rw [featureOut_scene h, h.fea]

lemma featureMat_scene (h : SameScene x y) : x.featureMat = y.featureMat := by
  funext sfv i b
  unfold State.featureMat
  rw [featureJac_scene h]

lemma distRow_scene (h : SameScene x y) : x.distRow = y.distRow := by
  funext sfv i b
  unfold State.distRow
  rw [featureJac_scene h]

lemma featureMat_zero {sfv : V3 → Nor} {i : Fin n} {b : Fin nCam} {J : Matrix (Fin 3) (Ix n nCam nPose) ℝ} (h : x.featureMat sfv i b = some J) (k : Fin 3)
    {a : Ix n nCam nPose} (ha : a.seen x.aux.doVE = false) : J k a = 0 := by
  unfold State.featureMat at h
  split_ifs at h with hs
  have h' := congrFun (congrFun (Option.some.inj h) k) a
  rw [← h']
  obtain ⟨r, hr⟩ := Option.isSome_iff_exists.mp (hs a)
  have h0 := featureJac_offstage (DState.offstage_unit ha) hr
  simp only [hr, Option.get_some, h0]
  fin_cases k <;> rfl

lemma distRow_zero {sfv : V3 → Nor} {i : Fin n} {b : Fin nCam} {J : Ix n nCam nPose → ℝ} (h : x.distRow sfv i b = some J)
    {a : Ix n nCam nPose} (ha : a.seen x.aux.doVE = false) : J a = 0 := by
  unfold State.distRow at h
  split_ifs at h with hs
  rw [Option.some.injEq] at h
  rw [← h]
  obtain ⟨r, hr⟩ := Option.isSome_iff_exists.mp (hs a)
  simp only [hr, Option.get_some, featureJac_offstage (DState.offstage_unit ha) hr]

end State

/-! ### Covariances -/

variable {P Q : Cov n nCam nPose}

lemma mul_scene {ve : Bool} {ρ σ : Type} (h : SameSceneCov ve P Q) {A : Matrix ρ (Ix n nCam nPose) ℝ} {B : Matrix (Ix n nCam nPose) σ ℝ}
    (hA : ∀ r a, a.seen ve = false → A r a = 0) (hB : ∀ a s, a.seen ve = false → B a s = 0) : A * P * B = A * Q * B := by
  ext r s
  simp only [Matrix.mul_apply]
  refine Finset.sum_congr rfl fun b _ => ?_
  cases hb : b.seen ve with
  | false => rw [hB b s hb, mul_zero, mul_zero]
  | true =>
    congr 1
    refine Finset.sum_congr rfl fun a _ => ?_
    cases ha : a.seen ve with
    | false => rw [hA r a ha, zero_mul, zero_mul]
    | true => rw [h a b ha hb]

lemma dot_scene {ve : Bool} (h : SameSceneCov ve P Q) {J : Ix n nCam nPose → ℝ} (hJ : ∀ a, a.seen ve = false → J a = 0) : J ⬝ᵥ P.mulVec J = J ⬝ᵥ Q.mulVec J := by
  simp only [dotProduct, Matrix.mulVec]
  refine Finset.sum_congr rfl fun a _ => ?_
  cases ha : a.seen ve with
  | false => rw [hJ a ha, zero_mul, zero_mul]
  | true =>
    congr 1
    refine Finset.sum_congr rfl fun b _ => ?_
    cases hb : b.seen ve with
    | false => rw [hJ b hb, mul_zero, mul_zero]
    | true => rw [h a b ha hb]

lemma setBlock_congr {a b : Ix n nCam nPose} (h : P a b = Q a b) (r c : ℕ) {nr nc : ℕ} (B : Fin nr → Fin nc → ℝ) : P.setBlock r c B a b = Q.setBlock r c B a b := by
  unfold Cov.setBlock
  by_cases hc : (r ≤ a.id ∧ a.id < r + nr) ∧ c ≤ b.id ∧ b.id < c + nc
  · rw [dif_pos hc, dif_pos hc]
  · rw [dif_neg hc, dif_neg hc, h]

lemma resetFeature_scene {ve : Bool} (h : SameSceneCov ve P Q) (i : Fin n) (C : Matrix (Fin 3) (Fin 3) ℝ) : SameSceneCov ve (P.resetFeature i C) (Q.resetFeature i C) := by
  intro a b ha hb
  unfold Cov.resetFeature
  exact setBlock_congr (setBlock_congr (setBlock_congr (setBlock_congr (setBlock_congr (setBlock_congr (setBlock_congr (setBlock_congr (h a b ha hb) _ _ _) _ _ _) _ _ _)
    _ _ _) _ _ _) _ _ _) _ _ _) _ _ _

lemma State.distVar_scene {ve : Bool} {x y : State n nCam nPose} (h : SameScene x y) (hv : y.aux.doVE = true → ve = true) (hP : SameSceneCov ve P Q) : x.distVar P = y.distVar Q := by
  funext sfv i b
  unfold State.distVar
  rw [State.distRow_scene h]
  cases hJ : y.distRow sfv i b with
  | none => rfl
  | some J =>
    simp only [Option.bind_eq_bind, Option.bind_some, Option.pure_def]
    rw [dot_scene hP fun a ha => State.distRow_zero hJ (Ix.seen_mono hv ha)]

lemma State.medianDepth_scene {ve : Bool} {x y : State n nCam nPose} (h : SameScene x y) (hv : y.aux.doVE = true → ve = true) (hP : SameSceneCov ve P Q) : x.medianDepth P = y.medianDepth Q := by
  have hs : x.medianStep P = y.medianStep Q := by
    funext mc sfv ratio i acc b
    unfold State.medianStep
    rw [State.featureOut_scene h, State.distVar_scene h hv hP]
  funext mc sfv valid init ratio out
  unfold State.medianDepth State.medianCollect
  rw [hs]

/-! ### The assembled image processing -/

namespace ImgFull

open Rovio.Img

variable {F : Full n nCam nPose} {RX : State n nCam nPose → State n nCam nPose → Prop} {RP : Cov n nCam nPose → Cov n nCam nPose → Prop}
  {live : Fin n → Bool} {a b : FSt n nCam nPose}

lemma cand_scene {x y : State n nCam nPose} (h : SameScene x y) (i : Fin n) (k : ℕ) : F.cand i k x = F.cand i k y := by
  funext r
  unfold Full.cand
  rw [State.imgFeature_scene h, State.featureJac_scene h]

lemma cand_row {x : State n nCam nPose} {i : Fin n} {k : ℕ} {r r' : Scr} {J : DState n nCam nPose → Option V2} (h : F.cand i k x r = some (J, r'))
    {c : Ix n nCam nPose} (hc : c.seen x.aux.doVE = false) {v : V2} (hv : J (DState.unit c) = some v) : v = 0 := by
  unfold Full.cand at h
  cases h1 : x.imgFeature F.mc F.sfv i k (F.outOf r.1) with
  | none => simp [h1] at h
  | some bf =>
    obtain ⟨b, f⟩ := bf
    cases h2 : f.c.getNor with
    | none => simp [h1, h2] at h
    | some cn =>
      obtain ⟨c', nor⟩ := cn
      simp only [h1, h2, Option.bind_eq_bind, Option.bind_some, Option.pure_def, Option.some.injEq, Prod.mk.injEq] at h
      rw [← h.1] at hv
      cases h3 : x.featureJac F.sfv true i b (DState.unit c) with
      | none => simp [h3] at hv
      | some d =>
        beta_reduce at hv
        rw [h3, State.featureJac_offstage (DState.offstage_unit hc) h3] at hv
        simp only [Option.map_some, Option.some.injEq] at hv
        rw [← hv]
        exact M2.mulVec_zero' _

lemma callbacks_scene (m : Mem) (cur : Fin nCam → List Level) (mp : MLP) (meas : Option FC) (i : Fin n) (counter : ℕ) :
    SceneOnly (F.callbacks m cur mp meas i counter) where
  innov x y h := by
    funext v r
    simp only [Full.callbacks, Full.innov, State.imgFeature_scene h]
  jac x y h := by
    funext r
    simp only [Full.callbacks, Full.jac, State.imgFeature_scene h, State.featureJac_scene h, cand_scene h]
  cand x y h := cand_scene h _ _
  check x y h := by
    funext k r
    simp only [Full.callbacks, Full.check, State.imgFeature_scene h]
  row x r J s r' h c hc v hv := by
    simp only [Full.callbacks, Full.jac] at h
    by_cases hd : F.base.direct = true
    · rw [if_pos hd] at h
      cases h1 : x.imgFeature F.mc F.sfv i counter (F.outOf r.1) with
      | none => simp [h1] at h
      | some bf =>
        obtain ⟨b, f⟩ := bf
        cases h2 : ImgPixel.innovation (F.pix m) (cur b) mp f.c with
        | none => simp [h1, h2] at h
        | some ce =>
          obtain ⟨c', e⟩ := ce
          simp only [h1, h2, Option.bind_eq_bind, Option.bind_some, Option.pure_def] at h
          cases h3 : F.reduce e with
          | none =>
            simp only [h3, Option.some.injEq, Prod.mk.injEq] at h
            rw [← h.1] at hv
            exact (Option.some.inj hv).symm
          | some Av =>
            obtain ⟨A, w⟩ := Av
            simp only [h3] at h
            cases h4 : c'.getNor with
            | none => simp [h4] at h
            | some cn =>
              simp only [h4, Option.bind_some, Option.some.injEq, Prod.mk.injEq] at h
              rw [← h.1] at hv
              cases h5 : x.featureJac F.sfv true i b (DState.unit c) with
              | none => simp [h5] at hv
              | some d =>
                beta_reduce at hv
                rw [h5, State.featureJac_offstage (DState.offstage_unit hc) h5] at hv
                simp only [Option.map_some, Option.some.injEq] at hv
                rw [← hv]
                exact M2.mulVec_zero' _
    · rw [if_neg hd] at h
      cases h1 : F.cand i counter x r with
      | none => simp [h1] at h
      | some p =>
        obtain ⟨H, q⟩ := p
        simp only [h1, Option.bind_eq_bind, Option.bind_some, Option.pure_def, Option.some.injEq, Prod.mk.injEq] at h
        rw [← h.1] at hv
        exact cand_row h1 hc hv
  candRow _ _ _ _ h _ hc _ hv := cand_row h hc hv

section

variable {ve : Bool} {OC : Matrix (Fin 3) (Fin 3) ℝ → Prop} (hU : Unnoticed ve OC RX RP)

include hU

lemma here_unnoticed (h : SimOn (unnoticedRels RX RP) live a b) : RX (here a) (here b) := by
  have h1 := hU.scene _ _ h.w.1
  unfold here
  simp only [(h.fsm.slots _).coord, h1.fea]
  exact hU.fea _ _ h.w.1 _

lemma here_scene (h : SimOn (unnoticedRels RX RP) live a b) : SameScene (here a) (here b) := hU.scene _ _ (here_unnoticed hU h)

omit hU in
lemma camID_unnoticed (h : SimOn (unnoticedRels RX RP) live a b) (i : Fin n) : a.camID i = b.camID i := by
  unfold St.camID
  rw [(h.fsm.slots i).coord]

omit hU in
lemma prev_unnoticed (h : SimOn (unnoticedRels RX RP) live a b) : a.w.prev = b.w.prev := h.w.2.1

omit hU in
lemma t_unnoticed (h : SimOn (unnoticedRels RX RP) live a b) : a.t = b.t := h.t

omit hU in
lemma valid_unnoticed (h : SimOn (unnoticedRels RX RP) live a b) : a.valid = b.valid := funext fun i => (h.fsm.slots i).valid

omit hU in
lemma patch_unnoticed (h : SimOn (unnoticedRels RX RP) live a b) {i : Fin n} (hv : a.valid i = true) : (a.fsm.slots i).patch = (b.fsm.slots i).patch :=
  (h.fsm.slots i).patch hv

lemma tested_unnoticed (h : SimOn (unnoticedRels RX RP) live a b) (m : Mem) (i : Fin n) (c : Fin nCam) : F.tested m a i c = F.tested m b i c := by
  unfold Full.tested
  rw [camID_unnoticed h, State.featureOut_scene (here_scene hU h), prev_unnoticed h]

lemma pixelCov_unnoticed (h : SimOn (unnoticedRels RX RP) live a b) (i : Fin n) (c : Fin nCam) (f : FC) : F.pixelCov a i c f = F.pixelCov b i c f := by
  unfold Full.pixelCov
  rw [State.featureMat_scene (here_scene hU h)]
  cases hJ : (here b).featureMat F.sfv i c with
  | none => rfl
  | some J =>
    have e : J * a.cov * Jᵀ = J * b.cov * Jᵀ :=
      mul_scene (hU.cov _ _ h.cov) (fun r k hk => State.featureMat_zero hJ r (Ix.seen_mono (hU.calib _ _ (here_unnoticed hU h)) hk))
        (fun k r hk => State.featureMat_zero hJ r (Ix.seen_mono (hU.calib _ _ (here_unnoticed hU h)) hk))
    simp only [Option.bind_eq_bind, Option.bind_some, Option.pure_def, e]

lemma align_unnoticed (h : SimOn (unnoticedRels RX RP) live a b) (m : Mem) (i : Fin n) (c : Fin nCam) (hv : a.valid i = true) :
    F.align m a i c = F.align m b i c := by
  unfold Full.align
  simp only [tested_unnoticed hU h, t_unnoticed h, pixelCov_unnoticed hU h, patch_unnoticed h hv]

omit hU in
lemma err_unnoticed (h : SimOn (unnoticedRels RX RP) live a b) (m : Mem) (i : Fin n) (c : Fin nCam) (x : FC) (hv : a.valid i = true) :
    F.err m a i c x = F.err m b i c x := by
  unfold Full.err
  rw [t_unnoticed h, patch_unnoticed h hv]

lemma update_unnoticed (hL : UpdateKeeps RX RP F.lwf) (h : SimOn (unnoticedRels RX RP) live a b) (m : Mem) (i : Fin n) (c : Fin nCam) (hv : a.valid i = true) :
    (unnoticedRels RX RP).w (F.update m a i c).1 (F.update m b i c).1 ∧ RP (F.update m a i c).2.1 (F.update m b i c).2.1 ∧
      (F.update m a i c).2.2 = (F.update m b i c).2.2 := by
  have hst : ∀ f, F.started a i c f = F.started b i c f := fun f => by
    unfold Full.started
    rw [pixelCov_unnoticed hU h]
  unfold Full.update
  simp only [hst]
  rw [tested_unnoticed hU h, t_unnoticed h, h.meas, h.cam, patch_unnoticed h hv, h.w.2.2]
  simp only [(h.fsm.slots _).coord]
  cases F.tested m b i c with
  | none => exact ⟨h.w, h.cov, rfl⟩
  | some u =>
    obtain ⟨u, k⟩ := u
    cases k
    · exact ⟨h.w, h.cov, rfl⟩
    · obtain ⟨h1, h2, h3⟩ := hL _ (callbacks_scene (F := F) m (F.imgs b.t) (b.fsm.slots i).patch (b.meas i) i b.cam) _ _ _ _
        (F.started b i c u, b.w.cJ) (here_unnoticed hU h) h.cov
      refine ⟨⟨h1, h.w.2.1, congrArg Prod.fst h3⟩, h2, ?_⟩
      simp only [Prod.mk.injEq]
      exact ⟨by rw [(hU.scene _ _ h1).fea], congrArg Prod.snd h3⟩

lemma inPost_unnoticed (h : SimOn (unnoticedRels RX RP) live a b) (m : Mem) (i : Fin n) (c : Fin nCam) : F.inPost m a i c = F.inPost m b i c := by
  unfold Full.inPost
  rw [camID_unnoticed h, State.featureOut_scene (here_scene hU h), t_unnoticed h]

omit hU in
lemma moving_unnoticed (h : SimOn (unnoticedRels RX RP) live a b) (m : Mem) (i : Fin n) : F.moving m a i = F.moving m b i := by
  unfold Full.moving
  rw [camID_unnoticed h, prev_unnoticed h, t_unnoticed h, (h.fsm.slots i).coord]

lemma view_unnoticed (h : SimOn (unnoticedRels RX RP) live a b) (m : Mem) (c : Fin nCam) {x y : Slot MLP} (hxy : SameSlotBy Eq x y) :
    F.view m a c x = F.view m b c y := by
  unfold Full.view
  rw [State.updateMultiCamera_scene (here_scene hU h), hxy.coord, hxy.idx, (hU.scene _ _ h.w.1).fea]
  simp only [(h.fsm.slots _).valid, (h.fsm.slots _).idx]

lemma detect_unnoticed (h : SimOn (unnoticedRels RX RP) live a b) (m : Mem) (c : Fin nCam) : SameArgs Eq (F.detect m a c) (F.detect m b c) := by
  unfold Full.detect
  rw [t_unnoticed h]
  exact ⟨rfl, rfl, rfl, fun _ _ => rfl, fun _ _ => rfl, fun x y hxy _ => view_unnoticed hU h m c hxy, rfl, rfl, rfl, rfl, rfl⟩

lemma initNewFeature_unnoticed {x y : State n nCam nPose} (h : RX x y) {P Q : Cov n nCam nPose} (hP : RP P Q) (cfg : NewCfg n) (hC : InitOk OC cfg.C) (mc : MultiCamera nCam)
    (sfv : V3 → Nor) (c : Fin nCam) (med : ℝ) (out : Fea) (i : Fin n) :
    Both (fun u v => u.1 = v.1 ∧ RX u.2.1 v.2.1 ∧ RP u.2.2 v.2.2) (initNewFeature cfg mc sfv c med (out, x, P) i)
      (initNewFeature cfg mc sfv c med (out, y, Q) i) := by
  have hs := hU.scene _ _ h
  have hset : ∀ {x y : State n nCam nPose}, RX x y → ∀ d, RX (x.setDist i d) (y.setDist i d) := fun {x y} h d => by
    unfold State.setDist
    rw [(hU.scene _ _ h).fea]
    exact hU.fea _ _ h _
  have h1 := hset h { (y.fea i).d with p := med }
  have hs1 := hU.scene _ _ h1
  have hP1 := hU.reset _ _ hP i (scaleDepth cfg.C ((y.setDist i { (y.fea i).d with p := med }).fea i).d) (hC.scaled _)
  unfold initNewFeature
  simp only [hs.fea, hs1.fea]
  by_cases hc : nCam > 1 ∧ cfg.stereo = true
  · simp only [if_pos hc, State.featureOut_scene hs1, Option.bind_eq_bind, Option.pure_def]
    cases (y.setDist i { (y.fea i).d with p := med }).featureOut mc sfv i (otherCam c) out with
    | none => exact .none
    | some out =>
      simp only [Option.bind_some]
      cases cfg.found i out.c.view with
      | none => exact .some ⟨rfl, h1, hP1⟩
      | some al =>
        simp only
        unfold stereoInit
        simp only [hs1.fea, hs1.qCM, hs1.MrMC, Option.bind_eq_bind, Option.pure_def]
        cases ((y.setDist i { (y.fea i).d with p := med }).fea i).c.getNor with
        | none => exact .none
        | some v1 =>
          cases al.getNor with
          | none => exact .none
          | some v2 =>
            obtain ⟨_, v1⟩ := v1
            obtain ⟨_, v2⟩ := v2
            simp only [Option.bind_some]
            generalize FC.depthFromTriangulation v1.vec v2.vec _ _ _ = D
            cases D with
            | none => exact .some ⟨rfl, h1, hP1⟩
            | some D =>
              simp only
              cases Distance.setParameter ((y.setDist i { (y.fea i).d with p := med }).fea i).d D with
              | none => exact .none
              | some d => exact .some ⟨rfl, hset h1 d, hU.reset _ _ hP1 _ _ hC.conf⟩
  · simp only [if_neg hc, Option.pure_def]
    exact .some ⟨rfl, h1, hP1⟩

omit hU in
lemma newCfg_unnoticed (h : SimOn (unnoticedRels RX RP) live a b) (m : Mem) (c : Fin nCam) (i : Fin n) (hv : a.valid i = true) (v : FCView) :
    (F.newCfg m a c).found i v = (F.newCfg m b c).found i v := by
  unfold Full.newCfg
  simp only
  rw [t_unnoticed h, patch_unnoticed h hv]

lemma initFeature_unnoticed (hC : InitOk OC F.C) (h : SimOn (unnoticedRels RX RP) live a b) (m : Mem) (med : ℝ) (i : Fin n) (c : Fin nCam) (hv : a.valid i = true) :
    (unnoticedRels RX RP).w (F.initFeature m med a i c).1 (F.initFeature m med b i c).1 ∧ RP (F.initFeature m med a i c).2 (F.initFeature m med b i c).2 := by
  have e : initNewFeature (F.newCfg m a c) F.mc F.sfv c med (F.outOf m.out, here a, a.cov) i =
      initNewFeature (F.newCfg m b c) F.mc F.sfv c med (F.outOf m.out, here a, a.cov) i := by
    unfold initNewFeature
    have hC : (F.newCfg m a c).C = (F.newCfg m b c).C := rfl
    have hS : (F.newCfg m a c).stereo = (F.newCfg m b c).stereo := rfl
    simp only [hC, hS, newCfg_unnoticed h m c i hv]
  have key := initNewFeature_unnoticed hU (here_unnoticed hU h) h.cov (F.newCfg m b c) hC F.mc F.sfv c med (F.outOf m.out) i
  unfold Full.initFeature
  rw [e]
  revert key
  generalize initNewFeature (F.newCfg m b c) F.mc F.sfv c med (F.outOf m.out, here a, a.cov) i = u
  generalize initNewFeature (F.newCfg m b c) F.mc F.sfv c med (F.outOf m.out, here b, b.cov) i = v
  intro key
  cases key with
  | none => exact ⟨h.w, h.cov⟩
  | some k => exact ⟨⟨k.2.1, h.w.2.1, h.w.2.2⟩, k.2.2⟩

lemma env_unnoticed (hC : InitOk OC F.C) (hL : UpdateKeeps RX RP F.lwf) (hZ : StepKeeps RX RP F.zvu F.zvu) (m : Mem) :
    Similar (unnoticedRels RX RP) (F.env (fun _ => m) (fun _ _ => m)) (F.env (fun _ => m) (fun _ _ => m)) where
  inPrev a b h i c _ := by simp only [Full.env, tested_unnoticed hU h]
  align a b h i c hv := by simp only [Full.env, align_unnoticed hU h m i c hv]
  inNew a b h c x := by simp only [Full.env, t_unnoticed h]
  err a b h i c x hv := by simp only [Full.env, err_unnoticed h m i c x hv]
  updateW a b h i c hv := (update_unnoticed hU hL h m i c hv).1
  updateK a b h i c hv := (update_unnoticed hU hL h m i c hv).2.1
  update a b h i c hv := (update_unnoticed hU hL h m i c hv).2.2
  dist w w' h := by
    simp only [Full.env]
    rw [(hU.scene _ _ h.1).fea]
  resetCov k k' h i := hU.reset _ _ h i _ hC.one
  inPost a b h i c _ := by simp only [Full.env, inPost_unnoticed hU h]
  moving a b h i _ := by simp only [Full.env, moving_unnoticed h]
  repatch t t' ht a b h _ := by
    have : t = t' := ht
    subst this
    refine Both.refl' ?_
    simp only [Full.env, Full.repatch, h.coord]
  score p q h := by
    have : p = q := h
    rw [this]
  detect a b h c := detect_unnoticed hU h m c
  median a b h := by
    simp only [Full.env, Full.median]
    rw [State.medianDepth_scene (here_scene hU h) (hU.calib _ _ (here_unnoticed hU h)) (hU.cov _ _ h.cov), valid_unnoticed h]
  initFeature med a b live h i c hv := initFeature_unnoticed hU hC h m med i c hv
  finish t t' w w' ht hw := by
    have : t = t' := ht
    subst this
    exact ⟨hw.1, rfl, hw.2.2⟩
  zvu w w' k k' co hw hk := by
    have h0 : RX { w.x with fea := fun i => { w.x.fea i with c := known (co i) } } { w'.x with fea := fun i => { w'.x.fea i with c := known (co i) } } := by
      rw [(hU.scene _ _ hw.1).fea]
      exact hU.fea _ _ hw.1 _
    obtain ⟨h1, h2⟩ := hZ _ _ _ _ h0 hk
    simp only [Full.env]
    exact ⟨⟨h1, hw.2.1, hw.2.2⟩, h2, by rw [(hU.scene _ _ h1).fea]⟩

end

lemma unnoticed_ok : (unnoticedRels RX RP).Ok where
  drop _ _ h := h
  fresh _ _ _ _ _ _ h ht := by simp only [unnoticedRels] at h ht ⊢; rw [h, ht]
  increase _ _ _ _ h ht := by simp only [unnoticedRels] at h ht ⊢; rw [h, ht]
  setStatus _ _ _ _ h := by simp only [unnoticedRels] at h ⊢; rw [h]
  setPatch _ _ _ _ h ht := by simp only [unnoticedRels] at h ht ⊢; rw [h, ht]
  status _ _ h := by simp only [unnoticedRels] at h; rw [h]
  good _ _ h _ _ := by simp only [unnoticedRels] at h; rw [h]
  age _ _ _ _ h ht := by simp only [unnoticedRels] at h ht; rw [h, ht]

/-! ### The filter update -/

/-- The correction keeps a correspondence. -/
def FinishKeeps (ve : Bool) (RX : State n nCam nPose → State n nCam nPose → Prop) (RP : Cov n nCam nPose → Cov n nCam nPose → Prop) (gate : Gate 2)
    (R : Matrix (Fin 2) (Fin 2) ℝ) (u : PoseUpd nPose) : Prop :=
  ∀ (v : Fin 2 → ℝ) (H : Matrix (Fin 2) (Ix n nCam nPose) ℝ), (∀ r b, b.seen ve = false → H r b = 0) → ∀ x y P Q, RX x y → RP P Q →
    Both (fun z z' => RX z.s z'.s ∧ RP z.P z'.P) (Rovio.FSt.finish ⟨x, P, u⟩ gate v H R id) (Rovio.FSt.finish ⟨y, Q, u⟩ gate v H R id)

lemma ekf_keeps {ve : Bool} {OC : Matrix (Fin 3) (Fin 3) ℝ → Prop} (hU : Unnoticed ve OC RX RP) {gate : Gate 2} {R : Matrix (Fin 2) (Fin 2) ℝ} {u : PoseUpd nPose} (hF : FinishKeeps ve RX RP gate R u) :
    UpdateKeeps RX RP (ekf gate R u) := by
  intro K hK x y P Q r hx hP
  have hs := hU.scene _ _ hx
  unfold ekf
  rw [hK.innov x y hs, hK.jac x y hs]
  simp only [Option.bind_eq_bind, Option.pure_def]
  cases K.innov y 0 r with
  | none => exact ⟨hx, hP, rfl⟩
  | some a =>
    obtain ⟨v, stop, r1⟩ := a
    simp only [Option.bind_some]
    cases hJ : K.jac y r1 with
    | none => exact ⟨hx, hP, rfl⟩
    | some a =>
      obtain ⟨J, stop', r2⟩ := a
      simp only [Option.bind_some]
      cases hH : colMat fun b => (J (DState.unit b)).map V2.at with
      | none => exact ⟨hx, hP, rfl⟩
      | some H =>
        simp only [Option.bind_some]
        have h0 : ∀ k b, b.seen ve = false → H k b = 0 := fun k b hb => by
          have h := colMat_some hH b
          cases hv : J (DState.unit b) with
          | none => simp [hv] at h
          | some v =>
            have hv0 := hK.row y r1 J stop' r2 hJ b (Ix.seen_mono (hU.calib _ _ hx) hb) v hv
            rw [hv, hv0, Option.map_some, Option.some.injEq] at h
            rw [← congrFun h k, V2.at_zero]
        have key := hF v.at H h0 x y P Q hx hP
        revert key
        generalize Rovio.FSt.finish ⟨x, P, u⟩ gate v.at H R id = f
        generalize Rovio.FSt.finish ⟨y, Q, u⟩ gate v.at H R id = f'
        intro key
        cases key with
        | none => exact ⟨hx, hP, rfl⟩
        | some hz =>
          rename_i z z'
          simp only [Option.bind_some]
          rw [hK.check z.s z'.s (hU.scene _ _ hz.1)]
          cases K.check z'.s true r2 with
          | none => exact ⟨hx, hP, rfl⟩
          | some a =>
            simp only [Option.bind_some, Option.getD_some]
            by_cases hc : (a.1 && !stop && !stop') = true
            · simp only [if_pos hc]; exact ⟨hz.1, hz.2, trivial⟩
            · simp only [if_neg hc]; exact ⟨hx, hP, trivial⟩

/-! #### Features and mounting only -/

lemma scene_boxPlus {x y : State n nCam nPose} (h : SameScene x y) {δ ε : DState n nCam nPose} (h1 : y.aux.doVE = true → δ.vep = ε.vep) (h2 : y.aux.doVE = true → δ.vea = ε.vea) (h3 : δ.nor = ε.nor)
    (h4 : δ.dep = ε.dep) : SameScene (x.boxPlus δ) (y.boxPlus ε) := by
  refine ⟨?_, h.doVE, fun c => ?_, fun c => ?_⟩
  · simp only [State.boxPlus, h.fea, h3, h4]
  · have := h.MrMC c
    simp only [State.MrMC, State.boxPlus, h.doVE] at this ⊢
    by_cases hd : y.aux.doVE = true
    · simp only [hd, if_true, h1 hd] at this ⊢; rw [this]
    · simp only [hd] at this ⊢; exact this
  · have := h.qCM c
    simp only [State.qCM, State.boxPlus, h.doVE] at this ⊢
    by_cases hd : y.aux.doVE = true
    · simp only [hd, if_true, h2 hd] at this ⊢; rw [this]
    · simp only [hd] at this ⊢; exact this

lemma fix_aux {x z : State n nCam nPose} (h : x.fix = some z) : z.aux = x.aux := by
  unfold State.fix at h
  simp only [Option.bind_eq_bind, Option.pure_def] at h
  obtain ⟨f, _, h⟩ := Option.bind_eq_some_iff.mp h
  rw [Option.some.injEq] at h
  rw [← h]

lemma scene_fix {x y : State n nCam nPose} (h : SameScene x y) : Both SameScene x.fix y.fix := by
  unfold State.fix
  rw [h.fea]
  simp only [Option.bind_eq_bind, Option.pure_def]
  cases optAll fun i => (y.fea i).fix with
  | none => exact .none
  | some f =>
    refine .some ⟨rfl, h.doVE, fun c => h.MrMC c, fun c => ?_⟩
    have := h.qCM c
    simp only [State.qCM, h.doVE] at this ⊢
    by_cases hd : y.aux.doVE = true
    · simp only [hd, if_true] at this ⊢; rw [this]
    · simp only [hd] at this ⊢; exact this

/-- The same scene, with or without calibration of the mounting. -/
def SceneX (ve : Bool) (x y : State n nCam nPose) : Prop := SameScene x y ∧ y.aux.doVE = ve

lemma scene_finish (ve : Bool) (gate : Gate 2) (R : Matrix (Fin 2) (Fin 2) ℝ) (u : PoseUpd nPose) : FinishKeeps (n := n) (nCam := nCam) ve (SceneX ve) (SameSceneCov ve) gate R u := by
  classical
  intro v H hH x y P Q hx hP
  have hS0 : H * P * Hᵀ = H * Q * Hᵀ := mul_scene hP hH fun a s ha => hH s a ha
  have hS : innS gate v H R P = innS gate v H R Q := by unfold innS; rw [hS0]
  have hI : innH gate v H R P = innH gate v H R Q := by unfold innH; rw [hS0]
  have hI0 : ∀ k b, b.seen ve = false → innH gate v H R Q k b = 0 := fun k b hb => by
    simp only [innH, Matrix.of_apply]
    split_ifs
    · rfl
    · exact hH k b hb
  have hK : ∀ a k, a.seen ve = true → gain gate v H R P a k = gain gate v H R Q a k := fun a k ha => by
    unfold gain
    rw [hS, hI]
    simp only [Matrix.mul_apply, Matrix.transpose_apply]
    refine Finset.sum_congr rfl fun l _ => ?_
    congr 1
    refine Finset.sum_congr rfl fun b _ => ?_
    cases hb : b.seen ve with
    | false => rw [hI0 l b hb, mul_zero, mul_zero]
    | true => rw [hP a b ha hb]
  unfold Rovio.FSt.finish
  rw [correct_eq, correct_eq, hS]
  by_cases hd : (innS gate v H R Q).det = 0
  · rw [if_pos hd, if_pos hd]; exact .none
  · rw [if_neg hd, if_neg hd]
    simp only [Option.bind_eq_bind, Option.bind_some, Option.pure_def, id]
    have hδ : ∀ a, a.seen ve = true → (-((gain gate v H R P).mulVec v)) a = (-((gain gate v H R Q).mulVec v)) a := fun a ha => by
      simp only [Pi.neg_apply, Matrix.mulVec, dotProduct, hK a _ ha]
    have hPQ : SameSceneCov ve (symm (P - gain gate v H R P * innS gate v H R Q * (gain gate v H R P)ᵀ))
        (symm (Q - gain gate v H R Q * innS gate v H R Q * (gain gate v H R Q)ᵀ)) := by
      have : ∀ a b : Ix n nCam nPose, a.seen ve = true → b.seen ve = true → (P - gain gate v H R P * innS gate v H R Q * (gain gate v H R P)ᵀ) a b =
          (Q - gain gate v H R Q * innS gate v H R Q * (gain gate v H R Q)ᵀ) a b := fun a b ha hb => by
        simp only [Matrix.sub_apply, Matrix.mul_apply, Matrix.transpose_apply, hK a _ ha, hK b _ hb, hP a b ha hb]
      intro a b ha hb
      simp only [symm, Matrix.smul_apply, Matrix.add_apply, Matrix.transpose_apply, this a b ha hb, this b a hb ha]
    generalize -((gain gate v H R P).mulVec v) = δ at hδ
    generalize -((gain gate v H R Q).mulVec v) = ε at hδ
    have h1 : ve = true → ∀ c k, δ (.vep c k) = ε (.vep c k) := fun h c k => hδ _ h
    have h2 : ve = true → ∀ c k, δ (.vea c k) = ε (.vea c k) := fun h c k => hδ _ h
    have h3 : ∀ i k, δ (.nor i k) = ε (.nor i k) := fun i k => hδ _ rfl
    have h4 : ∀ i, δ (.dep i) = ε (.dep i) := fun i => hδ _ rfl
    have hb := scene_fix (scene_boxPlus hx.1 (δ := DState.ofFn δ) (ε := DState.ofFn ε) (fun h => by simp only [DState.ofFn, h1 (hx.2.symm.trans h)])
      (fun h => by simp only [DState.ofFn, h2 (hx.2.symm.trans h)]) (by simp only [DState.ofFn, h3]) (by simp only [DState.ofFn, h4]))
    have hve : ∀ z, (y.boxPlus (DState.ofFn ε)).fix = some z → z.aux.doVE = ve := fun z hz => by
      rw [fix_aux hz]; exact hx.2
    revert hb hve
    generalize (x.boxPlus (DState.ofFn δ)).fix = a
    generalize (y.boxPlus (DState.ofFn ε)).fix = b
    intro hb hve
    cases hb with
    | none => exact .none
    | some hb => exact .some ⟨⟨hb, hve _ rfl⟩, hPQ⟩

lemma initOk_true (C : Matrix (Fin 3) (Fin 3) ℝ) : InitOk (fun _ => True) C := ⟨trivial, trivial, fun _ => trivial⟩

lemma unnoticed_scene (ve : Bool) : Unnoticed (n := n) (nCam := nCam) (nPose := nPose) ve (fun _ => True) (SceneX ve) (SameSceneCov ve) where
  scene _ _ h := h.1
  calib _ _ h hv := h.2.symm.trans hv
  cov _ _ h := h
  fea _ _ h _ := ⟨⟨rfl, h.1.doVE, h.1.MrMC, h.1.qCM⟩, h.2⟩
  reset _ _ h i C _ := resetFeature_scene h i C

/-! #### Change of the world frame -/

lemma seen_world {a : Ix n nCam nPose} {ve : Bool} (h : a.isWorld = true) : a.seen ve = false := by cases a <;> first | rfl | cases h

lemma world_seen {ve : Bool} {a : Ix n nCam nPose} (h : a.seen ve = true) : a.isWorld = false := by cases a <;> first | rfl | cases h

/-- Estimates in two world frames. -/
def MovedX (g : Shift) (x y : State n nCam nPose) : Prop := y = g.state x

/-- Covariances in two world frames. -/
def MovedP (g : Shift) (P Q : Cov n nCam nPose) : Prop := Q = g.cov P

lemma unnoticed_moved (g : Shift) : Unnoticed (n := n) (nCam := nCam) (nPose := nPose) true (fun _ => True) (MovedX g) (MovedP g) where
  scene x y h := by rw [MovedX] at h; subst h; exact ⟨rfl, rfl, fun _ => rfl, fun _ => rfl⟩
  calib _ _ _ _ := rfl
  cov P Q h := by rw [MovedP] at h; subst h; exact fun a b ha hb => (Shift.cov_other g P (world_seen ha) (world_seen hb)).symm
  fea x y h f := by rw [MovedX] at h; subst h; rfl
  reset P Q h i C _ := by rw [MovedP] at h; subst h; exact Shift.reset_cov g P i C

lemma moved_finish {g : Shift} (hg : g.Upright) (gate : Gate 2) (R : Matrix (Fin 2) (Fin 2) ℝ) (u : PoseUpd nPose) :
    FinishKeeps (n := n) (nCam := nCam) true (MovedX g) (MovedP g) gate R u := by
  intro v H hH x y P Q hx hP
  have := Shift.finish_moved (gate := gate) (y := v) (H := H) (R := R) hg (x := ⟨x, P, u⟩) (y' := ⟨y, Q, u⟩) ⟨hx, hP, rfl⟩ fun r b hb => hH r b (seen_world hb)
  exact this.mono fun _ _ h => ⟨h.s, h.P⟩

/-- A filter step that keeps the correspondence also does so when a step without result is ignored. -/
lemma keepOr_keeps {o o' : Option (Rovio.FSt n nCam nPose)} {x y : State n nCam nPose} {P Q : Cov n nCam nPose} (hx : RX x y) (hP : RP P Q)
    (h : Both (fun z z' => RX z.s z'.s ∧ RP z.P z'.P) o o') : RX (keepOr o x P).1 (keepOr o' y Q).1 ∧ RP (keepOr o x P).2 (keepOr o' y Q).2 := by
  cases h with
  | none => exact ⟨hx, hP⟩
  | some h => exact h

lemma moved_zero {g : Shift} (hg : g.Upright) (cfg : FCfg n nCam nPose) (u : PoseUpd nPose) :
    StepKeeps (MovedX g) (MovedP g) (zeroUpdate cfg u) (zeroUpdate cfg u) := by
  intro x y P Q hx hP
  refine keepOr_keeps hx hP ?_
  unfold Rovio.FSt.zeroVel
  simp only [if_true]
  have : zeroVelInnov y 0 = zeroVelInnov x 0 := by rw [show y = g.state x from hx]; rfl
  rw [this]
  refine (Shift.finish_moved hg (x := ⟨x, P, u⟩) (y' := ⟨y, Q, u⟩) ⟨hx, hP, rfl⟩ fun r b hb => ?_).mono fun _ _ h => ⟨h.s, h.P⟩
  simp only [Matrix.of_apply, zeroVelJac, (DState.world_unit hb).vel, M3.mulVec_zero', V3.at_zero]

lemma moved_velocity {g : Shift} (hg : g.Upright) (cfg : FCfg n nCam nPose) (u : PoseUpd nPose) (m : V3) :
    StepKeeps (MovedX g) (MovedP g) (fun x P => keepOr (Rovio.FSt.velocity cfg m ⟨x, P, u⟩) x P) fun x P => keepOr (Rovio.FSt.velocity cfg m ⟨x, P, u⟩) x P := by
  intro x y P Q hx hP
  refine keepOr_keeps hx hP ?_
  unfold Rovio.FSt.velocity
  have : velInnov cfg.qAM m y 0 = velInnov cfg.qAM m x 0 := by rw [show y = g.state x from hx]; rfl
  simp only [this]
  refine (Shift.finish_moved hg (x := ⟨x, P, u⟩) (y' := ⟨y, Q, u⟩) ⟨hx, hP, rfl⟩ fun r b hb => ?_).mono fun _ _ h => ⟨h.s, h.P⟩
  simp only [Matrix.of_apply, velJac, (DState.world_unit hb).vel, M3.mulVec_zero', V3.at_zero]

lemma moved_imu {g : Shift} (hg : g.Upright) (cfg : FCfg n nCam nPose) (hq : cfg.q (.pos 0) = cfg.q (.pos 1)) (u : PoseUpd nPose) (m : ImuMeas) (dt : ℝ) :
    StepKeeps (MovedX g) (MovedP g) (fun x P => keepOr (Rovio.FSt.predict cfg m dt ⟨x, P, u⟩) x P) fun x P => keepOr (Rovio.FSt.predict cfg m dt ⟨x, P, u⟩) x P := by
  intro x y P Q hx hP
  exact keepOr_keeps hx hP ((Shift.predict_moved hg cfg hq m dt (x := ⟨x, P, u⟩) (y := ⟨y, Q, u⟩) ⟨hx, hP, rfl⟩).mono fun _ _ h => ⟨h.s, h.P⟩)

/-! #### Additional uncertainty about position and heading -/

lemma unnoticed_wider {k : ℕ} (L : Matrix (Ix n nCam nPose) (Fin k) ℝ) : Unnoticed (n := n) (nCam := nCam) (nPose := nPose) true (fun _ => True) Eq (Wider L) where
  scene x y h := by subst h; exact ⟨rfl, rfl, fun _ => rfl, fun _ => rfl⟩
  calib _ _ _ _ := rfl
  cov P Q h := by
    obtain ⟨d, L', hu, rfl, -⟩ := h
    intro a b ha hb
    rw [Matrix.add_apply, Matrix.mul_apply, Finset.sum_eq_zero, add_zero]
    intro j _
    rw [(hu j).other (world_seen ha), zero_mul]
  fea x y h f := by rw [h]
  reset P Q h i C _ := by
    obtain ⟨d, L', hu, rfl, h1, h2⟩ := h
    exact ⟨d, L', hu, reset_wide hu P i C, h1, h2⟩

lemma wider_of_finish {k m : ℕ} {L : Matrix (Ix n nCam nPose) (Fin k) ℝ} {gate : Gate m} {y : Fin m → ℝ} {H : Matrix (Fin m) (Ix n nCam nPose) ℝ}
    {R : Matrix (Fin m) (Fin m) ℝ} {x : State n nCam nPose} {P Q : Cov n nCam nPose} (u : PoseUpd nPose) (hP : Wider L P Q) (hH : ∀ r b, b.isWorld = true → H r b = 0) :
    Both (fun z z' => z.s = z'.s ∧ Wider L z.P z'.P) (Rovio.FSt.finish ⟨x, P, u⟩ gate y H R id) (Rovio.FSt.finish ⟨x, Q, u⟩ gate y H R id) := by
  obtain ⟨d, L', hu, hQ, h1, h2⟩ := hP
  exact (finish_wide (L := L') (x := ⟨x, P, u⟩) (x' := ⟨x, Q, u⟩) ⟨rfl, hQ, rfl, hu⟩ hH).mono fun _ _ h => ⟨h.s.symm, d, L', hu, h.P, h1, h2⟩

lemma wider_finish {k : ℕ} (L : Matrix (Ix n nCam nPose) (Fin k) ℝ) (gate : Gate 2) (R : Matrix (Fin 2) (Fin 2) ℝ) (u : PoseUpd nPose) :
    FinishKeeps true Eq (Wider L) gate R u := by
  rintro v H hH x _ P Q rfl hP
  exact wider_of_finish u hP fun r b hb => hH r b (seen_world hb)

lemma wider_zero {k : ℕ} (L : Matrix (Ix n nCam nPose) (Fin k) ℝ) (cfg : FCfg n nCam nPose) (u : PoseUpd nPose) :
    StepKeeps Eq (Wider L) (zeroUpdate cfg u) (zeroUpdate cfg u) := by
  rintro x _ P Q rfl hP
  refine keepOr_keeps rfl hP ?_
  unfold Rovio.FSt.zeroVel
  simp only [if_true]
  refine wider_of_finish u hP fun r b hb => ?_
  simp only [Matrix.of_apply, zeroVelJac, (DState.world_unit hb).vel, M3.mulVec_zero', V3.at_zero]

lemma wider_velocity {k : ℕ} (L : Matrix (Ix n nCam nPose) (Fin k) ℝ) (cfg : FCfg n nCam nPose) (u : PoseUpd nPose) (m : V3) :
    StepKeeps Eq (Wider L) (fun x P => keepOr (Rovio.FSt.velocity cfg m ⟨x, P, u⟩) x P) fun x P => keepOr (Rovio.FSt.velocity cfg m ⟨x, P, u⟩) x P := by
  rintro x _ P Q rfl hP
  refine keepOr_keeps rfl hP ?_
  refine wider_of_finish u hP fun r b hb => ?_
  simp only [Matrix.of_apply, velJac, (DState.world_unit hb).vel, M3.mulVec_zero', V3.at_zero]

lemma wider_imu {k : ℕ} (L : Matrix (Ix n nCam nPose) (Fin k) ℝ) (cfg : FCfg n nCam nPose) (u : PoseUpd nPose) (m : ImuMeas) (dt : ℝ) :
    StepKeeps Eq (Wider L) (fun x P => keepOr (Rovio.FSt.predict cfg m dt ⟨x, P, u⟩) x P) fun x P => keepOr (Rovio.FSt.predict cfg m dt ⟨x, P, u⟩) x P := by
  rintro x _ P Q rfl hP
  refine keepOr_keeps rfl hP ?_
  obtain ⟨d, L', hu, hQ, h1, h2⟩ := hP
  refine (predict_wide (L := L') cfg m dt (x := ⟨x, P, u⟩) (y := ⟨x, Q, u⟩) ⟨rfl, hQ, rfl, hu⟩).mono fun _ _ h => ?_
  obtain ⟨d', L'', hw, h1', h2'⟩ := h
  exact ⟨hw.s.symm, fun l => d l + d' l, L'', hw.unseen, hw.P, fun j => by rw [h1', h1], fun l j => by rw [h2', h2, h1]; ring⟩

/-! ### Zero-velocity updates that are switched off -/

section

variable {P W K : Type} {cfg : Cfg} {env : Env P W K n nCam} (z : W → K → (Fin n → FC) → W × K × (Fin n → FC))

lemma scan_zvu : ∀ (fuel : ℕ) (s : St P W K n nCam), scan cfg { env with zvu := z } fuel s = scan cfg env fuel s
  | 0, _ => rfl
  | fuel + 1, s => by
    unfold scan
    have hp : ∀ s i c, probe cfg { env with zvu := z } s i c = probe cfg env s i c := fun _ _ _ => rfl
    simp only [hp, scan_zvu fuel]

lemma loop_zvu : ∀ (fuel : ℕ) (s : St P W K n nCam), loop cfg { env with zvu := z } fuel s = loop cfg env fuel s
  | 0, _ => rfl
  | fuel + 1, s => by
    unfold loop
    have hp : ∀ s b i c, postVisit cfg { env with zvu := z } s b i c = postVisit cfg env s b i c := fun _ _ _ _ => rfl
    have ha : ∀ s i c, applyUpdate { env with zvu := z } s i c = applyUpdate env s i c := fun _ _ _ => rfl
    simp only [scan_zvu, hp, ha, loop_zvu fuel]

lemma forced_zvu (required : ℤ) : ∀ (fuel : ℕ) (f : ℝ) (k : ℕ) (s : St P W K n nCam), forced cfg { env with zvu := z } required fuel f k s = forced cfg env required fuel f k s
  | 0, f, k, s => by unfold forced; rfl
  | fuel + 1, f, k, s => by
    unfold forced
    have hp : ∀ s i, forceOne cfg { env with zvu := z } f s i = forceOne cfg env f s i := fun _ _ => rfl
    simp only [hp, forced_zvu required fuel]

/-- With zero-velocity updates switched off they have no influence. -/
lemma imageUpdate_zvu (h : cfg.zeroVelocity = false) (I : USet) (order : Finset (Fin n) → List (Fin n)) (fuel : ℕ) (s : St P W K n nCam) :
    imageUpdate I order cfg { env with zvu := z } fuel s = imageUpdate I order cfg env fuel s := by
  unfold imageUpdate commonPost
  have h1 : ∀ s, commonPre cfg { env with zvu := z } s = commonPre cfg env s := fun _ => rfl
  have h2 : ∀ s, refreshAll cfg { env with zvu := z } s = refreshAll cfg env s := fun _ => rfl
  have h3 : ∀ s, removeBad cfg { env with zvu := z } s = removeBad cfg env s := fun _ => rfl
  have h4 : ∀ s, detectAll I order cfg { env with zvu := z } s = detectAll I order cfg env s := fun _ => rfl
  have h5 : ∀ s, zeroVelocity cfg { env with zvu := z } s = zeroVelocity cfg env s := fun s => by
    unfold zeroVelocity
    simp only [h, Bool.false_and, Bool.false_eq_true, if_false]
  simp only [loop_zvu, forced_zvu, h1, h2, h3, h4, h5]

end

end ImgFull

end Rovio
