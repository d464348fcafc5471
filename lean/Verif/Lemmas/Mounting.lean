import Verif.Spec.Mounting
import Verif.Lemmas.ImgSees

/-! # Lemmas for C105: without online calibration the estimated mounting has no influence -/

namespace Rovio

open Spec Matrix

variable {n nCam nPose : ℕ} {x y : State n nCam nPose} {P Q : Cov n nCam nPose}

lemma Spec.IdleX.eq (h : IdleX x y) : x = { y with vep := x.vep, vea := x.vea } := by
  have := h.rest
  cases x; cases y
  simp only [State.mk.injEq] at this ⊢
  simp [this]

lemma Spec.IdleX.of (h : y.aux.doVE = false) (p : Fin nCam → V3) (q : Fin nCam → Quat) : IdleX { y with vep := p, vea := q } y := ⟨h, rfl⟩

lemma Spec.IdleX.split (h : IdleX x y) : ∃ p q, x = { y with vep := p, vea := q } := ⟨_, _, h.eq⟩

lemma Spec.IdleX.scene (h : IdleX x y) : SameScene x y := by
  rw [h.eq]
  exact ⟨rfl, rfl, fun c => by simp only [State.MrMC, h.off]; rfl, fun c => by simp only [State.qCM, h.off]; rfl⟩

lemma Ix.mounting_unseen {a : Ix n nCam nPose} (h : a.seen false = true) : a.isMounting = false := by cases a <;> first | rfl | cases h

lemma DState.ofFn_idle {δ ε : Ix n nCam nPose → ℝ} (h : ∀ a, a.isMounting = false → δ a = ε a) :
    ({ (DState.ofFn δ) with vep := (DState.ofFn ε).vep, vea := (DState.ofFn ε).vea } : DState n nCam nPose) = DState.ofFn ε := by
  have h1 := fun k => h (.pos k) rfl
  have h2 := fun k => h (.vel k) rfl
  have h3 := fun k => h (.acb k) rfl
  have h4 := fun k => h (.gyb k) rfl
  have h5 := fun k => h (.att k) rfl
  have h6 := fun i k => h (.nor i k) rfl
  have h7 := fun i => h (.dep i) rfl
  have h8 := fun i k => h (.pop i k) rfl
  have h9 := fun i k => h (.poa i k) rfl
  simp only [DState.ofFn, h1, h2, h3, h4, h5, h6, h7, h8, h9]

lemma boxPlus_idle (h : IdleX x y) {δ ε : Ix n nCam nPose → ℝ} (hd : ∀ a, a.isMounting = false → δ a = ε a) :
    IdleX (x.boxPlus (DState.ofFn δ)) (y.boxPlus (DState.ofFn ε)) := by
  rw [← DState.ofFn_idle hd]
  obtain ⟨p, q, rfl⟩ := h.split
  exact ⟨h.off, rfl⟩

lemma fix_idle (h : IdleX x y) : Both IdleX x.fix y.fix := by
  obtain ⟨p, q, rfl⟩ := h.split
  unfold State.fix
  simp only [Option.bind_eq_bind, Option.pure_def]
  cases optAll fun i => (y.fea i).fix with
  | none => exact .none
  | some f => exact .some ⟨h.off, rfl⟩

lemma resetFeature_idle (h : IdleP P Q) (i : Fin n) (C : Matrix (Fin 3) (Fin 3) ℝ) : IdleP (P.resetFeature i C) (Q.resetFeature i C) := by
  intro a b ha hb
  unfold Cov.resetFeature
  exact setBlock_congr (setBlock_congr (setBlock_congr (setBlock_congr (setBlock_congr (setBlock_congr (setBlock_congr (setBlock_congr (h a b ha hb) _ _ _) _ _ _) _ _ _)
    _ _ _) _ _ _) _ _ _) _ _ _) _ _ _

lemma symm_idle (h : IdleP P Q) : IdleP (symm P) (symm Q) := by
  intro a b ha hb
  simp only [symm, Matrix.smul_apply, Matrix.add_apply, Matrix.transpose_apply, h a b ha hb, h b a hb ha]

lemma mul_idle {ρ σ : Type} {p : ρ → Prop} {q : σ → Prop} (h : IdleP P Q) {A : Matrix ρ (Ix n nCam nPose) ℝ} {B : Matrix (Ix n nCam nPose) σ ℝ}
    (hA : ∀ r, p r → ∀ a, a.isMounting = true → A r a = 0) (hB : ∀ s, q s → ∀ a, a.isMounting = true → B a s = 0) {r : ρ} {s : σ} (hr : p r) (hs : q s) :
    (A * P * B) r s = (A * Q * B) r s := by
  simp only [Matrix.mul_apply]
  refine Finset.sum_congr rfl fun b _ => ?_
  cases hb : b.isMounting with
  | true => rw [hB s hs b hb, mul_zero, mul_zero]
  | false =>
    congr 1
    refine Finset.sum_congr rfl fun a _ => ?_
    cases ha : a.isMounting with
    | true => rw [hA r hr a ha, zero_mul, zero_mul]
    | false => rw [h a b ha hb]

section

variable {m : ℕ} {gate : Gate m} {v : Fin m → ℝ} {H : Matrix (Fin m) (Ix n nCam nPose) ℝ} {R : Matrix (Fin m) (Fin m) ℝ}

lemma finish_idle (hH : ∀ r b, b.isMounting = true → H r b = 0) {u : PoseUpd nPose} {post : State n nCam nPose → State n nCam nPose}
    (hpost : ∀ x y, IdleX x y → IdleX (post x) (post y)) (hx : IdleX x y) (hP : IdleP P Q) :
    Both (fun z z' => IdleX z.s z'.s ∧ IdleP z.P z'.P ∧ z.u = z'.u) (FSt.finish ⟨x, P, u⟩ gate v H R post) (FSt.finish ⟨y, Q, u⟩ gate v H R post) := by
  classical
  have hS0 : H * P * Hᵀ = H * Q * Hᵀ := by
    ext r s
    exact mul_idle (p := fun _ => True) (q := fun _ => True) hP (fun r _ b hb => hH r b hb) (fun s _ b hb => hH s b hb) trivial trivial
  have hS : innS gate v H R P = innS gate v H R Q := by unfold innS; rw [hS0]
  have hI : innH gate v H R P = innH gate v H R Q := by unfold innH; rw [hS0]
  have hI0 : ∀ k b, b.isMounting = true → innH gate v H R Q k b = 0 := fun k b hb => by
    simp only [innH, Matrix.of_apply]
    split_ifs
    · rfl
    · exact hH k b hb
  have hK : ∀ a k, a.isMounting = false → gain gate v H R P a k = gain gate v H R Q a k := fun a k ha => by
    unfold gain
    rw [hS, hI]
    simp only [Matrix.mul_apply, Matrix.transpose_apply]
    refine Finset.sum_congr rfl fun l _ => ?_
    congr 1
    refine Finset.sum_congr rfl fun b _ => ?_
    cases hb : b.isMounting with
    | true => rw [hI0 l b hb, mul_zero, mul_zero]
    | false => rw [hP a b ha hb]
  unfold FSt.finish
  rw [correct_eq, correct_eq, hS]
  by_cases hd : (innS gate v H R Q).det = 0
  · rw [if_pos hd, if_pos hd]; exact .none
  · rw [if_neg hd, if_neg hd]
    simp only [Option.bind_eq_bind, Option.bind_some, Option.pure_def]
    have hδ : ∀ a, a.isMounting = false → (-((gain gate v H R P).mulVec v)) a = (-((gain gate v H R Q).mulVec v)) a := fun a ha => by
      simp only [Pi.neg_apply, Matrix.mulVec, dotProduct, hK a _ ha]
    have hPQ : IdleP (symm (P - gain gate v H R P * innS gate v H R Q * (gain gate v H R P)ᵀ))
        (symm (Q - gain gate v H R Q * innS gate v H R Q * (gain gate v H R Q)ᵀ)) := by
      refine symm_idle fun a b ha hb => ?_
      simp only [Matrix.sub_apply, Matrix.mul_apply, Matrix.transpose_apply, hK a _ ha, hK b _ hb, hP a b ha hb]
    have hb := fix_idle (hpost _ _ (boxPlus_idle hx hδ))
    revert hb
    generalize (post (x.boxPlus (DState.ofFn (-((gain gate v H R P).mulVec v))))).fix = a
    generalize (post (y.boxPlus (DState.ofFn (-((gain gate v H R Q).mulVec v))))).fix = b
    intro hb
    cases hb with
    | none => exact .none
    | some hb => exact .some ⟨hb, hPQ, rfl⟩

end

/-! ### Prediction -/

lemma predictFea_idle (h : IdleX x y) : x.predictFea = y.predictFea := by
  have hM := State.MrMC_scene h.scene
  have hq := State.qCM_scene h.scene
  obtain ⟨p, q, rfl⟩ := h.split
  funext r dt w i
  unfold State.predictFea State.camVel State.camRor
  simp only [hM, hq]

lemma evalPrediction_idle (h : IdleX x y) (cfg : PredCfg) (m : ImuMeas) (w : DState n nCam nPose) (dt : ℝ) :
    Both IdleX (x.evalPrediction cfg m true x w dt) (y.evalPrediction cfg m true y w dt) := by
  have hM := State.MrMC_scene h.scene
  have hq := State.qCM_scene h.scene
  have hp := predictFea_idle h
  obtain ⟨p, q, rfl⟩ := h.split
  unfold State.evalPrediction
  by_cases hdt : dt ≤ 0
  · rw [if_pos hdt, if_pos hdt]; exact .none
  · rw [if_neg hdt, if_neg hdt]
    simp only [hM, hq, hp, h.off, if_true, Option.bind_eq_bind, Option.pure_def, Bool.false_eq_true, if_false]
    cases optAll (y.predictFea (m.gyr - y.gyb + (1 / Real.sqrt dt) • w.att) dt w) with
    | none => exact .none
    | some f =>
      simp only [Option.bind_some, State.fix, Option.bind_eq_bind, Option.pure_def]
      cases optAll fun i => (f i).fix with
      | none => exact .none
      | some g => exact .some ⟨rfl, rfl⟩

lemma predJac_idle (h : IdleX x y) : x.predJac = y.predJac := by
  have hM := State.MrMC_scene h.scene
  have hq := State.qCM_scene h.scene
  obtain ⟨p, q, rfl⟩ := h.split
  funext m dt δ
  unfold State.predJac
  have : State.feaJac { y with vep := p, vea := q } = y.feaJac := by
    funext m dt i δ
    unfold State.feaJac State.feaJacVec State.feaJacDep State.camVel State.camRor
    simp only [hM, hq]
  rw [this]
  rfl

lemma noiseJac_idle (h : IdleX x y) : x.noiseJac = y.noiseJac := by
  have hM := State.MrMC_scene h.scene
  have hq := State.qCM_scene h.scene
  obtain ⟨p, q, rfl⟩ := h.split
  funext m dt δ
  unfold State.noiseJac
  have : State.feaNoise { y with vep := p, vea := q } = y.feaNoise := by
    funext m dt i δ
    unfold State.feaNoise State.feaNoiseVec State.feaNoiseDep State.camVel State.camRor
    simp only [hM, hq]
  rw [this]
  rfl

/-- Increments of the mounting only. -/
structure DState.Mounting (δ : DState n nCam nPose) : Prop where
  pos : δ.pos = 0
  vel : δ.vel = 0
  acb : δ.acb = 0
  gyb : δ.gyb = 0
  att : δ.att = 0
  nor : ∀ i, δ.nor i = 0
  dep : ∀ i, δ.dep i = 0
  pop : ∀ k, δ.pop k = 0
  poa : ∀ k, δ.poa k = 0

lemma DState.mounting_unit {b : Ix n nCam nPose} (h : b.isMounting = true) : (DState.unit b).Mounting := by
  cases b <;> first | (cases h; done) | (constructor <;> intros <;> simp [DState.unit, DState.ofFn, Pi.single_apply] <;> rfl)

lemma predJac_mounting (hv : y.aux.doVE = false) {m : ImuMeas} {dt : ℝ} {δ r : DState n nCam nPose} (hδ : δ.Mounting) (h : y.predJac m dt δ = some r) : r.Mounting := by
  unfold State.predJac at h
  rw [Option.map_eq_some_iff] at h
  obtain ⟨f, hf, h⟩ := h
  have h0 : ∀ i, f i = (0, 0) := fun i => by
    unfold optAll at hf
    split_ifs at hf with hs
    have hi := congrFun (Option.some.inj hf) i
    rw [← hi]
    obtain ⟨z, hz⟩ := Option.isSome_iff_exists.mp (hs i)
    simp only [hz, Option.get_some]
    unfold State.feaJac at hz
    cases hc : camIdx nCam (y.fea i).c.camID with
    | none => simp only [hc, Option.some.injEq] at hz; exact hz.symm
    | some a =>
      simp only [hc, Option.bind_eq_bind, Option.pure_def] at hz
      obtain ⟨⟨c, nor⟩, -, hz⟩ := Option.bind_eq_some_iff.mp hz
      rw [Option.some.injEq] at hz
      rw [← hz]
      simp only [State.feaJacVec, State.feaJacDep, hv, hδ.nor, hδ.dep, hδ.vel, hδ.gyb, M3.mulVec_zero', V3.smul_zero', Nor.M_zero', V3.zero_smul', V3.add_zero',
        Nor.Mt_zero', V3.dot_zero', Bool.false_eq_true, if_false, mul_zero, add_zero]
  rw [← h]
  constructor <;> intros <;>
    simp only [State.predJacOf, h0, hδ.pos, hδ.vel, hδ.acb, hδ.gyb, hδ.att, hδ.pop, hδ.poa, M3.mulVec_zero', V3.add_zero']

lemma noiseJac_mounting {m : ImuMeas} {dt : ℝ} {δ r : DState n nCam nPose} (hδ : δ.Mounting) (h : y.noiseJac m dt δ = some r) : r.Mounting := by
  unfold State.noiseJac at h
  rw [Option.map_eq_some_iff] at h
  obtain ⟨f, hf, h⟩ := h
  have h0 : ∀ i, f i = (0, 0) := fun i => by
    unfold optAll at hf
    split_ifs at hf with hs
    have hi := congrFun (Option.some.inj hf) i
    rw [← hi]
    obtain ⟨z, hz⟩ := Option.isSome_iff_exists.mp (hs i)
    simp only [hz, Option.get_some]
    unfold State.feaNoise at hz
    cases hc : camIdx nCam (y.fea i).c.camID with
    | none => simp only [hc, Option.some.injEq] at hz; exact hz.symm
    | some a =>
      simp only [hc, Option.bind_eq_bind, Option.pure_def] at hz
      obtain ⟨⟨c, nor⟩, -, hz⟩ := Option.bind_eq_some_iff.mp hz
      rw [Option.some.injEq] at hz
      rw [← hz]
      simp only [State.feaNoiseVec, State.feaNoiseDep, hδ.nor, hδ.dep, hδ.att, M3.mulVec_zero', V3.smul_zero', Nor.N_zero', V3.add_zero',
        Nor.Mt_zero', V3.dot_zero', mul_zero, add_zero]
  rw [← h]
  constructor <;> intros <;>
    simp only [State.noiseJacOf, h0, hδ.pos, hδ.vel, hδ.acb, hδ.gyb, hδ.att, hδ.pop, hδ.poa, M3.mulVec_zero', V3.add_zero']

lemma DState.Mounting.get {δ : DState n nCam nPose} (h : δ.Mounting) {a : Ix n nCam nPose} (ha : a.isMounting = false) : δ.get a = 0 := by
  cases a <;> first | (cases ha; done) |
    simp only [DState.get, h.pos, h.vel, h.acb, h.gyb, h.att, h.nor, h.dep, h.pop, h.poa, V3.at_zero, V2.at_zero]

lemma colMat_mounting {f : DState n nCam nPose → Option (DState n nCam nPose)} (hf : ∀ δ r, δ.Mounting → f δ = some r → r.Mounting)
    {F : Matrix (Ix n nCam nPose) (Ix n nCam nPose) ℝ} (h : colMat (fun b => (f (DState.unit b)).map DState.get) = some F) :
    ∀ a, a.isMounting = false → ∀ b, b.isMounting = true → F a b = 0 := by
  intro a ha b hb
  have := colMat_some h b
  rw [Option.map_eq_some_iff] at this
  obtain ⟨r, hr, he⟩ := this
  rw [← congrFun he a]
  exact (hf _ _ (DState.mounting_unit hb) hr).get ha

lemma predict_idle {cfg cfg' : FCfg n nCam nPose} (hc : IdleCfg cfg cfg') (m : ImuMeas) (dt : ℝ) (u : PoseUpd nPose) (hx : IdleX x y) (hP : IdleP P Q) :
    Both (fun z z' => IdleX z.s z'.s ∧ IdleP z.P z'.P ∧ z.u = z'.u) (FSt.predict cfg m dt ⟨x, P, u⟩) (FSt.predict cfg' m dt ⟨y, Q, u⟩) := by
  unfold FSt.predict
  have hpred : cfg.pred = cfg'.pred := by rw [← hc.rest]
  simp only [predJac_idle hx, noiseJac_idle hx, hpred, Option.bind_eq_bind, Option.pure_def]
  cases hF : colMat fun b => (y.predJac m dt (DState.unit b)).map DState.get with
  | none => exact .none
  | some F =>
    cases hG : colMat fun b => (y.noiseJac m dt (DState.unit b)).map DState.get with
    | none => exact .none
    | some G =>
      simp only [Option.bind_some]
      have hF0 := colMat_mounting (fun δ r hδ hr => predJac_mounting hx.off hδ hr) hF
      have hG0 := colMat_mounting (fun δ r hδ hr => noiseJac_mounting hδ hr) hG
      have hs := evalPrediction_idle hx cfg'.pred m (DState.ofFn 0) dt
      revert hs
      generalize x.evalPrediction cfg'.pred m true x (DState.ofFn 0) dt = a
      generalize y.evalPrediction cfg'.pred m true y (DState.ofFn 0) dt = b
      intro hs
      cases hs with
      | none => exact .none
      | some hs =>
        refine .some ⟨hs, symm_idle fun a b ha hb => ?_, rfl⟩
        have hq : IdleP (Matrix.diagonal cfg.q) (Matrix.diagonal cfg'.q) := fun a b ha _ => by
          by_cases hab : a = b
          · subst hab; rw [Matrix.diagonal_apply_eq, Matrix.diagonal_apply_eq, hc.q a ha]
          · rw [Matrix.diagonal_apply_ne _ hab, Matrix.diagonal_apply_ne _ hab]
        rw [Matrix.add_apply, Matrix.add_apply, mul_idle (B := Fᵀ) hP hF0 hF0 ha hb, mul_idle (B := Gᵀ) hq hG0 hG0 ha hb]

lemma velocity_idle {cfg cfg' : FCfg n nCam nPose} (hc : IdleCfg cfg cfg') (meas : V3) (u : PoseUpd nPose) (hx : IdleX x y) (hP : IdleP P Q) :
    Both (fun z z' => IdleX z.s z'.s ∧ IdleP z.P z'.P ∧ z.u = z'.u) (FSt.velocity cfg meas ⟨x, P, u⟩) (FSt.velocity cfg' meas ⟨y, Q, u⟩) := by
  unfold FSt.velocity
  have e : velInnov cfg.qAM meas x 0 = velInnov cfg.qAM meas y 0 := by obtain ⟨p, q, rfl⟩ := hx.split; rfl
  rw [← hc.rest]
  simp only [e]
  refine finish_idle (fun r b hb => ?_) (fun _ _ h => h) hx hP
  simp only [Matrix.of_apply, velJac, (DState.mounting_unit hb).vel, M3.mulVec_zero', V3.at_zero]

lemma zeroVel_idle {cfg cfg' : FCfg n nCam nPose} (hc : IdleCfg cfg cfg') (u : PoseUpd nPose) (hx : IdleX x y) (hP : IdleP P Q) :
    Both (fun z z' => IdleX z.s z'.s ∧ IdleP z.P z'.P ∧ z.u = z'.u) (FSt.zeroVel cfg (fun _ => true) ⟨x, P, u⟩) (FSt.zeroVel cfg' (fun _ => true) ⟨y, Q, u⟩) := by
  unfold FSt.zeroVel
  have e : zeroVelInnov x 0 = zeroVelInnov y 0 := by obtain ⟨p, q, rfl⟩ := hx.split; rfl
  rw [← hc.rest]
  simp only [e, if_true]
  refine finish_idle (fun r b hb => ?_) (fun _ _ h => h) hx hP
  simp only [Matrix.of_apply, zeroVelJac, (DState.mounting_unit hb).vel, M3.mulVec_zero', V3.at_zero]

lemma motion_idle (hx : IdleX x y) (cfg : PredCfg) (m : ImuMeas) : x.detectInertialMotion cfg m = y.detectInertialMotion cfg m := by obtain ⟨p, q, rfl⟩ := hx.split; rfl

lemma unnoticed_idle : Unnoticed (n := n) (nCam := nCam) (nPose := nPose) false (fun _ => True) IdleX IdleP where
  scene _ _ h := h.scene
  calib _ _ h hv := absurd hv (by rw [h.off]; simp)
  cov _ _ h a b ha hb := h a b (Ix.mounting_unseen ha) (Ix.mounting_unseen hb)
  fea x y h f := by obtain ⟨p, q, rfl⟩ := h.split; exact ⟨h.off, rfl⟩
  reset _ _ h i C _ := resetFeature_idle h i C

end Rovio
