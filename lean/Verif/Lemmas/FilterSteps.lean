import Verif.Lemmas.FilterBlocks

/-! # Lemmas about filter runs: the steps -/

namespace Rovio

open Matrix Spec Distance

variable {n nCam nPose : ℕ}

lemma colMat_some {ρ : Type} {f : Ix n nCam nPose → Option (ρ → ℝ)} {M : Matrix ρ (Ix n nCam nPose) ℝ} (h : colMat f = some M) (b : Ix n nCam nPose) :
    f b = some fun r => M r b := by
  classical
  unfold colMat at h
  by_cases hs : ∀ b, (f b).isSome
  · rw [dif_pos hs, Option.some.injEq] at h
    rw [← h]
    simp only [of_apply]
    exact (Option.some_get (hs b)).symm
  · rw [dif_neg hs] at h; cases h

/-- The odometry components of an increment vanish. -/
structure DState.OdoZero (δ : DState n nCam nPose) : Prop where
  pos : δ.pos = 0
  vel : δ.vel = 0
  acb : δ.acb = 0
  gyb : δ.gyb = 0
  att : δ.att = 0
  vep : ∀ c, δ.vep c = 0
  vea : ∀ c, δ.vea c = 0
  nor : ∀ i, δ.nor i = 0
  dep : ∀ i, δ.dep i = 0

lemma DState.odoZero_of {v : Ix n nCam nPose → ℝ} (h : ∀ b, b.isAlign = false → v b = 0) : (DState.ofFn v).OdoZero := by
  constructor <;> intros <;> simp only [DState.ofFn] <;> first | (ext <;> exact h _ rfl) | exact h _ rfl

lemma DState.odoZero_unit {b : Ix n nCam nPose} (h : b.isAlign = true) : (DState.unit b).OdoZero := by
  refine DState.odoZero_of fun a ha => ?_
  rw [Pi.single_apply, if_neg]
  rintro rfl
  rw [h] at ha; cases ha

lemma DState.alignZero_unit {b : Ix n nCam nPose} (h : b.isAlign = false) : (∀ j, (DState.unit b).pop j = 0) ∧ ∀ j, (DState.unit b).poa j = 0 := by
  constructor <;> intro j <;> cases b <;> first | (cases h; done) | (simp [DState.unit, DState.ofFn, Pi.single_apply]; rfl)

lemma DState.get_odoZero {δ : DState n nCam nPose} (h : δ.OdoZero) {a : Ix n nCam nPose} (ha : a.isAlign = false) : δ.get a = 0 := by
  cases a with
  | pop j k => cases ha
  | poa j k => cases ha
  | pos k => simp only [DState.get, h.pos]; fin_cases k <;> rfl
  | vel k => simp only [DState.get, h.vel]; fin_cases k <;> rfl
  | acb k => simp only [DState.get, h.acb]; fin_cases k <;> rfl
  | gyb k => simp only [DState.get, h.gyb]; fin_cases k <;> rfl
  | att k => simp only [DState.get, h.att]; fin_cases k <;> rfl
  | vep c k => simp only [DState.get, h.vep]; fin_cases k <;> rfl
  | vea c k => simp only [DState.get, h.vea]; fin_cases k <;> rfl
  | nor i k => simp only [DState.get, h.nor]; fin_cases k <;> rfl
  | dep i => simp only [DState.get, h.dep]

lemma DState.get_alignZero {δ : DState n nCam nPose} (h : (∀ j, δ.pop j = 0) ∧ ∀ j, δ.poa j = 0) {a : Ix n nCam nPose} (ha : a.isAlign = true) : δ.get a = 0 := by
  cases a with
  | pop j k => simp only [DState.get, h.1]; fin_cases k <;> rfl
  | poa j k => simp only [DState.get, h.2]; fin_cases k <;> rfl
  | _ => cases ha

lemma V3.at_zero (k : Fin 3) : (0 : V3).at k = 0 := by fin_cases k <;> rfl
lemma V2.at_zero (k : Fin 2) : (0 : V2).at k = 0 := by fin_cases k <;> rfl

section zero
lemma M3.mulVec_zero' (A : M3) : A.mulVec 0 = 0 := by ext <;> simp [M3.mulVec, V3.dot]
lemma V3.dot_zero' (v : V3) : v.dot 0 = 0 := by simp [V3.dot]
lemma Nor.M_zero' (m : Nor) : m.M 0 = 0 := by ext <;> simp [Nor.M]
lemma Nor.N_zero' (m : Nor) : m.N 0 = 0 := by ext <;> simp [Nor.N]
lemma Nor.Mt_zero' (m : Nor) : m.Mt 0 = 0 := by ext <;> simp [Nor.Mt, V3.dot]
lemma V3.zero_smul' (v : V3) : (0 : ℝ) • v = 0 := by ext <;> simp
end zero

namespace State

variable {s t : State n nCam nPose}

lemma feaJac_congr (h : Same s t) (hs : s.Ok) (m : ImuMeas) (dt : ℝ) (i : Fin n) (δ : DState n nCam nPose) : t.feaJac m dt i δ = s.feaJac m dt i δ := by
  obtain ⟨p, v, e⟩ := Fea.noPix_eq (h.fea i)
  have hn := MultiCamera.getNor_of_valid (hs.nor i)
  have hn' : ((s.fea i).setPix p v).c.getNor = some ((s.fea i).c.setPix p v, (s.fea i).c.nor) :=
    MultiCamera.getNor_of_valid (c := ((s.fea i).setPix p v).c) (hs.nor i)
  unfold State.feaJac State.feaJacVec State.feaJacDep
  simp only [e, h.camVel, h.camRor, h.qCM, h.MrMC, ← h.gyb, h.doVE, Fea.setPix_d]
  rw [hn']
  simp only [Fea.setPix_c, FC.setPix_camID, hn, Option.bind_eq_bind, Option.bind_some]

lemma predJac_congr (h : Same s t) (hs : s.Ok) (m : ImuMeas) (dt : ℝ) (δ : DState n nCam nPose) : t.predJac m dt δ = s.predJac m dt δ := by
  unfold State.predJac
  simp only [feaJac_congr h hs]
  congr 1
  funext fea
  simp only [State.predJacOf, ← h.gyb, ← h.att, ← h.vel]

lemma feaNoise_congr (h : Same s t) (hs : s.Ok) (m : ImuMeas) (dt : ℝ) (i : Fin n) (δ : DState n nCam nPose) : t.feaNoise m dt i δ = s.feaNoise m dt i δ := by
  obtain ⟨p, v, e⟩ := Fea.noPix_eq (h.fea i)
  have hn := MultiCamera.getNor_of_valid (hs.nor i)
  have hn' : ((s.fea i).setPix p v).c.getNor = some ((s.fea i).c.setPix p v, (s.fea i).c.nor) :=
    MultiCamera.getNor_of_valid (c := ((s.fea i).setPix p v).c) (hs.nor i)
  unfold State.feaNoise State.feaNoiseVec State.feaNoiseDep
  simp only [e, h.camVel, h.camRor, h.qCM, h.MrMC, ← h.gyb, Fea.setPix_d]
  rw [hn']
  simp only [Fea.setPix_c, FC.setPix_camID, hn, Option.bind_eq_bind, Option.bind_some]

lemma noiseJac_congr (h : Same s t) (hs : s.Ok) (m : ImuMeas) (dt : ℝ) (δ : DState n nCam nPose) : t.noiseJac m dt δ = s.noiseJac m dt δ := by
  unfold State.noiseJac
  simp only [feaNoise_congr h hs]
  congr 1
  funext fea
  simp only [State.noiseJacOf, ← h.gyb, ← h.att, ← h.vel]

lemma feaJac_zero {m : ImuMeas} {dt : ℝ} {i : Fin n} {δ : DState n nCam nPose} (hδ : δ.OdoZero) {r : V2 × ℝ} (h : s.feaJac m dt i δ = some r) : r = (0, 0) := by
  unfold State.feaJac at h
  cases hc : camIdx nCam (s.fea i).c.camID with
  | none => simp only [hc, Option.some.injEq] at h; exact h.symm
  | some a =>
    simp only [hc, Option.bind_eq_bind] at h
    cases hn : (s.fea i).c.getNor with
    | none => simp [hn] at h
    | some q =>
      simp only [hn, Option.bind_some, Option.pure_def, Option.some.injEq] at h
      rw [← h]
      simp only [State.feaJacVec, State.feaJacDep, hδ.nor, hδ.dep, hδ.vel, hδ.gyb, hδ.vea, hδ.vep, M3.mulVec_zero', V3.smul_zero', V3.dot_zero', Nor.M_zero',
        V3.zero_smul', V3.add_zero', V3.sub_zero', mul_zero, add_zero, ite_self, Nor.Mt_zero']

lemma feaNoise_zero {m : ImuMeas} {dt : ℝ} {i : Fin n} {δ : DState n nCam nPose} (hδ : δ.OdoZero) {r : V2 × ℝ} (h : s.feaNoise m dt i δ = some r) : r = (0, 0) := by
  unfold State.feaNoise at h
  cases hc : camIdx nCam (s.fea i).c.camID with
  | none => simp only [hc, Option.some.injEq] at h; exact h.symm
  | some a =>
    simp only [hc, Option.bind_eq_bind] at h
    cases hn : (s.fea i).c.getNor with
    | none => simp [hn] at h
    | some q =>
      simp only [hn, Option.bind_some, Option.pure_def, Option.some.injEq] at h
      rw [← h]
      simp only [State.feaNoiseVec, State.feaNoiseDep, hδ.nor, hδ.dep, hδ.att, M3.mulVec_zero', V3.smul_zero', V3.dot_zero', Nor.N_zero',
        V3.add_zero', mul_zero, add_zero, Nor.Mt_zero']

/-- The prediction Jacobian does not mix odometry part and additional poses. -/
lemma predJac_block {m : ImuMeas} {dt : ℝ} {F : Cov n nCam nPose}
    (h : colMat (fun b => (s.predJac m dt (DState.unit b)).map DState.get) = some F) : BlockDiag F := by
  intro a b hab
  have hb := colMat_some h b
  simp only [State.predJac, Option.map_map, Option.map_eq_some_iff] at hb
  obtain ⟨fea, hf, he⟩ := hb
  rw [← congrFun he a]
  have hf := optAll_eq_some hf
  cases hbb : b.isAlign with
  | true =>
    have hδ := DState.odoZero_unit hbb
    have h0 : ∀ i, fea i = (0, 0) := fun i => feaJac_zero hδ (hf i)
    refine DState.get_odoZero ?_ (by rw [hbb] at hab; simpa using hab)
    constructor <;> intros <;>
      simp only [State.predJacOf, hδ.pos, hδ.vel, hδ.acb, hδ.gyb, hδ.att, hδ.vep, hδ.vea, h0, M3.mulVec_zero', V3.add_zero']
  | false =>
    have hδ := DState.alignZero_unit hbb
    refine DState.get_alignZero ?_ (by rw [hbb] at hab; simpa using hab)
    constructor <;> intro j <;> simp only [State.predJacOf, hδ.1, hδ.2, M3.mulVec_zero']

/-- The noise Jacobian does not mix odometry part and additional poses. -/
lemma noiseJac_block {m : ImuMeas} {dt : ℝ} {F : Cov n nCam nPose}
    (h : colMat (fun b => (s.noiseJac m dt (DState.unit b)).map DState.get) = some F) : BlockDiag F := by
  intro a b hab
  have hb := colMat_some h b
  simp only [State.noiseJac, Option.map_map, Option.map_eq_some_iff] at hb
  obtain ⟨fea, hf, he⟩ := hb
  rw [← congrFun he a]
  have hf := optAll_eq_some hf
  cases hbb : b.isAlign with
  | true =>
    have hδ := DState.odoZero_unit hbb
    have h0 : ∀ i, fea i = (0, 0) := fun i => feaNoise_zero hδ (hf i)
    refine DState.get_odoZero ?_ (by rw [hbb] at hab; simpa using hab)
    constructor <;> intros <;>
      simp only [State.noiseJacOf, hδ.pos, hδ.vel, hδ.acb, hδ.gyb, hδ.att, hδ.vep, hδ.vea, h0, M3.mulVec_zero', V3.add_zero']
  | false =>
    have hδ := DState.alignZero_unit hbb
    refine DState.get_alignZero ?_ (by rw [hbb] at hab; simpa using hab)
    constructor <;> intro j <;> simp only [State.noiseJacOf, hδ.1, hδ.2, M3.mulVec_zero']

/-- The feature output does not read the additional poses. -/
lemma featureJac_withOdo (o : State n nCam 0) (sfv : V3 → Nor) (ig : Bool) (i : Fin n) (b : Fin nCam) (δ : DState n nCam nPose) :
    (t.withOdo o).featureJac sfv ig i b δ = (s.withOdo o).featureJac sfv ig i b δ := rfl

lemma featureJac_zero {sfv : V3 → Nor} {ig : Bool} {i : Fin n} {b : Fin nCam} {δ : DState n nCam nPose} (hδ : δ.OdoZero) {r : V2 × ℝ}
    (h : s.featureJac sfv ig i b δ = some r) : r.1 = 0 := by
  unfold State.featureJac at h
  by_cases hc : (s.fea i).c.camID ≠ b.val
  · rw [if_pos hc] at h
    cases ha : camIdx nCam (s.fea i).c.camID with
    | none => simp [ha] at h
    | some a =>
      cases hn : (s.fea i).c.getNor with
      | none => simp [ha, hn] at h
      | some q =>
        simp only [ha, hn, Option.bind_eq_bind, Option.bind_some, Option.pure_def, Option.some.injEq] at h
        rw [← h]
        simp only [hδ.nor, hδ.dep, hδ.vea, hδ.vep, M3.mulVec_zero', V3.smul_zero', Nor.M_zero',
          V3.zero_smul', V3.add_zero', ite_self, Nor.Mt_zero']
  · rw [if_neg hc, Option.some.injEq] at h
    rw [← h]; exact hδ.nor i

/-! ### Increments -/

lemma boxPlus_congr (h : Same s t) {δ ε : DState n nCam nPose} (hd : ∀ a : Ix n nCam 0, δ.get a.ofOdo = ε.get a.ofOdo) :
    Same (s.boxPlus δ) (t.boxPlus ε) := by
  have e3 : ∀ u w : V3, (∀ k, u.at k = w.at k) → u = w := fun u w h => V3.ext (h 0) (h 1) (h 2)
  have e2 : ∀ u w : V2, (∀ k, u.at k = w.at k) → u = w := fun u w h => V2.ext (h 0) (h 1)
  have d1 : δ.pos = ε.pos := e3 _ _ fun k => hd (.pos k)
  have d2 : δ.vel = ε.vel := e3 _ _ fun k => hd (.vel k)
  have d3 : δ.acb = ε.acb := e3 _ _ fun k => hd (.acb k)
  have d4 : δ.gyb = ε.gyb := e3 _ _ fun k => hd (.gyb k)
  have d5 : δ.att = ε.att := e3 _ _ fun k => hd (.att k)
  have d6 : δ.vep = ε.vep := funext fun c => e3 _ _ fun k => hd (.vep c k)
  have d7 : δ.vea = ε.vea := funext fun c => e3 _ _ fun k => hd (.vea c k)
  have d8 : δ.nor = ε.nor := funext fun c => e2 _ _ fun k => hd (.nor c k)
  have d9 : δ.dep = ε.dep := funext fun c => hd (.dep c)
  constructor <;> simp only [boxPlus, h.pos, h.vel, h.acb, h.gyb, h.att, h.vep, h.vea, d1, d2, d3, d4, d5, d6, d7, d8, d9]
  · intro i
    obtain ⟨p, v, e⟩ := Fea.noPix_eq (h.fea i)
    rw [e]
    cases ht : (s.fea i).c.trackWarping <;> simp [Fea.boxPlus, Fea.noPix, FC.noPixel, FC.setNor, FC.setPix, ht]
  · exact h.aux

lemma boxPlus_unit (h : UnitState s) (δ : DState n nCam nPose) : UnitState (s.boxPlus δ) := by
  refine ⟨h.att.boxPlus _, fun c => (h.vea c).boxPlus _, h.aux, fun k => (h.poa k).boxPlus _, fun i => ?_⟩
  simp only [State.boxPlus, Fea.boxPlus, FC.setNor, Bool.and_false, Bool.false_eq_true, if_false]
  exact Nor.boxPlus_unit (h.nor i) _

lemma boxPlus_nor (δ : DState n nCam nPose) (i : Fin n) : ((s.boxPlus δ).fea i).c.validNor = true := by
  simp [State.boxPlus, Fea.boxPlus, FC.setNor]

lemma boxPlus_same {δ : DState n nCam nPose} (hs : s.Ok) (hδ : δ.OdoZero) : Same (s.boxPlus δ) s := by
  have q0 : ∀ q : Quat, q.boxPlus 0 = q := fun q => by have := Quat.boxPlus_zero q 0; rwa [V3.smul_zero'] at this
  have n0 : ∀ q : Nor, q.boxPlus 0 = q := fun q => by
    have := Nor.boxPlus_zero q 0
    rwa [show (0:ℝ) • (0 : V2) = 0 from by ext <;> simp] at this
  constructor <;> simp only [boxPlus, hδ.pos, hδ.vel, hδ.acb, hδ.gyb, hδ.att, hδ.vep, hδ.vea, hδ.nor, hδ.dep, V3.add_zero', q0]
  intro i
  have := hs.nor i
  cases ht : (s.fea i).c.trackWarping <;> simp [Fea.boxPlus, Fea.noPix, FC.noPixel, FC.setNor, n0, ht, this]

lemma Same.trans {a b c : State n nCam nPose} (h : Same a b) (h' : Same b c) : Same a c :=
  odo_eq_iff.mp ((odo_eq_iff.mpr h).trans (odo_eq_iff.mpr h'))

end State

end Rovio
