import Verif.Spec.Gauge
import Verif.Spec.Reset
import Verif.Lemmas.FilterSteps
import Verif.Props.FeatureCovariance

/-! # Lemmas about changes of the world frame -/

namespace Rovio

open Matrix Spec Distance

variable {n nCam nPose : ℕ}

/-! ### The rotation -/

lemma V3.eta' (v : V3) : (⟨v.at 0, v.at 1, v.at 2⟩ : V3) = v := rfl

namespace Spec.Shift

variable {g : Shift}

lemma rotate_gravity (hg : g.Upright) : g.z.rotate gravity = gravity := by
  have h := hg.unit
  simp only [Quat.IsUnit, Quat.normSq, hg.x, hg.y] at h
  ext
  · simp [Quat.rotate, gravity, hg.x, hg.y]
  · simp [Quat.rotate, gravity, hg.x, hg.y]
  · simp only [Quat.rotate, gravity, hg.x, hg.y]
    linear_combination (-9.81) * h

lemma inv_rotate_gravity (hg : g.Upright) : g.z.inv.rotate gravity = gravity := by
  conv_lhs => rw [← rotate_gravity hg]
  exact Quat.rotate_inv_rotate hg.unit _

lemma att_gravity (hg : g.Upright) (q : Quat) : (g.z * q).inv.rotate gravity = q.inv.rotate gravity := by
  rw [Quat.mul_inv_rev, Quat.rotate_mul, inv_rotate_gravity hg]

end Spec.Shift

lemma Quat.exp_rotate {z : Quat} (hz : z.IsUnit) (v : V3) : Quat.exp (z.rotate v) * z = z * Quat.exp v := by
  have hn := Quat.norm_rotate hz v
  have hu : z.w ^ 2 + z.x ^ 2 + z.y ^ 2 + z.z ^ 2 = 1 := by
    have := hz; simp only [Quat.IsUnit, Quat.normSq] at this; linarith
  unfold Quat.exp
  rw [hn]
  generalize Real.sinc (v.norm / 2) / 2 = a
  generalize Real.cos (v.norm / 2) = c
  ext
  · simp only [Quat.mul_w, Quat.rotate]
    linear_combination (-a * (v.x * z.x + v.y * z.y + v.z * z.z)) * hu
  · simp only [Quat.mul_x, Quat.rotate]
    linear_combination (a * (v.x * z.w + v.z * z.y - v.y * z.z)) * hu
  · simp only [Quat.mul_y, Quat.rotate]
    linear_combination (a * (v.y * z.w + v.x * z.z - v.z * z.x)) * hu
  · simp only [Quat.mul_z, Quat.rotate]
    linear_combination (a * (v.z * z.w + v.y * z.x - v.x * z.y)) * hu

lemma Quat.fix_mul {z : Quat} (hz : z.IsUnit) (q : Quat) : (z * q).fix = z * q.fix := by
  have h : (z * q).normSq = q.normSq := by rw [Quat.normSq_mul, hz, one_mul]
  unfold Quat.fix
  rw [h]
  ext <;> simp <;> ring

/-! ### The matrix -/

/-- The error vector in the new world frame. -/
def Spec.Shift.turn (g : Shift) (δ : DState n nCam nPose) : DState n nCam nPose := { δ with pos := g.z.rotate δ.pos, att := g.z.rotate δ.att }

namespace Spec.Shift

variable (g : Shift)

lemma sum_rot (k : Fin 3) (v : Fin 3 → ℝ) : ∑ l, g.rot k l * v l = (g.z.rotate ⟨v 0, v 1, v 2⟩).at k := by
  rw [Fin.sum_univ_three]
  fin_cases k <;> simp [rot, Quat.rotate, V3.at]

lemma mat_mul_pos {σ : Type} (A : Matrix (Ix n nCam nPose) σ ℝ) (k : Fin 3) (c : σ) : ((g.mat : Cov n nCam nPose) * A) (.pos k) c = ∑ l, g.rot k l * A (.pos l) c := by
  rw [Matrix.mul_apply]
  refine (Fintype.sum_of_injective (fun l : Fin 3 => (Ix.pos l : Ix n nCam nPose)) (fun a b h => by simpa using h) _ _ (fun b hb => ?_) (fun l => rfl)).symm
  cases b with
  | pos l => exact absurd ⟨l, rfl⟩ hb
  | _ => simp [mat]

lemma mat_mul_att {σ : Type} (A : Matrix (Ix n nCam nPose) σ ℝ) (k : Fin 3) (c : σ) : ((g.mat : Cov n nCam nPose) * A) (.att k) c = ∑ l, g.rot k l * A (.att l) c := by
  rw [Matrix.mul_apply]
  refine (Fintype.sum_of_injective (fun l : Fin 3 => (Ix.att l : Ix n nCam nPose)) (fun a b h => by simpa using h) _ _ (fun b hb => ?_) (fun l => rfl)).symm
  cases b with
  | att l => exact absurd ⟨l, rfl⟩ hb
  | _ => simp [mat]

lemma mat_other {a : Ix n nCam nPose} (ha : a.isWorld = false) (b : Ix n nCam nPose) : (g.mat : Cov n nCam nPose) a b = if a = b then 1 else 0 := by
  cases a <;> first | (cases ha; done) | rfl

lemma mat_other' {b : Ix n nCam nPose} (hb : b.isWorld = false) (a : Ix n nCam nPose) : (g.mat : Cov n nCam nPose) a b = if a = b then 1 else 0 := by
  cases b <;> first | (cases hb; done) | (cases a <;> rfl)

lemma mat_mul_other {σ : Type} (A : Matrix (Ix n nCam nPose) σ ℝ) {a : Ix n nCam nPose} (ha : a.isWorld = false) (c : σ) : ((g.mat : Cov n nCam nPose) * A) a c = A a c := by
  rw [Matrix.mul_apply]
  simp [mat_other g ha]

lemma mul_mat_other {σ : Type} (A : Matrix σ (Ix n nCam nPose) ℝ) {b : Ix n nCam nPose} (hb : b.isWorld = false) (r : σ) : (A * (g.mat : Cov n nCam nPose)) r b = A r b := by
  rw [Matrix.mul_apply]
  simp [mat_other' g hb]

lemma mul_mat_pos {σ : Type} (A : Matrix σ (Ix n nCam nPose) ℝ) (r : σ) (l : Fin 3) : (A * (g.mat : Cov n nCam nPose)) r (.pos l) = ∑ k, A r (.pos k) * g.rot k l := by
  rw [Matrix.mul_apply]
  refine (Fintype.sum_of_injective (fun l : Fin 3 => (Ix.pos l : Ix n nCam nPose)) (fun a b h => by simpa using h) _ _ (fun b hb => ?_) (fun l => rfl)).symm
  cases b with
  | pos l => exact absurd ⟨l, rfl⟩ hb
  | _ => simp [mat]

lemma mul_mat_att {σ : Type} (A : Matrix σ (Ix n nCam nPose) ℝ) (r : σ) (l : Fin 3) : (A * (g.mat : Cov n nCam nPose)) r (.att l) = ∑ k, A r (.att k) * g.rot k l := by
  rw [Matrix.mul_apply]
  refine (Fintype.sum_of_injective (fun l : Fin 3 => (Ix.att l : Ix n nCam nPose)) (fun a b h => by simpa using h) _ _ (fun b hb => ?_) (fun l => rfl)).symm
  cases b with
  | att l => exact absurd ⟨l, rfl⟩ hb
  | _ => simp [mat]

/-- A column of a product. -/
lemma mat_mul_col {σ : Type} (A : Matrix (Ix n nCam nPose) σ ℝ) (c : σ) (a : Ix n nCam nPose) :
    ((g.mat : Cov n nCam nPose) * A) a c = (g.turn (DState.ofFn fun b => A b c)).get a := by
  cases a with
  | pos k => rw [mat_mul_pos, sum_rot]; rfl
  | att k => rw [mat_mul_att, sum_rot]; rfl
  | _ => rw [mat_mul_other g A rfl]; exact (congrFun (DState.get_ofFn fun b => A b c) _).symm

lemma mat_mulVec (v : Ix n nCam nPose → ℝ) : DState.ofFn (g.mat.mulVec v) = g.turn (DState.ofFn v) := by
  refine DState.ext' ?_
  rw [DState.get_ofFn]
  funext a
  have h := mat_mul_col g (Matrix.replicateCol Unit v) () a
  rw [← Matrix.replicateCol_mulVec] at h
  exact h

/-- Matrices without world columns are not turned. -/
lemma mul_mat_of_zero {σ : Type} {A : Matrix σ (Ix n nCam nPose) ℝ} (h : ∀ r b, b.isWorld = true → A r b = 0) : A * g.mat = A := by
  ext r b
  cases b with
  | pos l => rw [mul_mat_pos, h r (.pos l) rfl]; exact Finset.sum_eq_zero fun k _ => by rw [h r (.pos k) rfl, zero_mul]
  | att l => rw [mul_mat_att, h r (.att l) rfl]; exact Finset.sum_eq_zero fun k _ => by rw [h r (.att k) rfl, zero_mul]
  | _ => exact mul_mat_other g A rfl r

lemma symm_cov (P : Cov n nCam nPose) : symm (g.cov P) = g.cov (symm P) := by
  simp only [symm, cov, Matrix.transpose_mul, Matrix.transpose_transpose, Matrix.mul_smul, Matrix.smul_mul, Matrix.mul_add, Matrix.add_mul, Matrix.mul_assoc]

lemma cov_other (P : Cov n nCam nPose) {a b : Ix n nCam nPose} (ha : a.isWorld = false) (hb : b.isWorld = false) : g.cov P a b = P a b := by
  unfold cov
  rw [← Matrix.transpose_apply (g.mat * P * g.mat.transpose) b a, Matrix.transpose_mul, Matrix.transpose_transpose, mat_mul_other g _ hb, Matrix.transpose_apply,
    mat_mul_other g _ ha]

end Spec.Shift

/-! ### State increments and normalisation -/

namespace Spec.Shift

variable {g : Shift}

lemma state_boxPlus (hg : g.Upright) (s : State n nCam nPose) (δ : DState n nCam nPose) : (g.state s).boxPlus (g.turn δ) = g.state (s.boxPlus δ) := by
  simp only [State.boxPlus, state, turn, State.mk.injEq, and_true, true_and]
  refine ⟨?_, ?_⟩
  · rw [Quat.rotate_add]; ext <;> simp <;> ring
  · simp only [Quat.boxPlus]
    rw [← Quat.mul_assoc', Quat.exp_rotate hg.unit, Quat.mul_assoc']

lemma state_fix (hg : g.Upright) (s : State n nCam nPose) : (g.state s).fix = s.fix.map g.state := by
  unfold State.fix
  have e : (g.state s).fea = s.fea := rfl
  rw [e]
  cases optAll fun i => (s.fea i).fix with
  | none => rfl
  | some f =>
    simp only [Option.bind_eq_bind, Option.bind_some, Option.pure_def, Option.map_some, Option.some.injEq]
    simp only [state, Quat.fix_mul hg.unit]

/-! ### Corrections -/

variable {m : ℕ} {gate : Gate m} {y : Fin m → ℝ} {H : Matrix (Fin m) (Ix n nCam nPose) ℝ} {R : Matrix (Fin m) (Fin m) ℝ} {P : Cov n nCam nPose}

lemma mul_cov (g : Shift) (h : ∀ r b, b.isWorld = true → H r b = 0) : H * g.cov P = H * P * g.matᵀ := by
  unfold cov
  rw [← Matrix.mul_assoc, ← Matrix.mul_assoc, mul_mat_of_zero g h]

lemma cov_mul (g : Shift) (h : ∀ r b, b.isWorld = true → H r b = 0) : g.cov P * Hᵀ = g.mat * (P * Hᵀ) := by
  unfold cov
  rw [Matrix.mul_assoc, ← Matrix.transpose_mul, mul_mat_of_zero g h, Matrix.mul_assoc]

lemma mul_cov_mul (g : Shift) (h : ∀ r b, b.isWorld = true → H r b = 0) : H * g.cov P * Hᵀ = H * P * Hᵀ := by
  rw [mul_cov g h, Matrix.mul_assoc, ← Matrix.transpose_mul, mul_mat_of_zero g h]

lemma correct_cov (g : Shift) (h : ∀ r b, b.isWorld = true → H r b = 0) :
    correct gate y H R (g.cov P) = (correct gate y H R P).map fun r => (g.mat.mulVec r.1, g.cov r.2) := by
  classical
  have hS : innS gate y H R (g.cov P) = innS gate y H R P := by unfold innS; rw [mul_cov_mul g h]
  have hH : innH gate y H R (g.cov P) = innH gate y H R P := by unfold innH; rw [mul_cov_mul g h]
  have hK : gain gate y H R (g.cov P) = g.mat * gain gate y H R P := by
    unfold gain
    rw [hS, hH, cov_mul g, Matrix.mul_assoc]
    intro r b hb
    simp only [innH, Matrix.of_apply]
    split_ifs
    · rfl
    · exact h r b hb
  rw [correct_eq, correct_eq, hS, hK]
  by_cases hd : (innS gate y H R P).det = 0
  · rw [if_pos hd, if_pos hd]; rfl
  · rw [if_neg hd, if_neg hd]
    simp only [Option.map_some, Option.some.injEq, Prod.mk.injEq]
    refine ⟨?_, ?_⟩
    · rw [Matrix.mulVec_neg, Matrix.mulVec_mulVec]
    · simp only [cov, Matrix.transpose_mul, Matrix.mul_sub, Matrix.sub_mul, Matrix.mul_assoc]

lemma finish_moved (hg : g.Upright) {x y' : FSt n nCam nPose} (hm : g.Moved x y') (h : ∀ r b, b.isWorld = true → H r b = 0) :
    Both g.Moved (x.finish gate y H R id) (y'.finish gate y H R id) := by
  unfold FSt.finish
  rw [hm.P, correct_cov g h]
  cases correct gate y H R x.P with
  | none => exact .none
  | some r =>
    simp only [Option.map_some, Option.bind_eq_bind, Option.bind_some, id, mat_mulVec, hm.s, state_boxPlus hg, state_fix hg]
    cases (x.s.boxPlus (DState.ofFn r.1)).fix with
    | none => exact .none
    | some s => exact .some ⟨rfl, symm_cov g _, hm.u⟩

/-! ### Image corrections -/

end Spec.Shift

lemma optAll_isSome {α : Type} {f : Fin n → Option α} : (optAll f).isSome ↔ ∀ i, (f i).isSome := by
  unfold optAll
  split_ifs with h <;> simp [h]

/-- Two Jacobians whose columns are defined together. -/
lemma colMat_map {α ρ : Type} {f : Ix n nCam nPose → Option α} {h h' : Ix n nCam nPose → α → ρ → ℝ} :
    Both (fun M M' => ∀ b, ∃ v, f b = some v ∧ (∀ r, M r b = h b v r) ∧ ∀ r, M' r b = h' b v r)
      (colMat fun b => (f b).map (h b)) (colMat fun b => (f b).map (h' b)) := by
  classical
  unfold colMat
  by_cases hs : ∀ b, (f b).isSome
  · have h1 : ∀ b, ((f b).map (h b)).isSome := fun b => by simp [hs b]
    have h2 : ∀ b, ((f b).map (h' b)).isSome := fun b => by simp [hs b]
    rw [dif_pos h1, dif_pos h2]
    refine .some fun b => ?_
    obtain ⟨v, hv⟩ := Option.isSome_iff_exists.mp (hs b)
    refine ⟨v, hv, fun r => ?_, fun r => ?_⟩ <;> simp [hv]
  · have h1 : ¬ ∀ b, ((f b).map (h b)).isSome := fun k => hs fun b => by simpa using k b
    have h2 : ¬ ∀ b, ((f b).map (h' b)).isSome := fun k => hs fun b => by simpa using k b
    rw [dif_neg h1, dif_neg h2]
    exact .none

/-- All components of an increment but position and attitude vanish. -/
structure DState.World (δ : DState n nCam nPose) : Prop where
  vel : δ.vel = 0
  acb : δ.acb = 0
  gyb : δ.gyb = 0
  vep : ∀ c, δ.vep c = 0
  vea : ∀ c, δ.vea c = 0
  nor : ∀ i, δ.nor i = 0
  dep : ∀ i, δ.dep i = 0
  pop : ∀ i, δ.pop i = 0
  poa : ∀ i, δ.poa i = 0

lemma DState.world_unit {b : Ix n nCam nPose} (h : b.isWorld = true) : (DState.unit b).World := by
  cases b <;> first | (cases h; done) | (constructor <;> intros <;> simp [DState.unit, DState.ofFn, Pi.single_apply] <;> rfl)

namespace State

variable {s t : State n nCam nPose}

lemma featureJac_world {sfv : V3 → Nor} {ig : Bool} {i : Fin n} {b : Fin nCam} {δ : DState n nCam nPose} (hδ : δ.World) {r : V2 × ℝ}
    (h : s.featureJac sfv ig i b δ = some r) : r.1 = 0 := by
  unfold State.featureJac at h
  by_cases hc : (s.fea i).c.camID ≠ b.val
  · rw [if_pos hc] at h
    cases ha : camIdx nCam (s.fea i).c.camID with
    | none => simp [ha] at h
    | some a =>
      cases hn : (s.fea i).c.getNor with
      | none => simp [ha, hn] at h
      | some q =>
        simp only [ha, hn, Option.bind_eq_bind, Option.bind_some, Option.pure_def, Option.some.injEq] at h
        rw [← h]
        simp only [hδ.nor, hδ.dep, hδ.vea, hδ.vep, M3.mulVec_zero', V3.smul_zero', Nor.M_zero',
          V3.zero_smul', V3.add_zero', ite_self, Nor.Mt_zero']
  · rw [if_neg hc, Option.some.injEq] at h
    rw [← h]; exact hδ.nor i

/-- The feature output does not read the pose of the world. -/
lemma featureJac_noWorld (sfv : V3 → Nor) (ig : Bool) (i : Fin n) (b : Fin nCam) (δ : DState n nCam nPose) :
    (noWorld s).featureJac sfv ig i b δ = s.featureJac sfv ig i b δ := rfl

lemma feaJac_world {m : ImuMeas} {dt : ℝ} {i : Fin n} {δ : DState n nCam nPose} (hδ : δ.World) {r : V2 × ℝ} (h : s.feaJac m dt i δ = some r) : r = (0, 0) := by
  unfold State.feaJac at h
  cases hc : camIdx nCam (s.fea i).c.camID with
  | none => simp only [hc, Option.some.injEq] at h; exact h.symm
  | some a =>
    simp only [hc, Option.bind_eq_bind] at h
    cases hn : (s.fea i).c.getNor with
    | none => simp [hn] at h
    | some q =>
      simp only [hn, Option.bind_some, Option.pure_def, Option.some.injEq] at h
      rw [← h]
      simp only [State.feaJacVec, State.feaJacDep, hδ.nor, hδ.dep, hδ.vel, hδ.gyb, hδ.vea, hδ.vep, M3.mulVec_zero', V3.smul_zero', V3.dot_zero', Nor.M_zero',
        V3.zero_smul', V3.add_zero', V3.sub_zero', mul_zero, add_zero, ite_self, Nor.Mt_zero']

lemma feaNoise_world {m : ImuMeas} {dt : ℝ} {i : Fin n} {δ : DState n nCam nPose} (hδ : δ.World) (ha : δ.att = 0) {r : V2 × ℝ}
    (h : s.feaNoise m dt i δ = some r) : r = (0, 0) := by
  unfold State.feaNoise at h
  cases hc : camIdx nCam (s.fea i).c.camID with
  | none => simp only [hc, Option.some.injEq] at h; exact h.symm
  | some a =>
    simp only [hc, Option.bind_eq_bind] at h
    cases hn : (s.fea i).c.getNor with
    | none => simp [hn] at h
    | some q =>
      simp only [hn, Option.bind_some, Option.pure_def, Option.some.injEq] at h
      rw [← h]
      simp only [State.feaNoiseVec, State.feaNoiseDep, hδ.nor, hδ.dep, ha, M3.mulVec_zero', V3.smul_zero', V3.dot_zero', Nor.N_zero',
        V3.add_zero', mul_zero, add_zero, Nor.Mt_zero']

end State

namespace Spec.Shift

variable {g : Shift}

lemma image_moved (hg : g.Upright) (cfg : FCfg n nCam nPose) {c c' : ImgCorr n nCam} (hc : corrNoWorld c = corrNoWorld c') {x y : FSt n nCam nPose} (hm : g.Moved x y) :
    Both g.Moved (x.image cfg c) (y.image cfg c') := by
  cases c with | mk m i b lin A inn R gate =>
  cases c' with | mk m' i' b' lin' A' inn' R' gate' =>
  simp only [corrNoWorld, ImgCorr.mk.injEq] at hc
  obtain ⟨rfl, rfl, rfl, hl, hA, hy, hR, hgt⟩ := hc
  obtain rfl := eq_of_heq hA
  obtain rfl := eq_of_heq hy
  obtain rfl := eq_of_heq hR
  obtain rfl := eq_of_heq hgt
  unfold FSt.image
  have e : ∀ δ, (y.s.withOdo lin').featureJac cfg.sfv true i b δ = (x.s.withOdo lin).featureJac cfg.sfv true i b δ := fun δ => by
    rw [← State.featureJac_noWorld, ← State.featureJac_noWorld (s := x.s.withOdo lin)]
    have e1 : noWorld (x.s.withOdo lin) = x.s.withOdo (noWorld lin) := rfl
    have e2 : noWorld (y.s.withOdo lin') = y.s.withOdo (noWorld lin') := rfl
    rw [e1, e2, ← hl]
    exact State.featureJac_withOdo _ _ _ _ _ _
  simp only [e]
  cases hJ : colMat fun b' => ((x.s.withOdo lin).featureJac cfg.sfv true i b (DState.unit b')).map fun r => r.1.at with
  | none => exact .none
  | some J =>
    simp only [Option.bind_eq_bind, Option.bind_some]
    refine finish_moved hg hm fun r b' hb => ?_
    have h := colMat_some hJ b'
    simp only [Option.map_eq_some_iff] at h
    obtain ⟨v, hv, he⟩ := h
    rw [Matrix.mul_apply]
    refine Finset.sum_eq_zero fun k _ => ?_
    rw [← congrFun he k, State.featureJac_world (DState.world_unit hb) hv, V2.at_zero, mul_zero]

/-! ### Feature management -/

lemma keep_world {a : Ix n nCam nPose} (h : a.isWorld = true) (i : Fin n) : ∀ k, a ≠ slotIx i k := by
  intro k
  fin_cases k <;> (rintro rfl; cases h)

lemma mat_keep (g : Shift) (i : Fin n) : (g.mat : Cov n nCam nPose) * keepMat i = keepMat i * g.mat := by
  classical
  ext a b
  simp only [keepMat, Matrix.mul_diagonal, Matrix.diagonal_mul]
  by_cases ha : a.isWorld = true
  · by_cases hb : b.isWorld = true
    · rw [if_pos (keep_world ha i), if_pos (keep_world hb i), mul_comm]
    · rw [mat_other' g (by simpa using hb)]
      by_cases hab : a = b
      · subst hab; exact absurd ha hb
      · rw [if_neg hab]; ring
  · rw [mat_other g (by simpa using ha)]
    by_cases hab : a = b
    · subst hab; ring
    · rw [if_neg hab]; ring

lemma mat_slot (g : Shift) (i : Fin n) : (g.mat : Cov n nCam nPose) * slotMat i = slotMat i := by
  have h : ((slotMat i)ᵀ : Matrix (Fin 3) (Ix n nCam nPose) ℝ) * g.mat = (slotMat i)ᵀ := by
    refine mul_mat_of_zero g fun r b hb => ?_
    simp only [Matrix.transpose_apply, slotMat]
    rw [if_neg (keep_world hb i r)]
  ext a k
  by_cases ha : a.isWorld = true
  · have hz : ∀ l : Ix n nCam nPose, l.isWorld = true → slotMat i l k = 0 := fun l hl => by
      simp only [slotMat]; rw [if_neg (keep_world hl i k)]
    cases a with
    | pos l => rw [mat_mul_pos, hz _ rfl]; exact Finset.sum_eq_zero fun j _ => by rw [hz _ rfl, mul_zero]
    | att l => rw [mat_mul_att, hz _ rfl]; exact Finset.sum_eq_zero fun j _ => by rw [hz _ rfl, mul_zero]
    | _ => cases ha
  · exact mat_mul_other g _ (by simpa using ha) k

lemma reset_cov (g : Shift) (P : Cov n nCam nPose) (i : Fin n) (C : Matrix (Fin 3) (Fin 3) ℝ) : (g.cov P).resetFeature i C = g.cov (P.resetFeature i C) := by
  rw [resetFeature_eq, resetFeature_eq]
  have h1 := mat_keep (nCam := nCam) (nPose := nPose) g i
  have h2 := mat_slot (nCam := nCam) (nPose := nPose) g i
  have h1' := congrArg Matrix.transpose h1
  have h2' := congrArg Matrix.transpose h2
  rw [Matrix.transpose_mul, Matrix.transpose_mul] at h1'
  rw [Matrix.transpose_mul] at h2'
  simp only [cov, Matrix.mul_add, Matrix.add_mul]
  congr 1
  · calc keepMat i * (g.mat * P * g.matᵀ) * (keepMat i)ᵀ = (keepMat i * g.mat) * P * (g.matᵀ * (keepMat i)ᵀ) := by simp only [Matrix.mul_assoc]
      _ = g.mat * (keepMat i * P * (keepMat i)ᵀ) * g.matᵀ := by rw [← h1, ← h1']; simp only [Matrix.mul_assoc]
  · simp only [Matrix.mul_assoc]
    rw [h2', ← Matrix.mul_assoc g.mat, h2]

lemma manage_moved (r : Manage n nCam) {x y : FSt n nCam nPose} (hm : g.Moved x y) : g.Moved (x.manage r) (y.manage r) := by
  refine ⟨?_, ?_, hm.u⟩
  · simp only [FSt.manage, hm.s, state]
  · simp only [FSt.manage, hm.P]
    induction r.reset generalizing x y with
    | nil => rfl
    | cons p l ih =>
      simp only [List.foldl_cons, reset_cov]
      exact ih (x := { x with P := x.P.resetFeature p.1 p.2 }) (y := { y with P := g.cov (x.P.resetFeature p.1 p.2) }) ⟨hm.s, rfl, hm.u⟩

end Spec.Shift

/-! ### The prediction -/

namespace Spec.Shift

variable {g : Shift}

lemma predictFea_state (s : State n nCam nPose) (r : V3) (dt : ℝ) (w : DState n nCam nPose) (i : Fin n) : (g.state s).predictFea r dt w i = s.predictFea r dt w i := rfl

lemma evalPrediction_state (hg : g.Upright) (cfg : PredCfg) (m : ImuMeas) (s : State n nCam nPose) (dt : ℝ) :
    (g.state s).evalPrediction cfg m true (g.state s) (DState.ofFn 0) dt = (s.evalPrediction cfg m true s (DState.ofFn 0) dt).map g.state := by
  by_cases hdt : dt ≤ 0
  · simp [State.evalPrediction, if_pos hdt]
  · rw [State.evalPrediction_eq hdt, State.evalPrediction_eq hdt]
    have e1 : (g.state s).predictFea (m.gyr - (g.state s).gyb + (1 / Real.sqrt dt) • (DState.ofFn 0 : DState n nCam nPose).att) dt (DState.ofFn 0) =
        s.predictFea (m.gyr - s.gyb + (1 / Real.sqrt dt) • (DState.ofFn 0 : DState n nCam nPose).att) dt (DState.ofFn 0) := rfl
    rw [e1]
    cases optAll (s.predictFea (m.gyr - s.gyb + (1 / Real.sqrt dt) • (DState.ofFn 0 : DState n nCam nPose).att) dt (DState.ofFn 0)) with
    | none => rfl
    | some f =>
      simp only [Option.bind_some]
      have e2 : State.rawPred cfg m (g.state s) (DState.ofFn 0) dt f = g.state (State.rawPred cfg m s (DState.ofFn 0) dt f) := by
        have h0 : (DState.ofFn 0 : DState n nCam nPose).pos = 0 := rfl
        have a1 : (g.state s).att = g.z * s.att := rfl
        have a2 : (g.state s).pos = g.z.rotate s.pos + g.t := rfl
        have a3 : (State.rawPred cfg m (g.state s) (DState.ofFn 0) dt f).pos = g.z.rotate (State.rawPred cfg m s (DState.ofFn 0) dt f).pos + g.t := by
          simp only [State.rawPred, h0, a1, a2]
          have a3 : (g.state s).vel = s.vel := rfl
          rw [a3, Quat.rotate_mul, Quat.rotate_sub, Quat.rotate_smul, Quat.rotate_sub, Quat.rotate_smul]
          have z0 : g.z.rotate 0 = 0 := by ext <;> simp [Quat.rotate]
          rw [z0]
          ext <;> simp <;> ring
        have a4 : (State.rawPred cfg m (g.state s) (DState.ofFn 0) dt f).att = g.z * (State.rawPred cfg m s (DState.ofFn 0) dt f).att := by
          simp only [State.rawPred, a1]
          rw [Quat.mul_assoc']; rfl
        have a5 : (State.rawPred cfg m (g.state s) (DState.ofFn 0) dt f).vel = (State.rawPred cfg m s (DState.ofFn 0) dt f).vel := by
          simp only [State.rawPred, a1, att_gravity hg]; rfl
        have a6 : State.rawPred cfg m (g.state s) (DState.ofFn 0) dt f = { State.rawPred cfg m s (DState.ofFn 0) dt f with
            pos := (State.rawPred cfg m (g.state s) (DState.ofFn 0) dt f).pos
            att := (State.rawPred cfg m (g.state s) (DState.ofFn 0) dt f).att
            vel := (State.rawPred cfg m (g.state s) (DState.ofFn 0) dt f).vel } := rfl
        rw [a6, a3, a4, a5]; rfl
      rw [e2, state_fix hg]
      cases (State.rawPred cfg m s (DState.ofFn 0) dt f).fix with
      | none => rfl
      | some t =>
        simp only [Option.map_some, Option.some.injEq]
        have e3 : (g.state t).detectInertialMotion cfg m = t.detectInertialMotion cfg m := by
          have a1 : (g.state t).att = g.z * t.att := rfl
          unfold State.detectInertialMotion
          rw [a1]
          simp only [att_gravity hg]
          rfl
        unfold State.tick
        rw [e3]
        rfl

/-- The unit vector of a row of a block. -/
def e3 (l : Fin 3) : V3 := ⟨if l = 0 then 1 else 0, if l = 1 then 1 else 0, if l = 2 then 1 else 0⟩

lemma unit_pos (l : Fin 3) : (DState.unit (.pos l) : DState n nCam nPose).pos = e3 l ∧ (DState.unit (.pos l) : DState n nCam nPose).att = 0 := by
  constructor
  · fin_cases l <;> simp [DState.unit, DState.ofFn, e3]
  · simp [DState.unit, DState.ofFn, Pi.single_apply]; rfl

lemma unit_att (l : Fin 3) : (DState.unit (.att l) : DState n nCam nPose).att = e3 l ∧ (DState.unit (.att l) : DState n nCam nPose).pos = 0 := by
  constructor
  · fin_cases l <;> simp [DState.unit, DState.ofFn, e3]
  · simp [DState.unit, DState.ofFn, Pi.single_apply]; rfl

lemma unit_other {b : Ix n nCam nPose} (h : b.isWorld = false) : (DState.unit b).pos = 0 ∧ (DState.unit b).att = 0 := by
  cases b <;> first | (cases h; done) | (constructor <;> simp [DState.unit, DState.ofFn, Pi.single_apply] <;> rfl)

lemma sum_col (l : Fin 3) (A : M3) (j : Fin 3) : ∑ k, (A.mulVec (e3 k)).at j * g.rot k l = (A.mulVec (g.z.rotate (e3 l))).at j := by
  rw [Fin.sum_univ_three]
  have h : g.z.rotate (e3 l) = ⟨g.rot 0 l, g.rot 1 l, g.rot 2 l⟩ := rfl
  rw [h]
  generalize g.rot 0 l = a
  generalize g.rot 1 l = b
  generalize g.rot 2 l = c
  fin_cases j <;> simp [M3.mulVec, V3.dot, V3.at, e3]

lemma skew_turn (hg : g.Upright) (v u : V3) : (M3.skew (g.z.rotate v)).mulVec (g.z.rotate u) = g.z.rotate ((M3.skew v).mulVec u) := by
  rw [V3.skew_mulVec, V3.skew_mulVec, Quat.cross_rotate hg.unit]

lemma predJacOf_turn (hg : g.Upright) (s : State n nCam nPose) (m : ImuMeas) (dt : ℝ) (δ : DState n nCam nPose) (fea : Fin n → V2 × ℝ) :
    (g.state s).predJacOf m dt (g.turn δ) fea = g.turn (s.predJacOf m dt δ fea) := by
  have a1 : (g.state s).att = g.z * s.att := rfl
  have a3 : (g.state s).vel = s.vel := rfl
  have a4 : (g.state s).gyb = s.gyb := rfl
  have b1 : (g.turn δ).pos = g.z.rotate δ.pos := rfl
  have b2 : (g.turn δ).att = g.z.rotate δ.att := rfl
  have p1 : ((g.state s).predJacOf m dt (g.turn δ) fea).pos = g.z.rotate (s.predJacOf m dt δ fea).pos := by
    simp only [State.predJacOf, a1, a3, a4, b1, b2]
    simp only [M3.one_mulVec, M3.smul_mulVec, Quat.mat_mulVec, Quat.rotate_mul, Quat.rotate_add, Quat.rotate_smul, skew_turn hg]
    rfl
  have p2 : ((g.state s).predJacOf m dt (g.turn δ) fea).att = g.z.rotate (s.predJacOf m dt δ fea).att := by
    simp only [State.predJacOf, a1, a3, a4, b1, b2]
    simp only [M3.one_mulVec, M3.smul_mulVec, M3.mul_mulVec, Quat.mat_mulVec, Quat.rotate_mul, Quat.rotate_add, Quat.rotate_smul]
    rfl
  have p3 : ((g.state s).predJacOf m dt (g.turn δ) fea).vel = (s.predJacOf m dt δ fea).vel := by
    simp only [State.predJacOf, a1, a3, a4, b1, b2]
    simp only [M3.smul_mulVec, M3.mul_mulVec, ← Quat.mat_inv, Quat.mat_mulVec, Quat.rotate_mul, Quat.mul_inv_rev]
    conv_lhs => rw [← rotate_gravity hg]
    rw [skew_turn hg, Quat.rotate_inv_rotate hg.unit]
    rfl
  have p4 : (g.state s).predJacOf m dt (g.turn δ) fea = { s.predJacOf m dt δ fea with
      pos := ((g.state s).predJacOf m dt (g.turn δ) fea).pos
      att := ((g.state s).predJacOf m dt (g.turn δ) fea).att
      vel := ((g.state s).predJacOf m dt (g.turn δ) fea).vel } := rfl
  rw [p4, p1, p2, p3]; rfl

lemma get_turn_other (g : Shift) (δ : DState n nCam nPose) {a : Ix n nCam nPose} (h : a.isWorld = false) : (g.turn δ).get a = δ.get a := by
  cases a <;> first | (cases h; done) | rfl

lemma turn_other (g : Shift) {b : Ix n nCam nPose} (h : b.isWorld = false) : g.turn (DState.unit b) = DState.unit b := by
  obtain ⟨h1, h2⟩ := unit_other h
  have z0 : g.z.rotate 0 = 0 := by ext <;> simp [Quat.rotate]
  refine DState.ext' (funext fun a => ?_)
  cases a <;> simp only [turn, DState.get, h1, h2, z0]

variable {z : Fin n → V2 × ℝ}

lemma turn_world (g : Shift) {δ : DState n nCam nPose} (h : δ.World) : (g.turn δ).World := ⟨h.vel, h.acb, h.gyb, h.vep, h.vea, h.nor, h.dep, h.pop, h.poa⟩

lemma get_predJacOf_world (s : State n nCam nPose) (m : ImuMeas) (dt : ℝ) {δ : DState n nCam nPose} (h : δ.World) (hz : ∀ i, z i = (0, 0)) :
    (s.predJacOf m dt δ z).get = fun
      | .pos k => δ.pos.at k + ((dt • M3.skew (s.att.rotate s.vel)).mulVec δ.att).at k
      | .vel k => (((-dt) • s.att.mat.tr.mul (M3.skew gravity)).mulVec δ.att).at k
      | .att k => δ.att.at k
      | _ => 0 := by
  have s0 : ∀ (u v : V3) (k : Fin 3), (u + v).at k = u.at k + v.at k := fun u v k => by fin_cases k <;> rfl
  funext a
  cases a <;> simp only [DState.get, State.predJacOf, h.vel, h.acb, h.gyb, h.vep, h.vea, h.pop, h.poa, hz, M3.mulVec_zero', M3.one_mulVec, V3.at_zero, V2.at_zero,
    s0, add_zero, zero_add]

lemma sum_e3 (l j : Fin 3) : ∑ k, (e3 k).at j * g.rot k l = (g.z.rotate (e3 l)).at j := by
  simpa only [M3.one_mulVec] using sum_col (g := g) l M3.one j

lemma predJac_mat (hg : g.Upright) {s : State n nCam nPose} {m : ImuMeas} {dt : ℝ} {F F' : Cov n nCam nPose}
    (h : ∀ b, ∃ v, (optAll fun i => s.feaJac m dt i (DState.unit b)) = some v ∧ (∀ a, F a b = (s.predJacOf m dt (DState.unit b) v).get a) ∧
      ∀ a, F' a b = ((g.state s).predJacOf m dt (DState.unit b) v).get a) : F' * g.mat = g.mat * F := by
  ext a b
  obtain ⟨v, hv, hF, hF'⟩ := h b
  have hcol : ((g.mat : Cov n nCam nPose) * F) a b = (g.turn (s.predJacOf m dt (DState.unit b) v)).get a := by
    rw [mat_mul_col]
    have : (DState.ofFn fun c => F c b) = s.predJacOf m dt (DState.unit b) v := by
      rw [← DState.ofFn_get (s.predJacOf m dt (DState.unit b) v)]
      congr 1
      exact funext hF
    rw [this]
  rw [hcol, ← predJacOf_turn hg]
  have hzero : ∀ c : Ix n nCam nPose, c.isWorld = true → ∀ a, F' a c = ((g.state s).predJacOf m dt (DState.unit c) fun _ => (0, 0)).get a := by
    intro c hc a
    obtain ⟨w, hw, -, hW⟩ := h c
    have : w = fun _ => (0, 0) := funext fun i => State.feaJac_world (DState.world_unit hc) (optAll_eq_some hw i)
    rw [hW, this]
  cases hb : b.isWorld with
  | false => rw [mul_mat_other g F' hb, turn_other g hb]; exact hF' a
  | true =>
    have hw := DState.world_unit (n := n) (nCam := nCam) (nPose := nPose) hb
    have hz : v = fun _ => (0, 0) := funext fun i => State.feaJac_world hw (optAll_eq_some hv i)
    rw [hz, get_predJacOf_world (g.state s) m dt (turn_world g hw) (fun _ => rfl)]
    have z0 : g.z.rotate 0 = 0 := by ext <;> simp [Quat.rotate]
    cases b with
    | pos l =>
      have e1 : (g.turn (DState.unit (.pos l) : DState n nCam nPose)).pos = g.z.rotate (e3 l) := by simp only [turn, (unit_pos l).1]
      have e2 : (g.turn (DState.unit (.pos l) : DState n nCam nPose)).att = 0 := by simp only [turn, (unit_pos l).2, z0]
      rw [mul_mat_pos]
      simp only [hzero (.pos _) rfl, get_predJacOf_world (g.state s) m dt (DState.world_unit (b := Ix.pos _) rfl) (fun _ => rfl), e1, e2, (unit_pos _).1, (unit_pos _).2,
        M3.mulVec_zero', V3.at_zero, add_zero]
      cases a <;> simp only [zero_mul, Finset.sum_const_zero, sum_e3]
    | att l =>
      have e1 : (g.turn (DState.unit (.att l) : DState n nCam nPose)).att = g.z.rotate (e3 l) := by simp only [turn, (unit_att l).1]
      have e2 : (g.turn (DState.unit (.att l) : DState n nCam nPose)).pos = 0 := by simp only [turn, (unit_att l).2, z0]
      rw [mul_mat_att]
      simp only [hzero (.att _) rfl, get_predJacOf_world (g.state s) m dt (DState.world_unit (b := Ix.att _) rfl) (fun _ => rfl), e1, e2, (unit_att _).1, (unit_att _).2,
        V3.at_zero, zero_add]
      cases a <;> simp only [zero_mul, Finset.sum_const_zero, sum_e3, sum_col]
    | _ => cases hb

/-! ### The prediction noise: only the position noise is a vector of the world frame -/

/-- Noise vectors in the new world frame. -/
def noiseMat (g : Shift) : Cov n nCam nPose := Matrix.of fun
  | .pos k, .pos l => g.rot k l
  | a, b => if a = b then 1 else 0

lemma mul_noiseMat_other {σ : Type} (g : Shift) (A : Matrix σ (Ix n nCam nPose) ℝ) {b : Ix n nCam nPose} (hb : ∀ k, b ≠ .pos k) (r : σ) :
    (A * (g.noiseMat : Cov n nCam nPose)) r b = A r b := by
  rw [Matrix.mul_apply]
  have h : ∀ a, (g.noiseMat : Cov n nCam nPose) a b = if a = b then 1 else 0 := fun a => by
    cases b <;> first | exact absurd rfl (hb _) | (cases a <;> rfl)
  simp [h]

lemma mul_noiseMat_pos {σ : Type} (g : Shift) (A : Matrix σ (Ix n nCam nPose) ℝ) (r : σ) (l : Fin 3) :
    (A * (g.noiseMat : Cov n nCam nPose)) r (.pos l) = ∑ k, A r (.pos k) * g.rot k l := by
  rw [Matrix.mul_apply]
  refine (Fintype.sum_of_injective (fun l : Fin 3 => (Ix.pos l : Ix n nCam nPose)) (fun a b h => by simpa using h) _ _ (fun b hb => ?_) (fun l => rfl)).symm
  cases b with
  | pos l => exact absurd ⟨l, rfl⟩ hb
  | _ => simp [noiseMat]

/-- The matrix of a turn about the vertical leaves a diagonal matrix alone that treats both horizontal directions alike. -/
lemma rot_diag (hg : g.Upright) {q : Fin 3 → ℝ} (hq : q 0 = q 1) (k l : Fin 3) : ∑ j, g.rot k j * q j * g.rot l j = if k = l then q k else 0 := by
  have hu : g.z.w ^ 2 + g.z.z ^ 2 = 1 := by
    have := hg.unit; simp only [Quat.IsUnit, Quat.normSq, hg.x, hg.y] at this; linarith
  rw [Fin.sum_univ_three, ← hq]
  have r00 : g.rot 0 0 = g.z.w ^ 2 - g.z.z ^ 2 := by simp [rot, Quat.rotate, V3.at, hg.x, hg.y]
  have r01 : g.rot 0 1 = -(2 * (g.z.w * g.z.z)) := by simp [rot, Quat.rotate, V3.at, hg.x, hg.y]
  have r02 : g.rot 0 2 = 0 := by simp [rot, Quat.rotate, V3.at, hg.x, hg.y]
  have r10 : g.rot 1 0 = 2 * (g.z.w * g.z.z) := by simp [rot, Quat.rotate, V3.at, hg.x, hg.y]
  have r11 : g.rot 1 1 = g.z.w ^ 2 - g.z.z ^ 2 := by simp [rot, Quat.rotate, V3.at, hg.x, hg.y]
  have r12 : g.rot 1 2 = 0 := by simp [rot, Quat.rotate, V3.at, hg.x, hg.y]
  have r20 : g.rot 2 0 = 0 := by simp [rot, Quat.rotate, V3.at, hg.x, hg.y]
  have r21 : g.rot 2 1 = 0 := by simp [rot, Quat.rotate, V3.at, hg.x, hg.y]
  have r22 : g.rot 2 2 = 1 := by simp [rot, Quat.rotate, V3.at, hg.x, hg.y, hu]
  have hsq : (g.z.w ^ 2 - g.z.z ^ 2) ^ 2 + (2 * (g.z.w * g.z.z)) ^ 2 = 1 := by linear_combination (g.z.w ^ 2 + g.z.z ^ 2 + 1) * hu
  fin_cases k <;> fin_cases l <;> simp only [Fin.zero_eta, Fin.mk_one, Fin.reduceFinMk, Fin.isValue, r00, r01, r02, r10, r11, r12, r20, r21, r22,
    Fin.reduceEq, if_true, if_false]
  · linear_combination q 0 * hsq
  · ring
  · ring
  · ring
  · rw [← hq]; linear_combination q 0 * hsq
  · ring
  · ring
  · ring
  · ring

/-- A diagonal noise that treats both horizontal directions alike is not changed. -/
lemma noiseMat_diag (hg : g.Upright) {q : Ix n nCam nPose → ℝ} (hq : q (.pos 0) = q (.pos 1)) :
    (g.noiseMat : Cov n nCam nPose) * Matrix.diagonal q * (g.noiseMat)ᵀ = Matrix.diagonal q := by
  have hT : ∀ a b : Ix n nCam nPose, ((g.noiseMat : Cov n nCam nPose)ᵀ) a b = g.noiseMat b a := fun _ _ => rfl
  have hrow : ∀ (a : Ix n nCam nPose) (ha : ∀ k, a ≠ .pos k) b, (g.noiseMat : Cov n nCam nPose) a b = if a = b then 1 else 0 := fun a ha b => by
    cases a <;> first | exact absurd rfl (ha _) | rfl
  have hcol : ∀ (b : Ix n nCam nPose) (hb : ∀ k, b ≠ .pos k) a, (g.noiseMat : Cov n nCam nPose) a b = if a = b then 1 else 0 := fun b hb a => by
    cases b <;> first | exact absurd rfl (hb _) | (cases a <;> rfl)
  ext a b
  by_cases hb : ∀ k, b ≠ .pos k
  · rw [Matrix.mul_apply]
    simp only [hT, hrow b hb, mul_ite, mul_one, mul_zero, Finset.sum_ite_eq, Finset.mem_univ, if_true, Matrix.mul_diagonal, hcol b hb]
    by_cases hab : a = b
    · subst hab; simp
    · simp [hab]
  · push Not at hb
    obtain ⟨l, rfl⟩ := hb
    rw [Matrix.mul_apply]
    by_cases ha : ∀ k, a ≠ .pos k
    · simp only [Matrix.mul_diagonal, hrow a ha, hT, ite_mul, one_mul, zero_mul, Finset.sum_ite_eq, Finset.mem_univ, if_true]
      rw [hcol a ha, if_neg (Ne.symm (ha l)), Matrix.diagonal_apply_ne _ (ha l), mul_zero]
    · push Not at ha
      obtain ⟨k, rfl⟩ := ha
      rw [← Fintype.sum_of_injective (fun j : Fin 3 => (Ix.pos j : Ix n nCam nPose)) (fun a b h => by simpa using h)
        (fun j => g.rot k j * q (.pos j) * g.rot l j) _ (fun b hb => ?_) (fun j => ?_)]
      · rw [rot_diag hg (q := fun j => q (.pos j)) hq, Matrix.diagonal_apply]
        simp only [Ix.pos.injEq]
      · cases b with
        | pos l => exact absurd ⟨l, rfl⟩ hb
        | _ => simp [noiseMat]
      · simp only [Matrix.mul_diagonal, hT]; rfl

lemma cov_diag (hg : g.Upright) {p : Ix n nCam nPose → ℝ} (hp : p (.pos 0) = p (.pos 1)) (ha : p (.att 0) = p (.att 1)) :
    g.cov (Matrix.diagonal p) = Matrix.diagonal p := by
  unfold cov
  rw [Matrix.mul_assoc]
  have hd : ∀ a b, (Matrix.diagonal p * (g.mat : Cov n nCam nPose)ᵀ) a b = p a * (g.mat : Cov n nCam nPose) b a := fun a b => by
    rw [Matrix.diagonal_mul, Matrix.transpose_apply]
  ext a b
  cases hb : b.isWorld with
  | false =>
    have hcol : ∀ c, (g.mat : Cov n nCam nPose) b c = if b = c then 1 else 0 := fun c => mat_other g hb c
    cases a with
    | pos k =>
      rw [mat_mul_pos, Matrix.diagonal_apply_ne _ (by rintro rfl; cases hb)]
      refine Finset.sum_eq_zero fun l _ => ?_
      rw [hd, hcol, if_neg (by rintro rfl; cases hb)]; ring
    | att k =>
      rw [mat_mul_att, Matrix.diagonal_apply_ne _ (by rintro rfl; cases hb)]
      refine Finset.sum_eq_zero fun l _ => ?_
      rw [hd, hcol, if_neg (by rintro rfl; cases hb)]; ring
    | _ =>
      rw [mat_mul_other g _ rfl, hd, hcol, Matrix.diagonal_apply]
      simp only [eq_comm (a := b)]
      split_ifs <;> ring
  | true =>
    cases b with
    | pos l =>
      cases a with
      | pos k =>
        rw [mat_mul_pos, Matrix.diagonal_apply]
        simp only [hd, Ix.pos.injEq]
        rw [← rot_diag hg (q := fun j => p (.pos j)) hp]
        exact Finset.sum_congr rfl fun j _ => by rw [mul_assoc]; rfl
      | att k =>
        rw [mat_mul_att, Matrix.diagonal_apply_ne _ (by simp)]
        exact Finset.sum_eq_zero fun j _ => by rw [hd]; simp [mat]
      | _ => rw [mat_mul_other g _ rfl, hd, Matrix.diagonal_apply_ne _ (by simp)]; simp [mat]
    | att l =>
      cases a with
      | att k =>
        rw [mat_mul_att, Matrix.diagonal_apply]
        simp only [hd, Ix.att.injEq]
        rw [← rot_diag hg (q := fun j => p (.att j)) ha]
        exact Finset.sum_congr rfl fun j _ => by rw [mul_assoc]; rfl
      | pos k =>
        rw [mat_mul_pos, Matrix.diagonal_apply_ne _ (by simp)]
        exact Finset.sum_eq_zero fun j _ => by rw [hd]; simp [mat]
      | _ => rw [mat_mul_other g _ rfl, hd, Matrix.diagonal_apply_ne _ (by simp)]; simp [mat]
    | _ => cases hb

lemma get_noiseJacOf_world (s : State n nCam nPose) (m : ImuMeas) (dt : ℝ) {δ : DState n nCam nPose} (h : δ.World) (ha : δ.att = 0) (hz : ∀ i, z i = (0, 0)) :
    (s.noiseJacOf m dt δ z).get = fun
      | .pos k => ((Real.sqrt dt • M3.one).mulVec δ.pos).at k
      | _ => 0 := by
  funext a
  cases a <;> simp only [DState.get, State.noiseJacOf, h.vel, h.acb, h.gyb, h.vep, h.vea, h.pop, h.poa, ha, hz, M3.mulVec_zero', V3.at_zero, V2.at_zero, V3.add_zero']

lemma noiseJacOf_turn (s : State n nCam nPose) (m : ImuMeas) (dt : ℝ) (δ : DState n nCam nPose) (fea : Fin n → V2 × ℝ) (h0 : δ.pos = 0) :
    (g.state s).noiseJacOf m dt δ fea = g.turn (s.noiseJacOf m dt δ fea) := by
  have a1 : (g.state s).att = g.z * s.att := rfl
  have a4 : (g.state s).gyb = s.gyb := rfl
  have z0 : g.z.rotate 0 = 0 := by ext <;> simp [Quat.rotate]
  have p1 : ((g.state s).noiseJacOf m dt δ fea).pos = g.z.rotate (s.noiseJacOf m dt δ fea).pos := by
    simp only [State.noiseJacOf, h0, M3.mulVec_zero', z0]
  have p2 : ((g.state s).noiseJacOf m dt δ fea).att = g.z.rotate (s.noiseJacOf m dt δ fea).att := by
    simp only [State.noiseJacOf, a1, a4]
    simp only [M3.smul_mulVec, M3.mul_mulVec, Quat.mat_mulVec, Quat.rotate_mul, Quat.rotate_smul]
  have p4 : (g.state s).noiseJacOf m dt δ fea = { s.noiseJacOf m dt δ fea with
      pos := ((g.state s).noiseJacOf m dt δ fea).pos
      att := ((g.state s).noiseJacOf m dt δ fea).att } := rfl
  rw [p4, p1, p2]; rfl

lemma noiseJac_mat {s : State n nCam nPose} {m : ImuMeas} {dt : ℝ} {F F' : Cov n nCam nPose}
    (h : ∀ b, ∃ v, (optAll fun i => s.feaNoise m dt i (DState.unit b)) = some v ∧ (∀ a, F a b = (s.noiseJacOf m dt (DState.unit b) v).get a) ∧
      ∀ a, F' a b = ((g.state s).noiseJacOf m dt (DState.unit b) v).get a) : F' * g.noiseMat = g.mat * F := by
  ext a b
  obtain ⟨v, hv, hF, hF'⟩ := h b
  have hcol : ((g.mat : Cov n nCam nPose) * F) a b = (g.turn (s.noiseJacOf m dt (DState.unit b) v)).get a := by
    rw [mat_mul_col]
    have : (DState.ofFn fun c => F c b) = s.noiseJacOf m dt (DState.unit b) v := by
      rw [← DState.ofFn_get (s.noiseJacOf m dt (DState.unit b) v)]
      congr 1
      exact funext hF
    rw [this]
  rw [hcol]
  have hzero : ∀ k : Fin 3, ∀ a, F' a (.pos k) = ((g.state s).noiseJacOf m dt (DState.unit (.pos k)) fun _ => (0, 0)).get a := by
    intro c a
    obtain ⟨w, hw, -, hW⟩ := h (.pos c)
    have : w = fun _ => (0, 0) := funext fun i => State.feaNoise_world (DState.world_unit rfl) (unit_pos c).2 (optAll_eq_some hw i)
    rw [hW, this]
  by_cases hb : ∀ k, b ≠ .pos k
  · rw [mul_noiseMat_other g F' hb, hF', noiseJacOf_turn]
    cases hw : b.isWorld with
    | false => exact (unit_other hw).1
    | true =>
      cases b with
      | pos k => exact absurd rfl (hb k)
      | att k => exact (unit_att k).2
      | _ => cases hw
  · push Not at hb
    obtain ⟨l, rfl⟩ := hb
    have hz : v = fun _ => (0, 0) := funext fun i => State.feaNoise_world (DState.world_unit rfl) (unit_pos l).2 (optAll_eq_some hv i)
    have hg1 := get_noiseJacOf_world (z := fun _ => (0, 0)) s m dt (DState.world_unit (b := (Ix.pos l : Ix n nCam nPose)) rfl) (unit_pos l).2 (fun _ => rfl)
    rw [mul_noiseMat_pos, hz]
    simp only [hzero, get_noiseJacOf_world (g.state s) m dt (DState.world_unit (b := Ix.pos _) rfl) (unit_pos _).2 (fun _ => rfl), (unit_pos _).1]
    have hx : (s.noiseJacOf m dt (DState.unit (.pos l)) fun _ => (0, 0)).pos = (Real.sqrt dt • M3.one).mulVec (e3 l) := by
      simp only [State.noiseJacOf, (unit_pos l).1]
    have hy : (s.noiseJacOf m dt (DState.unit (.pos l)) fun _ => (0, 0)).att = 0 := by
      simp only [State.noiseJacOf, (unit_pos l).2, M3.mulVec_zero']
    have z0 : g.z.rotate 0 = 0 := by ext <;> simp [Quat.rotate]
    cases a with
    | pos j =>
      rw [sum_col]
      simp only [DState.get, turn, hx, M3.smul_mulVec, M3.one_mulVec, Quat.rotate_smul]
    | att j =>
      simp only [zero_mul, Finset.sum_const_zero, DState.get, turn, hy, z0, V3.at_zero]
    | _ =>
      simp only [zero_mul, Finset.sum_const_zero]
      rw [get_turn_other g _ rfl, hg1]

lemma predict_moved (hg : g.Upright) (cfg : FCfg n nCam nPose) (hq : cfg.q (.pos 0) = cfg.q (.pos 1)) (m : ImuMeas) (dt : ℝ) {x y : FSt n nCam nPose} (hm : g.Moved x y) :
    Both g.Moved (x.predict cfg m dt) (y.predict cfg m dt) := by
  unfold FSt.predict
  have hF := colMat_map (f := fun b => optAll fun i => x.s.feaJac m dt i (DState.unit b)) (h := fun b v => (x.s.predJacOf m dt (DState.unit b) v).get)
    (h' := fun b v => ((g.state x.s).predJacOf m dt (DState.unit b) v).get)
  have hG := colMat_map (f := fun b => optAll fun i => x.s.feaNoise m dt i (DState.unit b)) (h := fun b v => (x.s.noiseJacOf m dt (DState.unit b) v).get)
    (h' := fun b v => ((g.state x.s).noiseJacOf m dt (DState.unit b) v).get)
  have e1 : (fun b => (y.s.predJac m dt (DState.unit b)).map DState.get) =
      fun b => (optAll fun i => x.s.feaJac m dt i (DState.unit b)).map fun v => ((g.state x.s).predJacOf m dt (DState.unit b) v).get := by
    funext b; rw [hm.s]; unfold State.predJac; rw [Option.map_map]; rfl
  have e2 : (fun b => (y.s.noiseJac m dt (DState.unit b)).map DState.get) =
      fun b => (optAll fun i => x.s.feaNoise m dt i (DState.unit b)).map fun v => ((g.state x.s).noiseJacOf m dt (DState.unit b) v).get := by
    funext b; rw [hm.s]; unfold State.noiseJac; rw [Option.map_map]; rfl
  have e3 : (fun b => (x.s.predJac m dt (DState.unit b)).map DState.get) =
      fun b => (optAll fun i => x.s.feaJac m dt i (DState.unit b)).map fun v => (x.s.predJacOf m dt (DState.unit b) v).get := by
    funext b; unfold State.predJac; rw [Option.map_map]; rfl
  have e4 : (fun b => (x.s.noiseJac m dt (DState.unit b)).map DState.get) =
      fun b => (optAll fun i => x.s.feaNoise m dt i (DState.unit b)).map fun v => (x.s.noiseJacOf m dt (DState.unit b) v).get := by
    funext b; unfold State.noiseJac; rw [Option.map_map]; rfl
  rw [e1, e2, e3, e4]
  revert hF
  generalize (colMat fun b => (optAll fun i => x.s.feaJac m dt i (DState.unit b)).map fun v => (x.s.predJacOf m dt (DState.unit b) v).get) = oF
  generalize (colMat fun b => (optAll fun i => x.s.feaJac m dt i (DState.unit b)).map fun v => ((g.state x.s).predJacOf m dt (DState.unit b) v).get) = oF'
  intro hF
  revert hG
  generalize (colMat fun b => (optAll fun i => x.s.feaNoise m dt i (DState.unit b)).map fun v => (x.s.noiseJacOf m dt (DState.unit b) v).get) = oG
  generalize (colMat fun b => (optAll fun i => x.s.feaNoise m dt i (DState.unit b)).map fun v => ((g.state x.s).noiseJacOf m dt (DState.unit b) v).get) = oG'
  intro hG
  cases hF with
  | none => exact .none
  | @some F F' hF =>
    cases hG with
    | none => exact .none
    | @some G G' hG =>
      have hFm := predJac_mat hg hF
      have hGm := noiseJac_mat hG
      simp only [Option.bind_eq_bind, Option.bind_some, hm.s, evalPrediction_state hg]
      cases x.s.evalPrediction cfg.pred m true x.s (DState.ofFn 0) dt with
      | none => exact .none
      | some s =>
        refine .some ⟨rfl, ?_, hm.u⟩
        simp only
        rw [← symm_cov]
        congr 1
        rw [hm.P]
        conv_lhs => rw [← noiseMat_diag hg hq]
        have t1 := congrArg Matrix.transpose hFm
        have t2 := congrArg Matrix.transpose hGm
        rw [Matrix.transpose_mul, Matrix.transpose_mul] at t1 t2
        simp only [cov, Matrix.mul_add, Matrix.add_mul]
        congr 1
        · calc F' * (g.mat * x.P * g.matᵀ) * F'ᵀ = (F' * g.mat) * x.P * (g.matᵀ * F'ᵀ) := by simp only [Matrix.mul_assoc]
            _ = _ := by rw [hFm, t1]; simp only [Matrix.mul_assoc]
        · calc G' * (g.noiseMat * Matrix.diagonal cfg.q * g.noiseMatᵀ) * G'ᵀ = (G' * g.noiseMat) * Matrix.diagonal cfg.q * (g.noiseMatᵀ * G'ᵀ) := by
                simp only [Matrix.mul_assoc]
            _ = _ := by rw [hGm, t2]; simp only [Matrix.mul_assoc]

/-! ### Steps and runs -/

lemma odo_state (g : Shift) (s : State n nCam nPose) : (g.state s).odo = g.state s.odo := rfl

lemma ofOdo_world (a : Ix n nCam 0) : (Ix.ofOdo a : Ix n nCam nPose).isWorld = a.isWorld := by
  cases a <;> first | rfl | (rename_i j _; exact j.elim0)

lemma odo_cov (g : Shift) (P : Cov n nCam nPose) : covNoWorld (g.cov P).odo = covNoWorld P.odo := by
  ext a b
  simp only [covNoWorld, Matrix.of_apply]
  by_cases h : (a.isWorld || b.isWorld) = true
  · rw [if_pos h, if_pos h]
  · rw [if_neg h, if_neg h]
    simp only [Bool.or_eq_true, not_or, Bool.not_eq_true] at h
    exact cov_other g P (by rw [ofOdo_world]; exact h.1) (by rw [ofOdo_world]; exact h.2)

lemma step_moved (hg : g.Upright) (cfg : FCfg n (nCam + 1) nPose) (hq : cfg.q (.pos 0) = cfg.q (.pos 1)) {e : Step n (nCam + 1) nPose} (he : LocalStep e)
    {x y : FSt n (nCam + 1) nPose} (hm : g.Moved x y) : Both g.Moved (x.step cfg e) (y.step cfg e) := by
  have ho : noWorld y.s.odo = noWorld x.s.odo := by rw [hm.s]; rfl
  have hc : covNoWorld y.P.odo = covNoWorld x.P.odo := by rw [hm.P]; exact odo_cov g x.P
  have hv : ∀ b : Ix n (nCam + 1) nPose, b.isWorld = true → (DState.unit b).vel = 0 := fun b hb => (DState.world_unit hb).vel
  cases e with
  | predict m dt => exact predict_moved hg cfg hq m dt hm
  | velocity meas =>
    simp only [FSt.step, FSt.velocity]
    have : velInnov cfg.qAM meas y.s 0 = velInnov cfg.qAM meas x.s 0 := by rw [hm.s]; rfl
    rw [this]
    refine finish_moved hg hm fun r b hb => ?_
    simp only [Matrix.of_apply, velJac, hv b hb, M3.mulVec_zero', V3.at_zero]
  | zeroVel tr =>
    simp only [FSt.step, FSt.zeroVel]
    rw [he _ _ ho]
    by_cases ht : tr x.s.odo = true
    · rw [if_pos ht, if_pos ht]
      have : zeroVelInnov y.s 0 = zeroVelInnov x.s 0 := by rw [hm.s]; rfl
      rw [this]
      refine finish_moved hg hm fun r b hb => ?_
      simp only [Matrix.of_apply, zeroVelJac, hv b hb, M3.mulVec_zero', V3.at_zero]
    · rw [if_neg ht, if_neg ht]; exact .some hm
  | image alg =>
    simp only [FSt.step]
    have h := he _ _ _ _ ho hc
    cases hx : alg x.s.odo x.P.odo with
    | none =>
      cases hy : alg y.s.odo y.P.odo with
      | none => exact .some hm
      | some c => rw [hx, hy] at h; simp at h
    | some c =>
      cases hy : alg y.s.odo y.P.odo with
      | none => rw [hx, hy] at h; simp at h
      | some c' =>
        rw [hx, hy] at h
        simp only [Option.map_some, Option.some.injEq] at h
        exact image_moved hg cfg h.symm hm
  | manage alg =>
    simp only [FSt.step]
    rw [he _ _ _ _ ho hc]
    exact .some (manage_moved _ hm)
  | pose meas => exact he.elim

end Spec.Shift

end Rovio
