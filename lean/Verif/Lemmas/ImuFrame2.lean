import Verif.Lemmas.ImuFrame

/-! # Lemmas about changes of the axes of the IMU: the steps of the filter -/

namespace Rovio

open Matrix Spec Distance

variable {n nCam nPose : ℕ}

namespace Spec.ImuFrame

variable {f : ImuFrame} {k : Option (Fin nPose)}

/-! ### The state -/

lemma vec_add (f : ImuFrame) (u v : V3) : f.vec (u + v) = f.vec u + f.vec v := Quat.rotate_add _ _ _
lemma vec_sub (f : ImuFrame) (u v : V3) : f.vec (u - v) = f.vec u - f.vec v := Quat.rotate_sub _ _ _
lemma vec_smul (f : ImuFrame) (c : ℝ) (v : V3) : f.vec (c • v) = c • f.vec v := Quat.rotate_smul _ _ _
lemma vec_zero (f : ImuFrame) : f.vec 0 = 0 := Quat.rotate_zero _
lemma vec_norm (hq : f.q.IsUnit) (v : V3) : (f.vec v).norm = v.norm := Quat.norm_rotate hq v

lemma att_rotate (hq : f.q.IsUnit) (a : Quat) (v : V3) : (f.att a).rotate (f.vec v) = a.rotate v := by
  rw [att, vec, Quat.rotate_mul, Quat.rotate_inv_rotate hq]

lemma att_inv_rotate (f : ImuFrame) (a : Quat) (v : V3) : (f.att a).inv.rotate v = f.vec (a.inv.rotate v) := by
  rw [att, Quat.mul_inv_rev, Quat.rotate_mul, Quat.inv_inv']; rfl

lemma att_mul_inv (hq : f.q.IsUnit) (p q : Quat) : f.att p * (f.att q).inv = p * q.inv := by
  rw [att, att, Quat.mul_inv_rev, Quat.inv_inv', Quat.mul_assoc', ← Quat.mul_assoc' f.q.inv, Quat.inv_mul_self hq]
  congr 1
  ext <;> simp

lemma mul_att (f : ImuFrame) (p q : Quat) : p * f.att q = f.att (p * q) := by
  rw [att, att, Quat.mul_assoc']

lemma att_exp (hq : f.q.IsUnit) (a : Quat) (v : V3) : f.att a * Quat.exp (f.vec v) = f.att (a * Quat.exp v) := by
  have h := Quat.exp_rotate hq v
  have h2 : f.q.inv * Quat.exp (f.q.rotate v) = Quat.exp v * f.q.inv := by
    have := congrArg (fun z => f.q.inv * z * f.q.inv) h
    rw [Quat.mul_assoc', Quat.mul_assoc' (Quat.exp _), Quat.mul_inv_self hq, ← Quat.mul_assoc' f.q.inv f.q, Quat.inv_mul_self hq] at this
    have e1 : ∀ z : Quat, z * Quat.one = z := fun z => by ext <;> simp
    have e2 : ∀ z : Quat, Quat.one * z = z := fun z => by ext <;> simp
    rw [e1, e2] at this
    exact this
  rw [att, att, vec, Quat.mul_assoc', h2, Quat.mul_assoc']

lemma att_fix (hq : f.q.IsUnit) (a : Quat) : (f.att a).fix = f.att a.fix := Quat.mul_fix hq.inv a

lemma att_boxPlus (f : ImuFrame) (a : Quat) (v : V3) : (f.att a).boxPlus v = f.att (a.boxPlus v) := by
  rw [Quat.boxPlus, Quat.boxPlus, mul_att]

lemma state_boxPlus (f : ImuFrame) (k : Option (Fin nPose)) (s : State n nCam nPose) (δ : DState n nCam nPose) :
    (f.state k s).boxPlus (f.turn k false δ) = f.state k (s.boxPlus δ) := by
  simp only [State.boxPlus, state, turn, State.mk.injEq, and_true, true_and, vec_add, ← att_boxPlus]
  refine ⟨rfl, rfl, rfl, rfl, rfl, funext fun j => ?_, funext fun j => ?_⟩
  · split_ifs
    · rfl
    · rfl
  · split_ifs <;> rfl

lemma state_fix (hq : f.q.IsUnit) (s : State n nCam nPose) : (f.state k s).fix = s.fix.map (f.state k) := by
  unfold State.fix
  have e : (f.state k s).fea = s.fea := rfl
  rw [e]
  cases optAll fun i => (s.fea i).fix with
  | none => rfl
  | some g =>
    simp only [Option.bind_eq_bind, Option.bind_some, Option.pure_def, Option.map_some, Option.some.injEq]
    simp only [state, State.mk.injEq, and_true, true_and, att_fix hq]
    funext j
    split_ifs
    · exact att_fix hq _
    · rfl

lemma state_back (hq : f.q.IsUnit) (s : State n nCam nPose) : f.back.state k (f.state k s) = s := by
  have e1 : ∀ v, f.back.vec (f.vec v) = v := fun v => Quat.rotate_inv_rotate hq v
  have e2 : ∀ a, f.back.att (f.att a) = a := fun a => by
    rw [att, att, back, Quat.inv_inv', Quat.mul_assoc', Quat.inv_mul_self hq]
    ext <;> simp
  have e3 : ∀ A, f.back.tensor (f.tensor A) = A := fun A => by
    refine M3.ext_mulVec fun v => ?_
    simp only [tensor, back, M3.mul_mulVec, ← Quat.mat_inv, Quat.mat_mulVec, Quat.inv_inv', Quat.rotate_inv_rotate hq]
  cases s with
  | mk p1 p2 p3 p4 p5 p6 p7 p8 p9 p10 a =>
  cases a
  simp only [state, aux, e1, e2, e3, State.mk.injEq, true_and, and_true]
  refine ⟨funext fun j => ?_, funext fun j => ?_⟩ <;> by_cases hj : k = some j <;> simp [hj, e1, e2]

lemma mat_mulVec (f : ImuFrame) (k : Option (Fin nPose)) (v : Ix n nCam nPose → ℝ) : DState.ofFn ((f.mat k).mulVec v) = f.turn k false (DState.ofFn v) := by
  rw [← tmat_false, tmat_mulVec]

lemma mat_orth (hq : f.q.IsUnit) : (f.mat k : Cov n nCam nPose) * (f.mat k)ᵀ = 1 := by
  rw [← tmat_false, tmat_orth hq]

lemma mat_back : (f.back.mat k : Cov n nCam nPose) = (f.mat k)ᵀ := by
  rw [← tmat_false, tmat_back, tmat_false]

lemma cov_back (hq : f.q.IsUnit) (P : Cov n nCam nPose) : f.back.cov k (f.cov k P) = P := by
  have h : (f.mat k : Cov n nCam nPose)ᵀ * f.mat k = 1 := mul_eq_one_comm.mp (mat_orth hq)
  unfold cov
  rw [mat_back, Matrix.transpose_transpose]
  calc (f.mat k)ᵀ * (f.mat k * P * (f.mat k)ᵀ) * f.mat k = ((f.mat k)ᵀ * f.mat k) * P * ((f.mat k)ᵀ * f.mat k) := by simp only [Matrix.mul_assoc]
    _ = P := by rw [h, Matrix.one_mul, Matrix.mul_one]

lemma odo_state (f : ImuFrame) (k : Option (Fin nPose)) (s : State n nCam nPose) : (f.state k s).odo = f.state none s.odo := by
  simp only [State.odo, state, State.mk.injEq, true_and, and_true, aux]
  exact ⟨funext fun j => j.elim0, funext fun j => j.elim0⟩

lemma odo_cov (f : ImuFrame) (k : Option (Fin nPose)) (P : Cov n nCam nPose) : (f.cov k P).odo = f.cov none P.odo := by
  have hr : ∀ (a : Ix n nCam 0) (w : Ix n nCam nPose → ℝ), ∑ b, (f.mat k : Cov n nCam nPose) (Ix.ofOdo a) b * w b = ∑ b, (f.mat none : Cov n nCam 0) a b * w (Ix.ofOdo b) := fun a w => by
    have h1 : DState.ofFn ((f.mat k).mulVec w) = f.turn k false (DState.ofFn w) := mat_mulVec f k w
    have h2 : DState.ofFn ((f.mat none).mulVec (fun b : Ix n nCam 0 => w (Ix.ofOdo b))) = f.turn none false (DState.ofFn fun b : Ix n nCam 0 => w (Ix.ofOdo b)) := mat_mulVec f none _
    have h1' := congrFun (congrArg DState.get h1) (Ix.ofOdo a)
    have h2' := congrFun (congrArg DState.get h2) a
    rw [DState.get_ofFn] at h1' h2'
    refine Eq.trans h1' (Eq.trans ?_ h2'.symm)
    cases a <;> first | rfl | (rename_i j _; exact j.elim0)
  ext a b
  change (f.mat k * P * (f.mat k)ᵀ : Matrix (Ix n nCam nPose) (Ix n nCam nPose) ℝ) (Ix.ofOdo a) (Ix.ofOdo b) = (f.mat none * P.odo * (f.mat none)ᵀ : Matrix (Ix n nCam 0) (Ix n nCam 0) ℝ) a b
  rw [Matrix.mul_apply, Matrix.mul_apply]
  have e1 : ∀ x, (f.mat k * P : Matrix _ _ ℝ) (Ix.ofOdo a) x = (f.mat none * P.submatrix Ix.ofOdo id : Matrix (Ix n nCam 0) (Ix n nCam nPose) ℝ) a x := fun x => by
    rw [Matrix.mul_apply, Matrix.mul_apply]
    exact hr a fun y => P y x
  have c1 : ∀ x, (f.mat k * P : Matrix _ _ ℝ) (Ix.ofOdo a) x * (f.mat k : Cov n nCam nPose)ᵀ x (Ix.ofOdo b) =
      (f.mat k : Cov n nCam nPose) (Ix.ofOdo b) x * (f.mat k * P : Matrix _ _ ℝ) (Ix.ofOdo a) x := fun x => mul_comm _ _
  rw [Finset.sum_congr rfl fun x _ => c1 x, hr b fun x => (f.mat k * P : Matrix _ _ ℝ) (Ix.ofOdo a) x]
  refine Finset.sum_congr rfl fun x _ => ?_
  rw [mul_comm, e1]
  rfl

/-! ### The prediction -/

section prediction

variable (s : State n nCam nPose) (m : ImuMeas) (dt : ℝ)

lemma qCM_state (c : Fin nCam) : (f.state k s).qCM c = f.att (s.qCM c) := by
  unfold State.qCM
  change (if s.aux.doVE = true then f.att (s.vea c) else f.att (s.aux.qCM c)) = _
  split_ifs <;> rfl

lemma MrMC_state (c : Fin nCam) : (f.state k s).MrMC c = f.vec (s.MrMC c) := by
  unfold State.MrMC
  change (if s.aux.doVE = true then f.vec (s.vep c) else f.vec (s.aux.MrMC c)) = _
  split_ifs <;> rfl

lemma ror_state : (f.imu m).gyr - (f.state k s).gyb = f.vec (m.gyr - s.gyb) := (vec_sub _ _ _).symm

lemma camRor_state (hq : f.q.IsUnit) (c : Fin nCam) (w : V3) : (f.state k s).camRor c (f.vec w) = s.camRor c w := by
  unfold State.camRor
  rw [qCM_state, att_rotate hq]

lemma vec_cross (hq : f.q.IsUnit) (u v : V3) : (f.vec u).cross (f.vec v) = f.vec (u.cross v) := Quat.cross_rotate hq u v

lemma camVel_state (hq : f.q.IsUnit) (c : Fin nCam) (w : V3) : (f.state k s).camVel c (f.vec w) = s.camVel c w := by
  have e : (f.state k s).vel = f.vec s.vel := rfl
  unfold State.camVel
  rw [qCM_state, MrMC_state, e, vec_cross hq, ← vec_sub, att_rotate hq]

lemma mat_att (hq : f.q.IsUnit) (a : Quat) (v : V3) : (f.att a).mat.mulVec (f.vec v) = a.mat.mulVec v := by
  rw [Quat.mat_mulVec, Quat.mat_mulVec, att_rotate hq]

lemma tr_att (a : Quat) (v : V3) : (f.att a).mat.tr.mulVec v = f.vec (a.mat.tr.mulVec v) := by
  rw [← Quat.mat_inv, ← Quat.mat_inv, Quat.mat_mulVec, Quat.mat_mulVec, att_inv_rotate]

lemma skew_vec (hq : f.q.IsUnit) (u v : V3) : (M3.skew (f.vec u)).mulVec (f.vec v) = f.vec ((M3.skew u).mulVec v) := by
  rw [V3.skew_mulVec, V3.skew_mulVec, vec_cross hq]

lemma Lmat_vec (hq : f.q.IsUnit) (u v : V3) : (Lmat (f.vec u)).mulVec (f.vec v) = f.vec ((Lmat u).mulVec v) := by
  unfold Lmat
  simp only [vec_norm hq, M3.add_mulVec, M3.smul_mulVec, M3.one_mulVec, M3.mul_mulVec, skew_vec hq, vec_add, vec_smul]

lemma predictFea_state (hq : f.q.IsUnit) (w : V3) (i : Fin n) : (f.state k s).predictFea (f.vec w) dt (DState.ofFn 0) i = s.predictFea w dt (DState.ofFn 0) i := by
  have e : (f.state k s).fea = s.fea := rfl
  unfold State.predictFea
  rw [e]
  simp only [camRor_state s hq, camVel_state s hq]

lemma feaJac_state (hq : f.q.IsUnit) (i : Fin n) (δ : DState n nCam nPose) : (f.state k s).feaJac (f.imu m) dt i (f.turn k false δ) = s.feaJac m dt i δ := by
  have e : (f.state k s).fea = s.fea := rfl
  have e2 : (f.state k s).aux.doVE = s.aux.doVE := rfl
  have d1 : (f.turn k false δ).nor = δ.nor := rfl
  have d2 : (f.turn k false δ).dep = δ.dep := rfl
  have d3 : (f.turn k false δ).vel = f.vec δ.vel := rfl
  have d4 : (f.turn k false δ).gyb = f.vec δ.gyb := rfl
  have d5 : (f.turn k false δ).vea = δ.vea := rfl
  have d6 : ∀ a, (f.turn k false δ).vep a = f.vec (δ.vep a) := fun _ => rfl
  have v : ∀ a nor, (f.state k s).feaJacVec (f.imu m) dt i a nor (f.turn k false δ) = s.feaJacVec m dt i a nor δ := fun a nor => by
    unfold State.feaJacVec
    simp only [ror_state, camRor_state s hq, camVel_state s hq, e, e2, d1, d2, d3, d4, d5, d6, qCM_state, MrMC_state, att_rotate hq, M3.mul_mulVec, skew_vec hq, mat_att hq]
  have d : ∀ a nor, (f.state k s).feaJacDep (f.imu m) dt i a nor (f.turn k false δ) = s.feaJacDep m dt i a nor δ := fun a nor => by
    unfold State.feaJacDep
    simp only [ror_state, camVel_state s hq, e, e2, d1, d2, d3, d4, d5, d6, qCM_state, MrMC_state, att_rotate hq, M3.mul_mulVec, skew_vec hq, mat_att hq]
  unfold State.feaJac
  simp only [ror_state, camRor_state s hq, camVel_state s hq, e, v, d]

lemma feaNoise_state (hq : f.q.IsUnit) (i : Fin n) (δ : DState n nCam nPose) : (f.state k s).feaNoise (f.imu m) dt i (f.turn k true δ) = s.feaNoise m dt i δ := by
  have e : (f.state k s).fea = s.fea := rfl
  have d1 : (f.turn k true δ).nor = δ.nor := rfl
  have d2 : (f.turn k true δ).dep = δ.dep := rfl
  have d3 : (f.turn k true δ).att = f.vec δ.att := rfl
  have v : ∀ a nor, (f.state k s).feaNoiseVec (f.imu m) dt i a nor (f.turn k true δ) = s.feaNoiseVec m dt i a nor δ := fun a nor => by
    unfold State.feaNoiseVec
    simp only [ror_state, camRor_state s hq, camVel_state s hq, e, d1, d3, qCM_state, MrMC_state, att_rotate hq, mat_att hq]
  have d : ∀ a nor, (f.state k s).feaNoiseDep dt i a nor (f.turn k true δ) = s.feaNoiseDep dt i a nor δ := fun a nor => by
    unfold State.feaNoiseDep
    simp only [e, d2, d3, qCM_state, MrMC_state, att_rotate hq, M3.mul_mulVec, mat_att hq]
  unfold State.feaNoise
  simp only [ror_state, camRor_state s hq, camVel_state s hq, e, v, d]

lemma predJacOf_state (hq : f.q.IsUnit) (δ : DState n nCam nPose) (g : Fin n → V2 × ℝ) :
    (f.state k s).predJacOf (f.imu m) dt (f.turn k false δ) g = f.turn k false (s.predJacOf m dt δ g) := by
  simp only [State.predJacOf, ror_state, ← vec_smul]
  have e1 : (f.state k s).att = f.att s.att := rfl
  have e2 : (f.state k s).vel = f.vec s.vel := rfl
  have d0 : (f.turn k false δ).pos = δ.pos := rfl
  have d1 : (f.turn k false δ).nor = δ.nor := rfl
  have d2 : (f.turn k false δ).dep = δ.dep := rfl
  have d3 : (f.turn k false δ).vel = f.vec δ.vel := rfl
  have d4 : (f.turn k false δ).gyb = f.vec δ.gyb := rfl
  have d5 : (f.turn k false δ).vea = δ.vea := rfl
  have d6 : ∀ a, (f.turn k false δ).vep a = f.vec (δ.vep a) := fun _ => rfl
  have d7 : (f.turn k false δ).acb = f.vec δ.acb := rfl
  have d8 : (f.turn k false δ).att = δ.att := rfl
  simp only [e1, e2, d0, d3, d4, d5, d6, d7, d8, M3.one_mulVec, M3.smul_mulVec, M3.sub_mulVec, M3.mul_mulVec, mat_att hq, att_rotate hq, skew_vec hq, Lmat_vec hq, tr_att,
    ← vec_smul, ← vec_add, ← vec_sub]
  simp only [turn, DState.mk.injEq, true_and, and_true]
  exact ⟨rfl, rfl, rfl, rfl, rfl⟩

lemma noiseJacOf_state (hq : f.q.IsUnit) (δ : DState n nCam nPose) (g : Fin n → V2 × ℝ) :
    (f.state k s).noiseJacOf (f.imu m) dt (f.turn k true δ) g = f.turn k false (s.noiseJacOf m dt δ g) := by
  simp only [State.noiseJacOf, ror_state, ← vec_smul]
  have e1 : (f.state k s).att = f.att s.att := rfl
  have e2 : (f.state k s).vel = f.vec s.vel := rfl
  have d0 : (f.turn k true δ).pos = δ.pos := rfl
  have d3 : (f.turn k true δ).vel = f.vec δ.vel := rfl
  have d4 : (f.turn k true δ).gyb = f.vec δ.gyb := rfl
  have d5 : (f.turn k true δ).vea = δ.vea := rfl
  have d6 : ∀ a, (f.turn k true δ).vep a = f.vec (δ.vep a) := fun _ => rfl
  have d7 : (f.turn k true δ).acb = f.vec δ.acb := rfl
  have d8 : (f.turn k true δ).att = f.vec δ.att := rfl
  simp only [e1, e2, d0, d3, d4, d5, d6, d7, d8, M3.one_mulVec, M3.smul_mulVec, M3.mul_mulVec, mat_att hq, skew_vec hq, Lmat_vec hq, ← vec_smul, ← vec_add]
  simp only [turn, DState.mk.injEq, true_and, and_true]
  refine ⟨rfl, rfl, rfl, rfl, rfl, funext fun j => ?_⟩
  split_ifs
  · exact (vec_smul _ _ _).symm
  · rfl

lemma predJac_state (hq : f.q.IsUnit) (δ : DState n nCam nPose) : (f.state k s).predJac (f.imu m) dt (f.turn k false δ) = (s.predJac m dt δ).map (f.turn k false) := by
  unfold State.predJac
  simp only [feaJac_state s m dt hq]
  cases optAll fun i => s.feaJac m dt i δ with
  | none => rfl
  | some g => simp only [Option.map_some, predJacOf_state s m dt hq]

lemma noiseJac_state (hq : f.q.IsUnit) (δ : DState n nCam nPose) : (f.state k s).noiseJac (f.imu m) dt (f.turn k true δ) = (s.noiseJac m dt δ).map (f.turn k false) := by
  unfold State.noiseJac
  simp only [feaNoise_state s m dt hq]
  cases optAll fun i => s.feaNoise m dt i δ with
  | none => rfl
  | some g => simp only [Option.map_some, noiseJacOf_state s m dt hq]

lemma mat_of_mulVec {ρ σ : Type} [Fintype σ] [DecidableEq σ] {A B : Matrix ρ σ ℝ} (h : ∀ v, A.mulVec v = B.mulVec v) : A = B := Matrix.ext_of_mulVec_single fun _ => h _

lemma both_mono {α : Type} {R S : α → α → Prop} {x y : Option α} (h : Both R x y) (hRS : ∀ a b, R a b → S a b) : Both S x y := by
  cases h with
  | none => exact .none
  | some h => exact .some (hRS _ _ h)

lemma predMat (hq : f.q.IsUnit) : Both (fun F F' : Cov n nCam nPose => F' * f.tmat k false = f.tmat k false * F)
    (colMat fun b => (s.predJac m dt (DState.unit b)).map DState.get) (colMat fun b => ((f.state k s).predJac (f.imu m) dt (DState.unit b)).map DState.get) := by
  have hl : ∀ (s : State n nCam nPose) m, (∀ δ, (s.predJac m dt δ).map DState.get = none) ∨
      ∃ h : DState n nCam nPose → Ix n nCam nPose → ℝ, (∀ δ, (s.predJac m dt δ).map DState.get = some (h δ)) ∧ ∀ r, IsLin fun δ => h δ r := fun s m => by
    rcases State.predJac_lin (s := s) m dt with h | ⟨h, hs, hl⟩
    · exact .inl fun δ => by rw [h]; rfl
    · exact .inr ⟨fun δ => (h δ).get, fun δ => by rw [hs]; rfl, hl⟩
  refine both_mono (colMat_comm (g := fun δ => (s.predJac m dt δ).map DState.get) (g' := fun δ => ((f.state k s).predJac (f.imu m) dt δ).map DState.get)
    (T := f.tmat k false) (D := fun v => (f.tmat k false).mulVec v) (t := f.turn k false) (tmat_mulVec f k false) (fun δ => ?_) (hl _ _) (hl _ _)) fun F F' h => ?_
  · rw [predJac_state s m dt hq]
    cases s.predJac m dt δ with
    | none => rfl
    | some d =>
      simp only [Option.map_some, Option.some.injEq]
      have := congrArg DState.get (tmat_mulVec f k false d.get)
      rw [DState.get_ofFn, DState.ofFn_get] at this
      exact this.symm
  · refine mat_of_mulVec fun v => ?_
    rw [h v, Matrix.mulVec_mulVec]

lemma noiseMat (hq : f.q.IsUnit) : Both (fun F F' : Cov n nCam nPose => F' * f.tmat k true = f.tmat k false * F)
    (colMat fun b => (s.noiseJac m dt (DState.unit b)).map DState.get) (colMat fun b => ((f.state k s).noiseJac (f.imu m) dt (DState.unit b)).map DState.get) := by
  have hl : ∀ (s : State n nCam nPose) m, (∀ δ, (s.noiseJac m dt δ).map DState.get = none) ∨
      ∃ h : DState n nCam nPose → Ix n nCam nPose → ℝ, (∀ δ, (s.noiseJac m dt δ).map DState.get = some (h δ)) ∧ ∀ r, IsLin fun δ => h δ r := fun s m => by
    rcases State.noiseJac_lin (s := s) m dt with h | ⟨h, hs, hl⟩
    · exact .inl fun δ => by rw [h]; rfl
    · exact .inr ⟨fun δ => (h δ).get, fun δ => by rw [hs]; rfl, hl⟩
  refine both_mono (colMat_comm (g := fun δ => (s.noiseJac m dt δ).map DState.get) (g' := fun δ => ((f.state k s).noiseJac (f.imu m) dt δ).map DState.get)
    (T := f.tmat k true) (D := fun v => (f.tmat k false).mulVec v) (t := f.turn k true) (tmat_mulVec f k true) (fun δ => ?_) (hl _ _) (hl _ _)) fun F F' h => ?_
  · rw [noiseJac_state s m dt hq]
    cases s.noiseJac m dt δ with
    | none => rfl
    | some d =>
      simp only [Option.map_some, Option.some.injEq]
      have := congrArg DState.get (tmat_mulVec f k false d.get)
      rw [DState.get_ofFn, DState.ofFn_get] at this
      exact this.symm
  · refine mat_of_mulVec fun v => ?_
    rw [h v, Matrix.mulVec_mulVec]

end prediction


/-! ### Predictions and corrections -/

lemma state_aux_tick (cfg : PredCfg) (hq : f.q.IsUnit) (m : ImuMeas) (dt : ℝ) (s : State n nCam nPose) (A : M3) :
    State.tick { cfg with attNoise := A } (f.imu m) dt (f.state k s) = f.state k (State.tick cfg m dt s) := by
  have e : (f.state k s).detectInertialMotion { cfg with attNoise := A } (f.imu m) = s.detectInertialMotion cfg m := by
    unfold State.detectInertialMotion
    have e1 : (f.state k s).att = f.att s.att := rfl
    have e2 : (f.imu m).acc - (f.state k s).acb = f.vec (m.acc - s.acb) := (vec_sub _ _ _).symm
    simp only [ror_state, e1, e2, att_inv_rotate, ← vec_add, vec_norm hq]
  unfold State.tick
  rw [e]
  rfl

lemma evalPrediction_state (hq : f.q.IsUnit) (cfg : PredCfg) (m : ImuMeas) (s : State n nCam nPose) (dt : ℝ) :
    (f.state k s).evalPrediction { cfg with attNoise := f.tensor cfg.attNoise } (f.imu m) true (f.state k s) (DState.ofFn 0) dt =
      (s.evalPrediction cfg m true s (DState.ofFn 0) dt).map (f.state k) := by
  by_cases hdt : dt ≤ 0
  · simp [State.evalPrediction, if_pos hdt]
  · rw [State.evalPrediction_eq hdt, State.evalPrediction_eq hdt]
    have z : ∀ c : ℝ, c • (DState.ofFn 0 : DState n nCam nPose).att = 0 := fun c => by rw [show (DState.ofFn 0 : DState n nCam nPose).att = 0 from rfl, V3.smul_zero']
    have e1 : (f.state k s).predictFea ((f.imu m).gyr - (f.state k s).gyb + (1 / Real.sqrt dt) • (DState.ofFn 0 : DState n nCam nPose).att) dt (DState.ofFn 0) =
        s.predictFea (m.gyr - s.gyb + (1 / Real.sqrt dt) • (DState.ofFn 0 : DState n nCam nPose).att) dt (DState.ofFn 0) := by
      rw [z, V3.add_zero', V3.add_zero', ror_state]
      funext i
      exact predictFea_state s dt hq _ i
    rw [e1]
    cases optAll (s.predictFea (m.gyr - s.gyb + (1 / Real.sqrt dt) • (DState.ofFn 0 : DState n nCam nPose).att) dt (DState.ofFn 0)) with
    | none => rfl
    | some g =>
      simp only [Option.bind_some]
      have e2 : State.rawPred { cfg with attNoise := f.tensor cfg.attNoise } (f.imu m) (f.state k s) (DState.ofFn 0) dt g = f.state k (State.rawPred cfg m s (DState.ofFn 0) dt g) := by
        have h0 : ∀ j, (DState.ofFn 0 : DState n nCam nPose).pop j = 0 := fun _ => rfl
        have h1 : (DState.ofFn 0 : DState n nCam nPose).vel = 0 := rfl
        have h2 : (DState.ofFn 0 : DState n nCam nPose).acb = 0 := rfl
        have h3 : (DState.ofFn 0 : DState n nCam nPose).gyb = 0 := rfl
        have h4 : ∀ j, (DState.ofFn 0 : DState n nCam nPose).vep j = 0 := fun _ => rfl
        have a1 : (f.state k s).att = f.att s.att := rfl
        have a2 : (f.state k s).vel = f.vec s.vel := rfl
        have a3 : (f.imu m).acc = f.vec m.acc := rfl
        have a10 : (f.imu m).gyr = f.vec m.gyr := rfl
        have a11 : (f.aux s.aux).doVE = s.aux.doVE := rfl
        have a5 : (f.state k s).acb = f.vec s.acb := rfl
        have a6 : (f.state k s).gyb = f.vec s.gyb := rfl
        have a7 : (f.state k s).vea = fun c => f.att (s.vea c) := rfl
        have a8 : (f.state k s).vep = fun c => f.vec (s.vep c) := rfl
        have a9 : (f.state k s).aux = f.aux s.aux := rfl
        have t1 : ∀ c : ℝ, c • f.tensor cfg.attNoise = f.tensor (c • cfg.attNoise) := fun c => by
          refine M3.ext_mulVec fun v => ?_
          simp only [tensor, M3.smul_mulVec, M3.mul_mulVec, Quat.mat_mulVec, Quat.rotate_smul]
        have c1 : ∀ i, Quat.exp (Real.sqrt dt • (DState.ofFn 0 : DState n nCam nPose).vea i) * (f.state k s).qCM i = f.att (Quat.exp (Real.sqrt dt • (DState.ofFn 0 : DState n nCam nPose).vea i) * s.qCM i) := fun i => by
          rw [qCM_state, mul_att]
        cases hd : s.aux.doVE with
        | _ =>
          simp only [State.rawPred, c1, MrMC_state, z, h0, h1, h2, h3, h4, V3.smul_zero', V3.add_zero', V3.sub_zero', a1, a2, a3, a5, a6, a7, a8, a9, a10, a11, ← vec_sub, ← vec_smul, att_exp hq, att_rotate hq,
            M3.sub_mulVec, M3.one_mulVec, skew_vec hq, att_inv_rotate, ← vec_add, hd, if_true, if_false, Bool.false_eq_true]
          simp only [state, aux, t1, State.mk.injEq, true_and, and_true]
          funext j
          split_ifs
          · exact mul_att _ _ _
          · rfl
      rw [e2, state_fix hq]
      cases (State.rawPred cfg m s (DState.ofFn 0) dt g).fix with
      | none => rfl
      | some t =>
        simp only [Option.map_some, Option.some.injEq]
        exact state_aux_tick cfg hq m dt t _

lemma predict_moved (hq : f.q.IsUnit) (cfg : FCfg n nCam nPose) (m : ImuMeas) (dt : ℝ) {x y : FSt n nCam nPose} (hm : f.Moved x y) (hn : NoPreferredAxis cfg x.u.body) :
    Both f.Moved (x.predict cfg m dt) (y.predict (f.cfg cfg) (f.imu m) dt) := by
  unfold FSt.predict
  have hF := predMat (f := f) (k := x.u.body) x.s m dt hq
  have hG := noiseMat (f := f) (k := x.u.body) x.s m dt hq
  have hp := evalPrediction_state (k := x.u.body) hq cfg.pred m x.s dt
  rw [hm.s]
  revert hF hG
  generalize colMat (fun b => (x.s.predJac m dt (DState.unit b)).map DState.get) = F
  generalize colMat (fun b => ((f.state x.u.body x.s).predJac (f.imu m) dt (DState.unit b)).map DState.get) = F'
  generalize colMat (fun b => (x.s.noiseJac m dt (DState.unit b)).map DState.get) = G
  generalize colMat (fun b => ((f.state x.u.body x.s).noiseJac (f.imu m) dt (DState.unit b)).map DState.get) = G'
  intro hF hG
  cases hF with
  | none => exact .none
  | some hF =>
    cases hG with
    | none => exact .none
    | some hG =>
      rename_i F F' G G'
      simp only [Option.bind_eq_bind, Option.bind_some]
      have e : (f.cfg cfg).pred = { cfg.pred with attNoise := f.tensor cfg.pred.attNoise } := rfl
      have e' : (f.cfg cfg).q = cfg.q := rfl
      rw [e, hp, e']
      cases x.s.evalPrediction cfg.pred m true x.s (DState.ofFn 0) dt with
      | none => exact .none
      | some s =>
        refine .some ⟨rfl, ?_, hm.u⟩
        simp only
        rw [← symm_cov, hm.P]
        congr 1
        have hd := tmat_diag hq true (p := cfg.q) (k := x.u.body) hn.vel hn.acb hn.gyb (fun _ => hn.att) hn.vep hn.pop
        conv_lhs => rw [← hd]
        simp only [cov, ← tmat_false, Matrix.mul_add, Matrix.add_mul]
        have t1 := congrArg Matrix.transpose hF
        have t2 := congrArg Matrix.transpose hG
        rw [Matrix.transpose_mul, Matrix.transpose_mul] at t1 t2
        congr 1
        · calc F' * (f.tmat x.u.body false * x.P * (f.tmat x.u.body false)ᵀ) * F'ᵀ = (F' * f.tmat x.u.body false) * x.P * ((f.tmat x.u.body false)ᵀ * F'ᵀ) := by simp only [Matrix.mul_assoc]
            _ = _ := by rw [hF, t1]; simp only [Matrix.mul_assoc]
        · calc G' * (f.tmat x.u.body true * Matrix.diagonal cfg.q * (f.tmat x.u.body true)ᵀ) * G'ᵀ =
                (G' * f.tmat x.u.body true) * Matrix.diagonal cfg.q * ((f.tmat x.u.body true)ᵀ * G'ᵀ) := by simp only [Matrix.mul_assoc]
            _ = _ := by rw [hG, t2]; simp only [Matrix.mul_assoc]

/-- The same innovation, with another Jacobian for the turned errors. -/
lemma correct_same {m : ℕ} {gate : Gate m} {v : Fin m → ℝ} {H H' : Matrix (Fin m) (Ix n nCam nPose) ℝ} {R : Matrix (Fin m) (Fin m) ℝ} {T P : Cov n nCam nPose}
    (hH : H' * T = H) : correct gate v H' R (T * P * Tᵀ) = (correct gate v H R P).map fun r => (T.mulVec r.1, T * r.2 * Tᵀ) := by
  classical
  have hT : Tᵀ * H'ᵀ = Hᵀ := by rw [← Matrix.transpose_mul, hH]
  have hS0 : H' * (T * P * Tᵀ) * H'ᵀ = H * P * Hᵀ := by
    calc H' * (T * P * Tᵀ) * H'ᵀ = (H' * T) * P * (Tᵀ * H'ᵀ) := by simp only [Matrix.mul_assoc]
      _ = _ := by rw [hH, hT]
  have hS : innS gate v H' R (T * P * Tᵀ) = innS gate v H R P := by unfold innS; rw [hS0]
  have hB : innH gate v H' R (T * P * Tᵀ) * T = innH gate v H R P := by
    ext r b
    have h1 : (innH gate v H' R (T * P * Tᵀ) * T) r b = if gate v (H * P * Hᵀ + R) r then 0 else (H' * T) r b := by
      rw [Matrix.mul_apply, Matrix.mul_apply]
      simp only [innH, Matrix.of_apply, hS0]
      split_ifs <;> simp
    rw [h1, hH]
    rfl
  have hB' : Tᵀ * (innH gate v H' R (T * P * Tᵀ))ᵀ = (innH gate v H R P)ᵀ := by rw [← Matrix.transpose_mul, hB]
  have hK : gain gate v H' R (T * P * Tᵀ) = T * gain gate v H R P := by
    unfold gain
    rw [hS]
    calc T * P * Tᵀ * (innH gate v H' R (T * P * Tᵀ))ᵀ * (innS gate v H R P)⁻¹ = T * P * (Tᵀ * (innH gate v H' R (T * P * Tᵀ))ᵀ) * (innS gate v H R P)⁻¹ := by simp only [Matrix.mul_assoc]
      _ = _ := by rw [hB']; simp only [Matrix.mul_assoc]
  rw [correct_eq, correct_eq, hS, hK]
  by_cases hd : (innS gate v H R P).det = 0
  · rw [if_pos hd, if_pos hd]; rfl
  · rw [if_neg hd, if_neg hd]
    simp only [Option.map_some, Option.some.injEq, Prod.mk.injEq]
    refine ⟨?_, ?_⟩
    · rw [Matrix.mulVec_neg, Matrix.mulVec_mulVec]
    · simp only [Matrix.transpose_mul, Matrix.mul_sub, Matrix.sub_mul, Matrix.mul_assoc]

lemma finish_of {m : ℕ} {gate : Gate m} {v v' : Fin m → ℝ} {H H' : Matrix (Fin m) (Ix n nCam nPose) ℝ} {R R' : Matrix (Fin m) (Fin m) ℝ}
    {post post' : State n nCam nPose → State n nCam nPose} (hq : f.q.IsUnit) {x y : FSt n nCam nPose} (hm : f.Moved x y)
    (hc : correct gate v' H' R' (f.cov x.u.body x.P) = (correct gate v H R x.P).map fun r => ((f.mat x.u.body).mulVec r.1, f.cov x.u.body r.2))
    (hp : ∀ s, post' (f.state x.u.body s) = f.state x.u.body (post s)) :
    Both f.Moved (x.finish gate v H R post) (y.finish gate v' H' R' post') := by
  unfold FSt.finish
  rw [hm.P, hc]
  cases correct gate v H R x.P with
  | none => exact .none
  | some r =>
    simp only [Option.map_some, Option.bind_eq_bind, Option.bind_some, mat_mulVec, hm.s, state_boxPlus, hp, state_fix hq]
    cases (post (x.s.boxPlus (DState.ofFn r.1))).fix with
    | none => exact .none
    | some s => exact .some ⟨rfl, symm_cov _, hm.u⟩

lemma linMat {m : ℕ} {g g' : DState n nCam nPose → Fin m → ℝ} {D : (Fin m → ℝ) → Fin m → ℝ} (hg : ∀ r, IsLin fun δ => g δ r) (hg' : ∀ r, IsLin fun δ => g' δ r)
    (ht : ∀ δ, g' (f.turn k false δ) = D (g δ)) (v : Ix n nCam nPose → ℝ) :
    ((Matrix.of fun r b => g' (DState.unit b) r : Matrix (Fin m) (Ix n nCam nPose) ℝ) * f.mat k).mulVec v = D ((Matrix.of fun r b => g (DState.unit b) r : Matrix (Fin m) (Ix n nCam nPose) ℝ).mulVec v) := by
  rw [← Matrix.mulVec_mulVec, IsLin.mulVec hg', IsLin.mulVec hg, mat_mulVec, ht]

lemma velocity_moved (hq : f.q.IsUnit) (cfg : FCfg n nCam nPose) (w : V3) {x y : FSt n nCam nPose} (hm : f.Moved x y) :
    Both f.Moved (x.velocity cfg w) (y.velocity (f.cfg cfg) w) := by
  unfold FSt.velocity
  have e1 : (f.cfg cfg).qAM = f.att cfg.qAM := rfl
  have e2 : velInnov (f.cfg cfg).qAM w y.s 0 = velInnov cfg.qAM w x.s 0 := by
    unfold velInnov
    rw [e1, hm.s, show (f.state x.u.body x.s).vel = f.vec x.s.vel from rfl, att_rotate hq]
  rw [e2]
  refine finish_of hq hm (correct_same (mat_of_mulVec fun v => ?_)) (fun _ => rfl)
  refine linMat (D := id) (g := fun δ => (velJac cfg.qAM δ).at) (g' := fun δ => (velJac (f.cfg cfg).qAM δ).at) (fun r => (IsLin3.vel.mulVec _).at' r) (fun r => (IsLin3.vel.mulVec _).at' r) (fun δ => ?_) v
  simp only [velJac, e1, id]
  rw [show (f.turn x.u.body false δ).vel = f.vec δ.vel from rfl, mat_att hq]

lemma rot_mulVec (v : V3) : f.rot.mulVec v.at = (f.vec v).at := by
  funext l
  exact sum_rot v.at l

lemma rot_orth (hq : f.q.IsUnit) : f.rot * f.rotᵀ = 1 := ExtFrame.rot_orth (h := ⟨f.q, 0⟩) hq

lemma zeroVel_moved (hq : f.q.IsUnit) (cfg : FCfg n nCam nPose) (tr : State n nCam 0 → Bool) {x y : FSt n nCam nPose} (hm : f.Moved x y) (hn : NoPreferredAxis cfg x.u.body) :
    Both f.Moved (x.zeroVel cfg tr) (y.zeroVel (f.cfg cfg) fun s => tr (f.back.state none s)) := by
  unfold FSt.zeroVel
  rw [hm.s, odo_state]
  simp only [state_back hq]
  cases tr x.s.odo with
  | false => exact .some hm
  | true =>
    simp only [if_true]
    have e2 : (zeroVelInnov (f.state x.u.body x.s) 0).at = f.rot.mulVec (zeroVelInnov x.s 0).at := by
      rw [rot_mulVec]
      unfold zeroVelInnov
      rw [V3.add_zero', V3.add_zero']
      rfl
    rw [e2]
    obtain ⟨a, ha⟩ := hn.zero
    have hR : (f.cfg cfg).zeroR = f.rot * cfg.zeroR * f.rotᵀ := by
      change cfg.zeroR = _
      rw [ha, Matrix.mul_smul, Matrix.smul_mul, Matrix.mul_one, rot_orth hq]
    refine finish_of hq hm (correct_axes hn.gate (rot_orth hq) (mat_of_mulVec fun v => ?_) hR _) (fun _ => rfl)
    rw [← Matrix.mulVec_mulVec v f.rot]
    refine linMat (D := fun v => f.rot.mulVec v) (g := fun δ => (zeroVelJac δ).at) (g' := fun δ => (zeroVelJac δ).at) (fun r => (IsLin3.vel.mulVec _).at' r) (fun r => (IsLin3.vel.mulVec _).at' r) (fun δ => ?_) v
    simp only [zeroVelJac, M3.one_mulVec]
    rw [rot_mulVec]
    rfl

/-! ### Images and feature management -/

lemma withOdo_state (s : State n nCam nPose) (o : State n nCam 0) : (f.state k s).withOdo (f.state none o) = f.state k (s.withOdo o) := rfl

lemma featureJac_state (hq : f.q.IsUnit) (s : State n nCam nPose) (sfv : V3 → Nor) (ig : Bool) (i : Fin n) (b : Fin nCam) (δ : DState n nCam nPose) :
    (f.state k s).featureJac sfv ig i b (f.turn k false δ) = s.featureJac sfv ig i b δ := by
  have e : (f.state k s).fea = s.fea := rfl
  have e2 : (f.state k s).aux.doVE = s.aux.doVE := rfl
  have d1 : (f.turn k false δ).nor = δ.nor := rfl
  have d2 : (f.turn k false δ).dep = δ.dep := rfl
  have d5 : (f.turn k false δ).vea = δ.vea := rfl
  have d6 : ∀ a, (f.turn k false δ).vep a = f.vec (δ.vep a) := fun _ => rfl
  unfold State.featureJac
  simp only [e, e2, d1, d2, d5, d6, qCM_state, MrMC_state, att_mul_inv hq, ← vec_sub, att_rotate hq, M3.mul_mulVec, M3.neg_mulVec, mat_att hq]

lemma image_moved (hq : f.q.IsUnit) (cfg : FCfg n nCam nPose) (c : ImgCorr n nCam) {x y : FSt n nCam nPose} (hm : f.Moved x y) :
    Both f.Moved (x.image cfg c) (y.image (f.cfg cfg) { c with lin := f.state none c.lin }) := by
  unfold FSt.image
  rw [hm.s, withOdo_state]
  have hl : ∀ (s : State n nCam nPose), (∀ δ, (s.featureJac cfg.sfv true c.i c.b δ).map (fun r => r.1.at) = none) ∨
      ∃ h : DState n nCam nPose → Fin 2 → ℝ, (∀ δ, (s.featureJac cfg.sfv true c.i c.b δ).map (fun r => r.1.at) = some (h δ)) ∧ ∀ r, IsLin fun δ => h δ r := fun s => by
    rcases State.featureJac_lin (s := s) cfg.sfv true c.i c.b with h | ⟨h, hs, hl, -⟩
    · exact .inl fun δ => by rw [h]; rfl
    · exact .inr ⟨fun δ => (h δ).1.at, fun δ => by rw [hs]; rfl, fun r => hl.at' r⟩
  have hJ := colMat_comm (g := fun δ => ((x.s.withOdo c.lin).featureJac cfg.sfv true c.i c.b δ).map fun r => r.1.at)
    (g' := fun δ => ((f.state x.u.body (x.s.withOdo c.lin)).featureJac cfg.sfv true c.i c.b δ).map fun r => r.1.at)
    (T := f.mat x.u.body) (D := id) (t := f.turn x.u.body false) (mat_mulVec f x.u.body) (fun δ => by rw [featureJac_state hq]; simp) (hl _) (hl _)
  have e : (f.cfg cfg).sfv = cfg.sfv := rfl
  rw [e]
  simp only at hJ ⊢
  generalize colMat (fun b => ((x.s.withOdo c.lin).featureJac cfg.sfv true c.i c.b (DState.unit b)).map fun r => r.1.at) = J at hJ ⊢
  generalize colMat (fun b => ((f.state x.u.body (x.s.withOdo c.lin)).featureJac cfg.sfv true c.i c.b (DState.unit b)).map fun r => r.1.at) = J' at hJ ⊢
  cases hJ with
  | none => exact .none
  | some hJ =>
    rename_i J J'
    simp only [Option.bind_eq_bind, Option.bind_some]
    have hJ' : J' * f.mat x.u.body = J := mat_of_mulVec fun v => hJ v
    refine finish_of hq hm (correct_same ?_) (fun _ => rfl)
    rw [Matrix.mul_assoc, hJ']


end Spec.ImuFrame

end Rovio
