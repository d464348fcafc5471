import Verif.Spec.ExtFrame
import Verif.Lemmas.Gauge

/-! # Lemmas about changes of the frame of the external poses -/

namespace Rovio

open Matrix Spec Distance

variable {n nCam nPose : ℕ}

lemma Quat.mul_fix {z : Quat} (hz : z.IsUnit) (q : Quat) : (q * z).fix = q.fix * z := by
  have h : (q * z).normSq = q.normSq := by rw [Quat.normSq_mul, hz, mul_one]
  unfold Quat.fix
  rw [h]
  ext <;> simp <;> ring

namespace Spec

/-! ### The outlier test -/

lemma mahalanobis_axisFree {m : ℕ} (th : ℝ) : AxisFree (mahalanobis th : Gate m) := by
  refine ⟨fun _ _ _ _ => rfl, fun D hD y S => ?_⟩
  have hD' : Dᵀ * D = 1 := mul_eq_one_comm.mp hD
  have hi : (D * S * Dᵀ)⁻¹ = D * S⁻¹ * Dᵀ := by
    rw [Matrix.mul_inv_rev, Matrix.mul_inv_rev, Matrix.inv_eq_left_inv hD', Matrix.inv_eq_left_inv hD, Matrix.mul_assoc]
  funext i
  simp only [mahalanobis, hi]
  congr 2
  have e : (D * S⁻¹ * Dᵀ).mulVec (D.mulVec y) = D.mulVec (S⁻¹.mulVec y) := by
    rw [Matrix.mulVec_mulVec, Matrix.mul_assoc, hD', Matrix.mul_one, Matrix.mulVec_mulVec]
  rw [e, Matrix.dotProduct_mulVec, ← Matrix.mulVec_transpose, Matrix.mulVec_mulVec, hD', Matrix.one_mulVec]

/-- A change of axes of the errors and of the innovation. -/
lemma correct_axes {m : ℕ} {gate : Gate m} (hg : AxisFree gate) {D : Matrix (Fin m) (Fin m) ℝ} (hD : D * Dᵀ = 1) {T P : Cov n nCam nPose}
    {H H' : Matrix (Fin m) (Ix n nCam nPose) ℝ} {R R' : Matrix (Fin m) (Fin m) ℝ} (hH : H' * T = D * H) (hR : R' = D * R * Dᵀ) (y : Fin m → ℝ) :
    correct gate (D.mulVec y) H' R' (T * P * Tᵀ) = (correct gate y H R P).map fun r => (T.mulVec r.1, T * r.2 * Tᵀ) := by
  classical
  have hD' : Dᵀ * D = 1 := mul_eq_one_comm.mp hD
  have hT : Tᵀ * H'ᵀ = Hᵀ * Dᵀ := by rw [← Matrix.transpose_mul, hH, Matrix.transpose_mul]
  have hS0 : H' * (T * P * Tᵀ) * H'ᵀ + R' = D * (H * P * Hᵀ + R) * Dᵀ := by
    rw [hR, Matrix.mul_add, Matrix.add_mul]
    congr 1
    calc H' * (T * P * Tᵀ) * H'ᵀ = (H' * T) * P * (Tᵀ * H'ᵀ) := by simp only [Matrix.mul_assoc]
      _ = _ := by rw [hH, hT]; simp only [Matrix.mul_assoc]
  have hgate : gate (D.mulVec y) (H' * (T * P * Tᵀ) * H'ᵀ + R') = gate y (H * P * Hᵀ + R) := by rw [hS0, hg.axes D hD]
  by_cases hr : ∃ i, gate y (H * P * Hᵀ + R) i = true
  · obtain ⟨i, hi⟩ := hr
    have ha : ∀ j, gate y (H * P * Hᵀ + R) j = true := fun j => by rw [hg.whole y _ j i]; exact hi
    simp only [correct, hgate, ha, Bool.or_self, if_true]
    have e1 : (Matrix.of fun i j : Fin m => if i = j then (1:ℝ) else 0) = 1 := by ext a b; simp [Matrix.one_apply]
    have e2 : (Matrix.of fun (_ : Fin m) (_ : Ix n nCam nPose) => (0:ℝ)) = 0 := by ext; rfl
    rw [e1, e2]
    simp
  · have ha : ∀ j, gate y (H * P * Hᵀ + R) j = false := fun j => by simpa using fun h => hr ⟨j, h⟩
    simp only [correct, hgate, ha, Bool.or_self, if_false, Bool.false_eq_true]
    have e1 : (Matrix.of fun i j : Fin m => (H' * (T * P * Tᵀ) * H'ᵀ + R') i j) = D * (H * P * Hᵀ + R) * Dᵀ := hS0
    have e2 : (Matrix.of fun i j : Fin m => (H * P * Hᵀ + R) i j) = H * P * Hᵀ + R := rfl
    have e3 : (Matrix.of fun (i : Fin m) (b : Ix n nCam nPose) => H' i b) = H' := rfl
    have e4 : (Matrix.of fun (i : Fin m) (b : Ix n nCam nPose) => H i b) = H := rfl
    rw [e1, e2, e3, e4]
    generalize H * P * Hᵀ + R = S
    have hdet : (D * S * Dᵀ).det = S.det := by
      rw [Matrix.det_mul, Matrix.det_mul, mul_right_comm, ← Matrix.det_mul, hD, Matrix.det_one, one_mul]
    have hi : (D * S * Dᵀ)⁻¹ = D * S⁻¹ * Dᵀ := by
      rw [Matrix.mul_inv_rev, Matrix.mul_inv_rev, Matrix.inv_eq_left_inv hD', Matrix.inv_eq_left_inv hD, Matrix.mul_assoc]
    rw [hdet]
    by_cases hs : S.det = 0
    · rw [if_pos hs, if_pos hs]; rfl
    · rw [if_neg hs, if_neg hs]
      have hK : T * P * Tᵀ * H'ᵀ * (D * S * Dᵀ)⁻¹ = T * (P * Hᵀ * S⁻¹) * Dᵀ := by
        rw [hi]
        calc T * P * Tᵀ * H'ᵀ * (D * S⁻¹ * Dᵀ) = T * P * (Tᵀ * H'ᵀ) * (D * S⁻¹ * Dᵀ) := by simp only [Matrix.mul_assoc]
          _ = T * P * Hᵀ * (Dᵀ * D) * S⁻¹ * Dᵀ := by rw [hT]; simp only [Matrix.mul_assoc]
          _ = _ := by rw [hD', Matrix.mul_one]; simp only [Matrix.mul_assoc]
      rw [hK]
      simp only [Option.map_some, Option.some.injEq, Prod.mk.injEq]
      refine ⟨?_, ?_⟩
      · rw [Matrix.mulVec_mulVec, Matrix.mul_assoc _ Dᵀ D, hD', Matrix.mul_one, Matrix.mulVec_neg, Matrix.mulVec_mulVec]
      · rw [Matrix.mul_sub, Matrix.sub_mul]
        congr 1
        generalize P * Hᵀ * S⁻¹ = K
        calc T * K * Dᵀ * (D * S * Dᵀ) * (T * K * Dᵀ)ᵀ = T * K * (Dᵀ * D) * S * (Dᵀ * D) * Kᵀ * Tᵀ := by
              simp only [Matrix.transpose_mul, Matrix.transpose_transpose, Matrix.mul_assoc]
          _ = _ := by rw [hD']; simp only [Matrix.mul_one, Matrix.mul_assoc]

/-- A change of axes of the errors that the innovation does not involve. -/
lemma correct_of_fixed {m : ℕ} {gate : Gate m} {v : Fin m → ℝ} {H : Matrix (Fin m) (Ix n nCam nPose) ℝ} {R : Matrix (Fin m) (Fin m) ℝ} {T P : Cov n nCam nPose}
    (hH : H * T = H) : correct gate v H R (T * P * Tᵀ) = (correct gate v H R P).map fun r => (T.mulVec r.1, T * r.2 * Tᵀ) := by
  classical
  have hT : Tᵀ * Hᵀ = Hᵀ := by rw [← Matrix.transpose_mul, hH]
  have hS0 : H * (T * P * Tᵀ) * Hᵀ = H * P * Hᵀ := by
    calc H * (T * P * Tᵀ) * Hᵀ = (H * T) * P * (Tᵀ * Hᵀ) := by simp only [Matrix.mul_assoc]
      _ = _ := by rw [hH, hT]
  have hS : innS gate v H R (T * P * Tᵀ) = innS gate v H R P := by unfold innS; rw [hS0]
  have hI : innH gate v H R (T * P * Tᵀ) = innH gate v H R P := by unfold innH; rw [hS0]
  have hB : innH gate v H R P * T = innH gate v H R P := by
    ext r b
    have h1 : (innH gate v H R P * T) r b = if gate v (H * P * Hᵀ + R) r then 0 else (H * T) r b := by
      rw [Matrix.mul_apply, Matrix.mul_apply]
      simp only [innH, Matrix.of_apply]
      split_ifs <;> simp
    rw [h1, hH]
    rfl
  have hB' : Tᵀ * (innH gate v H R P)ᵀ = (innH gate v H R P)ᵀ := by rw [← Matrix.transpose_mul, hB]
  have hK : gain gate v H R (T * P * Tᵀ) = T * gain gate v H R P := by
    unfold gain
    rw [hS, hI]
    calc T * P * Tᵀ * (innH gate v H R P)ᵀ * (innS gate v H R P)⁻¹ = T * P * (Tᵀ * (innH gate v H R P)ᵀ) * (innS gate v H R P)⁻¹ := by simp only [Matrix.mul_assoc]
      _ = _ := by rw [hB']; simp only [Matrix.mul_assoc]
  rw [correct_eq, correct_eq, hS, hK]
  by_cases hd : (innS gate v H R P).det = 0
  · rw [if_pos hd, if_pos hd]; rfl
  · rw [if_neg hd, if_neg hd]
    simp only [Option.map_some, Option.some.injEq, Prod.mk.injEq]
    refine ⟨?_, ?_⟩
    · rw [Matrix.mulVec_neg, Matrix.mulVec_mulVec]
    · simp only [Matrix.transpose_mul, Matrix.mul_sub, Matrix.sub_mul, Matrix.mul_assoc]

namespace ExtFrame

variable {h : ExtFrame} {k : Option (Fin nPose)}

/-! ### The matrix -/

/-- A row of the estimated position of the world in the frame. -/
def hit (k : Option (Fin nPose)) : Ix n nCam nPose → Bool
  | .pop j _ => decide (k = some j)
  | _ => false

/-- The error vector in the new frame. -/
def turn (h : ExtFrame) (k : Option (Fin nPose)) (δ : DState n nCam nPose) : DState n nCam nPose :=
  { δ with pop := fun j => if k = some j then h.q.rotate (δ.pop j) else δ.pop j }

lemma hit_iff {b : Ix n nCam nPose} : hit k b = true ↔ ∃ j l, b = .pop j l ∧ k = some j := by
  cases b <;> simp [hit]

lemma hit_align {b : Ix n nCam nPose} (hb : hit k b = true) : b.isAlign = true := by
  obtain ⟨j, l, rfl, -⟩ := hit_iff.mp hb; rfl

lemma mat_other (h : ExtFrame) {a : Ix n nCam nPose} (ha : hit k a = false) (b : Ix n nCam nPose) : (h.mat k : Cov n nCam nPose) a b = if a = b then 1 else 0 := by
  cases a with
  | pop j l =>
    have : k ≠ some j := by simpa [hit] using ha
    cases b with
    | pop j' l' =>
      simp only [mat, Matrix.of_apply, if_neg this, Ix.pop.injEq]
      by_cases e : j = j' <;> simp [e]
    | _ => rfl
  | _ => cases b <;> rfl

lemma mat_other' (h : ExtFrame) {b : Ix n nCam nPose} (hb : hit k b = false) (a : Ix n nCam nPose) : (h.mat k : Cov n nCam nPose) a b = if a = b then 1 else 0 := by
  cases hh : hit k a with
  | false => exact mat_other h hh b
  | true =>
    obtain ⟨j, l, rfl, rfl⟩ := hit_iff.mp hh
    cases b with
    | pop j' l' =>
      have : j ≠ j' := by simpa [hit] using hb
      simp [mat, this]
    | _ => rfl

lemma rot_mul {σ : Type} (h : ExtFrame) (A : Matrix (Fin 3) σ ℝ) (j : Fin 3) (c : σ) : (h.rot * A) j c = (h.q.rotate ⟨A 0 c, A 1 c, A 2 c⟩).at j := by
  rw [Matrix.mul_apply, Fin.sum_univ_three]
  fin_cases j <;> simp [rot, Quat.rotate, V3.at]

lemma rot_orth (hq : h.q.IsUnit) : h.rot * h.rotᵀ = 1 := by
  ext i j
  rw [rot_mul]
  have e : (⟨h.rotᵀ 0 j, h.rotᵀ 1 j, h.rotᵀ 2 j⟩ : V3) = h.q.inv.rotate ⟨if j = 0 then 1 else 0, if j = 1 then 1 else 0, if j = 2 then 1 else 0⟩ := by
    fin_cases j <;> ext <;> simp [rot, Quat.rotate, V3.at, Quat.inv] <;> ring
  rw [e, Quat.rotate_rotate_inv hq]
  fin_cases i <;> fin_cases j <;> simp [V3.at]

lemma err_orth (hq : h.q.IsUnit) : h.err * h.errᵀ = 1 := by
  simp only [err, Matrix.fromBlocks_transpose, Matrix.fromBlocks_multiply, rot_orth hq]
  simp

/-- Matrices that do not mix the turned rows with others are not affected. -/
lemma mat_comm {F : Cov n nCam nPose} {c : ℝ} (hF : ∀ a b, hit k a = true ∨ hit k b = true → F a b = if a = b then c else 0) : F * h.mat k = h.mat k * F := by
  ext a b
  rw [Matrix.mul_apply, Matrix.mul_apply]
  have z : ∀ a b : Ix n nCam nPose, hit k a ≠ hit k b → (h.mat k : Cov n nCam nPose) a b = 0 := fun a b hab => by
    have hne : a ≠ b := fun e => hab (by rw [e])
    cases ha : hit k a with
    | false => rw [mat_other h ha, if_neg hne]
    | true =>
      have hb : hit k b = false := by cases hb : hit k b with | false => rfl | true => rw [ha, hb] at hab; exact absurd rfl hab
      rw [mat_other' h hb, if_neg hne]
  cases hb : hit k b with
  | true =>
    have e1 : ∀ l, F a l * (h.mat k : Cov n nCam nPose) l b = if a = l then c * (h.mat k : Cov n nCam nPose) l b else 0 := fun l => by
      cases hl : hit k l with
      | true => rw [hF a l (.inr hl)]; split_ifs <;> ring
      | false => rw [z l b (by rw [hl, hb]; simp)]; simp
    have e2 : ∀ l, (h.mat k : Cov n nCam nPose) a l * F l b = if l = b then c * (h.mat k : Cov n nCam nPose) a l else 0 := fun l => by
      rw [hF l b (.inr hb)]; split_ifs <;> ring
    simp only [e1, e2, Finset.sum_ite_eq, Finset.sum_ite_eq', Finset.mem_univ, if_true]
  | false =>
    simp only [mat_other' h hb, mul_ite, mul_one, mul_zero, Finset.sum_ite_eq', Finset.mem_univ, if_true]
    cases ha : hit k a with
    | false => simp only [mat_other h ha, ite_mul, one_mul, zero_mul, Finset.sum_ite_eq, Finset.mem_univ, if_true]
    | true =>
      have hne : a ≠ b := fun e => by rw [e, hb] at ha; cases ha
      rw [hF a b (.inl ha), if_neg hne]
      symm
      refine Finset.sum_eq_zero fun l _ => ?_
      cases hl : hit k l with
      | true =>
        have hne : l ≠ b := fun e => by rw [e, hb] at hl; cases hl
        rw [hF l b (.inl hl), if_neg hne, mul_zero]
      | false => rw [z a l (by rw [hl, ha]; simp), zero_mul]

lemma mul_mat_of_zero {σ : Type} {A : Matrix σ (Ix n nCam nPose) ℝ} (hA : ∀ r b, b.isAlign = true → A r b = 0) : A * h.mat k = A := by
  ext r b
  rw [Matrix.mul_apply]
  cases hb : hit k b with
  | false => simp [mat_other' h hb]
  | true =>
    rw [hA r b (hit_align hb)]
    refine Finset.sum_eq_zero fun l _ => ?_
    cases hl : hit k l with
    | true => rw [hA r l (hit_align hl), zero_mul]
    | false =>
      have hne : l ≠ b := fun e => by rw [e, hb] at hl; cases hl
      rw [mat_other h hl, if_neg hne, mul_zero]

lemma mat_mul_pop (h : ExtFrame) {σ : Type} (A : Matrix (Ix n nCam nPose) σ ℝ) (j : Fin nPose) (l : Fin 3) (c : σ) :
    ((h.mat (some j) : Cov n nCam nPose) * A) (.pop j l) c = (h.q.rotate ⟨A (.pop j 0) c, A (.pop j 1) c, A (.pop j 2) c⟩).at l := by
  have e : ((h.mat (some j) : Cov n nCam nPose) * A) (.pop j l) c = (h.rot * Matrix.of fun (i : Fin 3) (c : σ) => A (.pop j i) c) l c := by
    rw [Matrix.mul_apply, Matrix.mul_apply]
    refine (Fintype.sum_of_injective (fun i : Fin 3 => (Ix.pop j i : Ix n nCam nPose)) (fun a b h => by simpa using h) _ _ (fun b hb => ?_) (fun i => ?_)).symm
    · have : hit (some j) b = false := by
        cases hh : hit (some j) b with
        | false => rfl
        | true =>
          obtain ⟨j', l', rfl, e⟩ := hit_iff.mp hh
          simp only [Option.some.injEq] at e; subst e
          exact absurd ⟨l', rfl⟩ hb
      rw [mat_other' h this, if_neg, zero_mul]
      rintro rfl
      exact hb ⟨l, rfl⟩
    · simp [mat]
  rw [e, rot_mul]; rfl

lemma mat_mulVec (h : ExtFrame) (k : Option (Fin nPose)) (v : Ix n nCam nPose → ℝ) : DState.ofFn ((h.mat k).mulVec v) = h.turn k (DState.ofFn v) := by
  refine DState.ext' ?_
  rw [DState.get_ofFn]
  funext a
  have hm : (h.mat k).mulVec v a = ((h.mat k : Cov n nCam nPose) * Matrix.replicateCol Unit v : Matrix (Ix n nCam nPose) Unit ℝ) a () := by rw [← Matrix.replicateCol_mulVec]; rfl
  cases ha : hit k a with
  | true =>
    obtain ⟨j, l, rfl, rfl⟩ := hit_iff.mp ha
    rw [hm, mat_mul_pop]
    simp [turn, DState.get, DState.ofFn, Matrix.replicateCol]
  | false =>
    have e : (h.mat k).mulVec v a = v a := by simp [Matrix.mulVec, dotProduct, mat_other h ha]
    rw [e]
    have g := congrFun (DState.get_ofFn v) a
    rw [← g]
    cases a with
    | pop j l =>
      have : k ≠ some j := by simpa [hit] using ha
      simp [turn, DState.get, if_neg this]
    | _ => rfl

lemma mat_orth (hq : h.q.IsUnit) (k : Option (Fin nPose)) : (h.mat k : Cov n nCam nPose) * (h.mat k)ᵀ = 1 := by
  have hT : ∀ a b, ((h.mat k : Cov n nCam nPose)ᵀ) a b = h.mat k b a := fun _ _ => rfl
  ext a b
  cases ha : hit k a with
  | false =>
    rw [Matrix.mul_apply]
    simp only [mat_other h ha, hT, ite_mul, one_mul, zero_mul, Finset.sum_ite_eq, Finset.mem_univ, if_true]
    rw [mat_other' h ha, Matrix.one_apply]
    simp only [eq_comm]
  | true =>
    obtain ⟨j, l, rfl, rfl⟩ := hit_iff.mp ha
    rw [mat_mul_pop]
    simp only [hT]
    cases hb : hit (some j) b with
    | false =>
      have hne : ∀ i, b ≠ .pop j i := fun i e => by rw [e] at hb; simp [hit] at hb
      simp only [mat_other h hb, if_neg (hne _)]
      rw [Matrix.one_apply, if_neg (fun e => hne l e.symm)]
      have : (⟨0, 0, 0⟩ : V3) = 0 := rfl
      rw [this, Quat.rotate_zero, V3.at_zero]
    | true =>
      obtain ⟨j', l', rfl, e⟩ := hit_iff.mp hb
      simp only [Option.some.injEq] at e; subst e
      have := congrFun (congrFun (rot_orth hq) l) l'
      rw [rot_mul] at this
      simp only [Matrix.transpose_apply] at this
      simp only [mat, Matrix.of_apply, if_true]
      rw [this]
      simp [Matrix.one_apply]

lemma symm_cov (P : Cov n nCam nPose) : symm (h.cov k P) = h.cov k (symm P) := by
  simp only [symm, cov, Matrix.transpose_mul, Matrix.transpose_transpose, Matrix.mul_smul, Matrix.smul_mul, Matrix.mul_add, Matrix.add_mul, Matrix.mul_assoc]

lemma cov_other (P : Cov n nCam nPose) {a b : Ix n nCam nPose} (ha : hit k a = false) (hb : hit k b = false) : h.cov k P a b = P a b := by
  unfold cov
  rw [Matrix.mul_apply]
  simp only [Matrix.transpose_apply, mat_other h hb, mul_ite, mul_one, mul_zero, Finset.sum_ite_eq, Finset.mem_univ, if_true]
  rw [Matrix.mul_apply]
  simp [mat_other h ha]

lemma cov_diag (hq : h.q.IsUnit) {p : Ix n nCam nPose → ℝ} (hp : ∀ j l l', k = some j → p (.pop j l) = p (.pop j l')) :
    h.cov k (Matrix.diagonal p) = Matrix.diagonal p := by
  have e : (h.mat k : Cov n nCam nPose) * Matrix.diagonal p = Matrix.diagonal p * h.mat k := by
    ext a b
    rw [Matrix.mul_diagonal, Matrix.diagonal_mul]
    cases ha : hit k a with
    | false =>
      rw [mat_other h ha]
      split_ifs with hab
      · subst hab; ring
      · ring
    | true =>
      cases hb : hit k b with
      | false =>
        rw [mat_other' h hb]
        split_ifs with hab
        · subst hab; ring
        · ring
      | true =>
        obtain ⟨j, l, rfl, rfl⟩ := hit_iff.mp ha
        obtain ⟨j', l', rfl, e⟩ := hit_iff.mp hb
        simp only [Option.some.injEq] at e; subst e
        rw [hp j l' l rfl, mul_comm]
  unfold cov
  rw [e, Matrix.mul_assoc, mat_orth hq, Matrix.mul_one]

/-! ### State increments and normalisation -/

lemma state_boxPlus (h : ExtFrame) (k : Option (Fin nPose)) (s : State n nCam nPose) (δ : DState n nCam nPose) :
    (h.state k s).boxPlus (h.turn k δ) = h.state k (s.boxPlus δ) := by
  simp only [State.boxPlus, state, turn, State.mk.injEq, and_true, true_and]
  refine ⟨funext fun j => ?_, funext fun j => ?_⟩
  · split_ifs
    · simp only [pos, Quat.rotate_add]; ext <;> simp <;> ring
    · rfl
  · split_ifs
    · simp only [att, Quat.boxPlus]; rw [Quat.mul_assoc']
    · rfl

lemma inv_unit (hq : h.q.IsUnit) : h.q.inv.IsUnit := by simpa [Quat.IsUnit, Quat.normSq, Quat.inv] using hq

lemma state_fix (hq : h.q.IsUnit) (s : State n nCam nPose) : (h.state k s).fix = s.fix.map (h.state k) := by
  unfold State.fix
  have e : (h.state k s).fea = s.fea := rfl
  rw [e]
  cases optAll fun i => (s.fea i).fix with
  | none => rfl
  | some f =>
    simp only [Option.bind_eq_bind, Option.bind_some, Option.pure_def, Option.map_some, Option.some.injEq]
    simp only [state, State.mk.injEq, and_true, true_and]
    funext j
    split_ifs
    · exact Quat.mul_fix (inv_unit hq) _
    · rfl

/-- Corrections that do not involve the additional poses. -/
lemma finish_moved (hq : h.q.IsUnit) {m : ℕ} {gate : Gate m} {v : Fin m → ℝ} {H : Matrix (Fin m) (Ix n nCam nPose) ℝ} {R : Matrix (Fin m) (Fin m) ℝ}
    {x y : FSt n nCam nPose} (hm : h.Moved x y) (hH : ∀ r b, b.isAlign = true → H r b = 0) :
    Both h.Moved (x.finish gate v H R id) (y.finish gate v H R id) := by
  unfold FSt.finish
  have hA := mul_mat_of_zero (h := h) (k := x.u.inertial) hH
  have hc := correct_of_fixed (gate := gate) (v := v) (R := R) (P := x.P) hA
  change correct gate v H R (h.cov x.u.inertial x.P) = _ at hc
  rw [hm.P, hc]
  cases correct gate v H R x.P with
  | none => exact .none
  | some r =>
    simp only [Option.map_some, Option.bind_eq_bind, Option.bind_some, id, mat_mulVec, hm.s, state_boxPlus, state_fix hq]
    cases (x.s.boxPlus (DState.ofFn r.1)).fix with
    | none => exact .none
    | some s => exact .some ⟨rfl, symm_cov _, hm.u⟩

/-! ### Images and feature management -/

lemma odo_state (h : ExtFrame) (k : Option (Fin nPose)) (s : State n nCam nPose) : (h.state k s).odo = s.odo := rfl

lemma odo_cov (h : ExtFrame) (k : Option (Fin nPose)) (P : Cov n nCam nPose) : (h.cov k P).odo = P.odo := by
  ext a b
  have ho : ∀ a : Ix n nCam 0, hit k (Ix.ofOdo a : Ix n nCam nPose) = false := fun a => by
    cases hh : hit k (Ix.ofOdo a : Ix n nCam nPose) with
    | false => rfl
    | true => have := hit_align hh; rw [Ix.ofOdo_align] at this; cases this
  exact cov_other P (ho a) (ho b)

lemma image_moved (hq : h.q.IsUnit) (cfg : FCfg n nCam nPose) (c : ImgCorr n nCam) {x y : FSt n nCam nPose} (hm : h.Moved x y) :
    Both h.Moved (x.image cfg c) (y.image cfg c) := by
  unfold FSt.image
  have e : ∀ δ, (y.s.withOdo c.lin).featureJac cfg.sfv true c.i c.b δ = (x.s.withOdo c.lin).featureJac cfg.sfv true c.i c.b δ :=
    fun δ => State.featureJac_withOdo _ _ _ _ _ _
  simp only [e]
  cases hJ : colMat fun b' => ((x.s.withOdo c.lin).featureJac cfg.sfv true c.i c.b (DState.unit b')).map fun r => r.1.at with
  | none => exact .none
  | some J =>
    simp only [Option.bind_eq_bind, Option.bind_some]
    refine finish_moved hq hm fun r b' hb => ?_
    have h := colMat_some hJ b'
    simp only [Option.map_eq_some_iff] at h
    obtain ⟨v, hv, he⟩ := h
    rw [Matrix.mul_apply]
    refine Finset.sum_eq_zero fun k _ => ?_
    rw [← congrFun he k, State.featureJac_zero (DState.odoZero_unit hb) hv, V2.at_zero, mul_zero]

lemma hit_slot {a : Ix n nCam nPose} (ha : hit k a = true) (i : Fin n) (l : Fin 3) : a ≠ slotIx i l := by
  obtain ⟨j, l', rfl, -⟩ := hit_iff.mp ha
  fin_cases l <;> (intro e; cases e)

lemma reset_cov (P : Cov n nCam nPose) (i : Fin n) (C : Matrix (Fin 3) (Fin 3) ℝ) : (h.cov k P).resetFeature i C = h.cov k (P.resetFeature i C) := by
  rw [resetFeature_eq, resetFeature_eq]
  have h1 : (keepMat i : Cov n nCam nPose) * h.mat k = h.mat k * keepMat i := mat_comm (c := 1) fun a b hab => by
    classical
    simp only [keepMat, Matrix.diagonal_apply]
    by_cases e : a = b
    · subst e
      rw [if_pos rfl, if_pos rfl, if_pos fun l => hit_slot (by simpa using hab) i l]
    · rw [if_neg e, if_neg e]
  have h2 : (h.mat k : Cov n nCam nPose) * slotMat i = slotMat i := by
    ext a c
    cases ha : hit k a with
    | false => rw [Matrix.mul_apply]; simp [mat_other h ha]
    | true =>
      obtain ⟨j, l, rfl, rfl⟩ := hit_iff.mp ha
      rw [mat_mul_pop]
      have hz : ∀ l, slotMat i (Ix.pop j l : Ix n nCam nPose) c = 0 := fun l => by
        simp only [slotMat]; rw [if_neg (hit_slot (k := some j) (by simp [hit]) i c)]
      simp only [hz]
      have : (⟨0, 0, 0⟩ : V3) = 0 := rfl
      rw [this, Quat.rotate_zero, V3.at_zero]
  have h1' := congrArg Matrix.transpose h1
  have h2' := congrArg Matrix.transpose h2
  rw [Matrix.transpose_mul, Matrix.transpose_mul] at h1'
  rw [Matrix.transpose_mul] at h2'
  simp only [cov, Matrix.mul_add, Matrix.add_mul]
  congr 1
  · calc keepMat i * (h.mat k * P * (h.mat k)ᵀ) * (keepMat i)ᵀ = (keepMat i * h.mat k) * P * ((h.mat k)ᵀ * (keepMat i)ᵀ) := by simp only [Matrix.mul_assoc]
      _ = h.mat k * (keepMat i * P * (keepMat i)ᵀ) * (h.mat k)ᵀ := by rw [h1, h1']; simp only [Matrix.mul_assoc]
  · simp only [Matrix.mul_assoc]
    rw [h2', ← Matrix.mul_assoc (h.mat k), h2]

lemma manage_moved (r : Manage n nCam) {x y : FSt n nCam nPose} (hm : h.Moved x y) : h.Moved (x.manage r) (y.manage r) := by
  refine ⟨?_, ?_, hm.u⟩
  · simp only [FSt.manage, hm.s, state]; rfl
  · simp only [FSt.manage, hm.P]
    induction r.reset generalizing x y with
    | nil => rfl
    | cons p l ih =>
      simp only [List.foldl_cons, reset_cov]
      exact ih (x := { x with P := x.P.resetFeature p.1 p.2 }) (y := { y with P := h.cov x.u.inertial (x.P.resetFeature p.1 p.2) }) ⟨hm.s, rfl, hm.u⟩

/-! ### The prediction -/

lemma evalPrediction_state (hq : h.q.IsUnit) (cfg : PredCfg) (m : ImuMeas) (s : State n nCam nPose) (dt : ℝ) :
    (h.state k s).evalPrediction cfg m true (h.state k s) (DState.ofFn 0) dt = (s.evalPrediction cfg m true s (DState.ofFn 0) dt).map (h.state k) := by
  by_cases hdt : dt ≤ 0
  · simp [State.evalPrediction, if_pos hdt]
  · rw [State.evalPrediction_eq hdt, State.evalPrediction_eq hdt]
    have e1 : (h.state k s).predictFea (m.gyr - (h.state k s).gyb + (1 / Real.sqrt dt) • (DState.ofFn 0 : DState n nCam nPose).att) dt (DState.ofFn 0) =
        s.predictFea (m.gyr - s.gyb + (1 / Real.sqrt dt) • (DState.ofFn 0 : DState n nCam nPose).att) dt (DState.ofFn 0) := rfl
    rw [e1]
    cases optAll (s.predictFea (m.gyr - s.gyb + (1 / Real.sqrt dt) • (DState.ofFn 0 : DState n nCam nPose).att) dt (DState.ofFn 0)) with
    | none => rfl
    | some f =>
      simp only [Option.bind_some]
      have e2 : State.rawPred cfg m (h.state k s) (DState.ofFn 0) dt f = h.state k (State.rawPred cfg m s (DState.ofFn 0) dt f) := by
        have h0 : ∀ j, (DState.ofFn 0 : DState n nCam nPose).pop j = 0 := fun _ => rfl
        have a1 : (State.rawPred cfg m (h.state k s) (DState.ofFn 0) dt f).pop = (h.state k (State.rawPred cfg m s (DState.ofFn 0) dt f)).pop := by
          funext j
          simp only [State.rawPred, state, h0]
          split_ifs
          · simp only [pos, V3.smul_zero', V3.add_zero']
          · rfl
        have a2 : (State.rawPred cfg m (h.state k s) (DState.ofFn 0) dt f).poa = (h.state k (State.rawPred cfg m s (DState.ofFn 0) dt f)).poa := by
          funext j
          simp only [State.rawPred, state]
          split_ifs
          · simp only [att]; rw [Quat.mul_assoc']
          · rfl
        have a3 : State.rawPred cfg m (h.state k s) (DState.ofFn 0) dt f = { State.rawPred cfg m s (DState.ofFn 0) dt f with
            pop := (State.rawPred cfg m (h.state k s) (DState.ofFn 0) dt f).pop
            poa := (State.rawPred cfg m (h.state k s) (DState.ofFn 0) dt f).poa } := rfl
        rw [a3, a1, a2]
        rfl
      rw [e2, state_fix hq]
      cases (State.rawPred cfg m s (DState.ofFn 0) dt f).fix <;> rfl

lemma unit_pop (a : Ix n nCam nPose) (j : Fin nPose) (l : Fin 3) : ((DState.unit a).pop j).at l = if Ix.pop j l = a then 1 else 0 := by
  have : ((DState.unit a).pop j).at l = (DState.unit a).get (.pop j l) := rfl
  rw [this, DState.unit, DState.get_ofFn, Pi.single_apply]

/-- A matrix of an increment that leaves the additional positions alone, up to a factor. -/
lemma pop_rows {F : Cov n nCam nPose} {c : ℝ} {D : Ix n nCam nPose → DState n nCam nPose} (hF : ∀ a b, F a b = (D b).get a)
    (hrow : ∀ b j, (D b).pop j = c • (DState.unit b).pop j) (hcol : ∀ b, b.isAlign = true → ∀ a, a.isAlign = false → (D b).get a = 0)
    (hpoa : ∀ b j, (D b).poa j = c • (DState.unit b).poa j) :
    ∀ a b, hit k a = true ∨ hit k b = true → F a b = if a = b then c else 0 := by
  have hg : ∀ (b : Ix n nCam nPose) j l, (c • (DState.unit b).pop j).at l = if Ix.pop j l = b then c else 0 := fun b j l => by
    have : (c • (DState.unit b).pop j).at l = c * ((DState.unit b).pop j).at l := by fin_cases l <;> simp [V3.at]
    rw [this, unit_pop]; split_ifs <;> simp
  intro a b hab
  rw [hF]
  cases ha : hit k a with
  | true =>
    obtain ⟨j, l, rfl, -⟩ := hit_iff.mp ha
    simp only [DState.get, hrow, hg]
  | false =>
    have hb : hit k b = true := by simpa [ha] using hab
    have hne : a ≠ b := fun e => by rw [e, hb] at ha; cases ha
    rw [if_neg hne]
    cases haa : a.isAlign with
    | false => exact hcol b (hit_align hb) a haa
    | true =>
      obtain ⟨j, l, rfl, -⟩ := hit_iff.mp hb
      cases a with
      | pop j' l' => simp only [DState.get, hrow, hg]; rw [if_neg hne]
      | poa j' l' =>
        have : (c • (DState.unit (.pop j l : Ix n nCam nPose)).poa j').at l' = c * (DState.unit (.pop j l : Ix n nCam nPose)).get (.poa j' l') := by
          simp only [DState.get]
          fin_cases l' <;> simp [V3.at]
        simp only [DState.get, hpoa]
        rw [this, DState.unit, DState.get_ofFn, Pi.single_apply, if_neg hne, mul_zero]
      | _ => cases haa

lemma predJac_hit {s : State n nCam nPose} {m : ImuMeas} {dt : ℝ} {F : Cov n nCam nPose}
    (hF : colMat (fun b => (s.predJac m dt (DState.unit b)).map DState.get) = some F) :
    ∀ a b, hit k a = true ∨ hit k b = true → F a b = if a = b then 1 else 0 := by
  have hb := State.predJac_block hF
  have hc := fun b => colMat_some hF b
  simp only [Option.map_eq_some_iff] at hc
  choose D hD hg using hc
  have hD' := fun b => (Option.map_eq_some_iff.mp (show (optAll _).map _ = some (D b) from hD b))
  choose f hf he using hD'
  refine pop_rows (D := D) (fun a b => (congrFun (hg b) a).symm) (fun b j => ?_) (fun b hb' a ha => ?_) (fun b j => ?_)
  · rw [← he]; simp only [State.predJacOf, M3.one_mulVec]; ext <;> simp
  · rw [congrFun (hg b) a]; exact hb a b (by rw [ha, hb']; simp)
  · rw [← he]; simp only [State.predJacOf, M3.one_mulVec]; ext <;> simp

lemma noiseJac_hit {s : State n nCam nPose} {m : ImuMeas} {dt : ℝ} {F : Cov n nCam nPose}
    (hF : colMat (fun b => (s.noiseJac m dt (DState.unit b)).map DState.get) = some F) :
    ∀ a b, hit k a = true ∨ hit k b = true → F a b = if a = b then Real.sqrt dt else 0 := by
  have hb := State.noiseJac_block hF
  have hc := fun b => colMat_some hF b
  simp only [Option.map_eq_some_iff] at hc
  choose D hD hg using hc
  have hD' := fun b => (Option.map_eq_some_iff.mp (show (optAll _).map _ = some (D b) from hD b))
  choose f hf he using hD'
  refine pop_rows (D := D) (fun a b => (congrFun (hg b) a).symm) (fun b j => ?_) (fun b hb' a ha => ?_) (fun b j => ?_)
  · rw [← he]; simp only [State.noiseJacOf, M3.smul_mulVec, M3.one_mulVec]
  · rw [congrFun (hg b) a]; exact hb a b (by rw [ha, hb']; simp)
  · rw [← he]; simp only [State.noiseJacOf, M3.smul_mulVec, M3.one_mulVec]

lemma predict_moved (hq : h.q.IsUnit) (cfg : FCfg n nCam nPose) (m : ImuMeas) (dt : ℝ) {x y : FSt n nCam nPose} (hm : h.Moved x y)
    (hn : ∀ j l l', x.u.inertial = some j → cfg.q (.pop j l) = cfg.q (.pop j l')) :
    Both h.Moved (x.predict cfg m dt) (y.predict cfg m dt) := by
  unfold FSt.predict
  have e1 : (fun b => (y.s.predJac m dt (DState.unit b)).map DState.get) = fun b => (x.s.predJac m dt (DState.unit b)).map DState.get := by rw [hm.s]; rfl
  have e2 : (fun b => (y.s.noiseJac m dt (DState.unit b)).map DState.get) = fun b => (x.s.noiseJac m dt (DState.unit b)).map DState.get := by rw [hm.s]; rfl
  rw [e1, e2]
  cases hF : colMat fun b => (x.s.predJac m dt (DState.unit b)).map DState.get with
  | none => exact .none
  | some F =>
    cases hG : colMat fun b => (x.s.noiseJac m dt (DState.unit b)).map DState.get with
    | none => exact .none
    | some G =>
      simp only [Option.bind_eq_bind, Option.bind_some, hm.s, evalPrediction_state hq]
      cases x.s.evalPrediction cfg.pred m true x.s (DState.ofFn 0) dt with
      | none => exact .none
      | some s =>
        refine .some ⟨rfl, ?_, hm.u⟩
        simp only
        rw [← symm_cov, hm.P]
        congr 1
        have hFm := mat_comm (h := h) (predJac_hit (k := x.u.inertial) hF)
        have hGm := mat_comm (h := h) (noiseJac_hit (k := x.u.inertial) hG)
        have t1 := congrArg Matrix.transpose hFm
        have t2 := congrArg Matrix.transpose hGm
        rw [Matrix.transpose_mul, Matrix.transpose_mul] at t1 t2
        conv_lhs => rw [← cov_diag hq hn]
        simp only [cov, Matrix.mul_add, Matrix.add_mul]
        congr 1
        · calc F * (h.mat x.u.inertial * x.P * (h.mat x.u.inertial)ᵀ) * Fᵀ = (F * h.mat x.u.inertial) * x.P * ((h.mat x.u.inertial)ᵀ * Fᵀ) := by simp only [Matrix.mul_assoc]
            _ = _ := by rw [hFm, t1]; simp only [Matrix.mul_assoc]
        · calc G * (h.mat x.u.inertial * Matrix.diagonal cfg.q * (h.mat x.u.inertial)ᵀ) * Gᵀ =
                (G * h.mat x.u.inertial) * Matrix.diagonal cfg.q * ((h.mat x.u.inertial)ᵀ * Gᵀ) := by simp only [Matrix.mul_assoc]
            _ = _ := by rw [hGm, t2]; simp only [Matrix.mul_assoc]

/-! ### The pose update -/

section pose

variable {u : PoseUpd nPose} (N : Matrix PoseIx PoseIx ℝ)

/-- The settings for the new frame. -/
def conv (h : ExtFrame) (u : PoseUpd nPose) (N : Matrix PoseIx PoseIx ℝ) : PoseUpd nPose := { h.settings u with noise := N }

lemma getqWI_conv (s : State n nCam nPose) : (h.conv u N).getqWI (h.state u.inertial s) = h.att (u.getqWI s) := by
  have e : (h.conv u N).inertial = u.inertial := rfl
  unfold PoseUpd.getqWI
  rw [e]
  cases hi : u.inertial with
  | none => rfl
  | some j => simp [state]

lemma getIrIW_conv (s : State n nCam nPose) : (h.conv u N).getIrIW (h.state u.inertial s) = h.pos (u.getIrIW s) := by
  have e : (h.conv u N).inertial = u.inertial := rfl
  unfold PoseUpd.getIrIW
  rw [e]
  cases hi : u.inertial with
  | none => rfl
  | some j => simp [state]

lemma getMrMV_conv (ha : Apart u) (s : State n nCam nPose) : (h.conv u N).getMrMV (h.state u.inertial s) = u.getMrMV s := by
  have e : (h.conv u N).body = u.body := rfl
  unfold PoseUpd.getMrMV
  rw [e]
  cases hi : u.body with
  | none => rfl
  | some j => simp only [state]; rw [if_neg fun hh => ha j hh hi]

lemma getqVM_conv (ha : Apart u) (s : State n nCam nPose) : (h.conv u N).getqVM (h.state u.inertial s) = u.getqVM s := by
  have e : (h.conv u N).body = u.body := rfl
  unfold PoseUpd.getqVM
  rw [e]
  cases hi : u.body with
  | none => rfl
  | some j => simp only [state]; rw [if_neg fun hh => ha j hh hi]

lemma att_inv_rotate (q : Quat) (v : V3) : (h.att q).inv.rotate v = h.q.rotate (q.inv.rotate v) := by
  rw [att, Quat.mul_inv_rev, Quat.rotate_mul, Quat.inv_inv']

lemma att_mul_inv (hq : h.q.IsUnit) (p q : Quat) : h.att p * (h.att q).inv = p * q.inv := by
  rw [att, att, Quat.mul_inv_rev, Quat.inv_inv', Quat.mul_assoc', ← Quat.mul_assoc' h.q.inv, Quat.inv_mul_self hq]
  congr 1
  ext <;> simp

lemma innov_conv (hq : h.q.IsUnit) (ha : Apart u) (m : PoseMeas) (s : State n nCam nPose) :
    (h.conv u N).innov (h.meas m) (h.state u.inertial s) ⟨0, 0⟩ =
      ⟨h.q.rotate (u.innov m s ⟨0, 0⟩).pos, (u.innov m s ⟨0, 0⟩).att⟩ := by
  have e1 : (h.conv u N).enablePosition = u.enablePosition := rfl
  have e2 : (h.conv u N).enableAttitude = u.enableAttitude := rfl
  have e3 : (h.state u.inertial s).pos = s.pos := rfl
  have e4 : (h.state u.inertial s).att = s.att := rfl
  simp only [PoseUpd.innov, getqWI_conv, getIrIW_conv, getMrMV_conv N ha, getqVM_conv N ha, e1, e2, e3, e4, att_inv_rotate]
  congr 1
  · split_ifs
    · simp only [ExtFrame.meas, pos, Quat.rotate_add, Quat.rotate_sub, Quat.rotate_zero]
      ext <;> simp <;> ring
    · rw [Quat.rotate_zero]
  · split_ifs
    · simp only [ExtFrame.meas]
      rw [Quat.mul_assoc' _ (h.att _), att_mul_inv hq, ← Quat.mul_assoc']
    · rfl

lemma twoBlocks_turn (ha : Apart u) (B : M3) {B' : M3} (hB : ∀ v, B'.mulVec v = h.q.rotate (B.mulVec v)) (δ : DState n nCam nPose) :
    PoseUpd.twoBlocks u.inertial u.body M3.one B' (h.turn u.inertial δ).pop = h.q.rotate (PoseUpd.twoBlocks u.inertial u.body M3.one B δ.pop) := by
  unfold PoseUpd.twoBlocks
  rw [Quat.rotate_add]
  congr 1
  · cases hi : u.inertial with
    | none => rw [Quat.rotate_zero]
    | some j =>
      simp only [ha j hi, if_false, turn, M3.one_mulVec, if_true]
  · cases hi : u.body with
    | none => rw [Quat.rotate_zero]
    | some j =>
      simp only [turn]
      rw [if_neg fun hh => ha j hh hi, hB]

lemma jacState_conv (hq : h.q.IsUnit) (ha : Apart u) (s : State n nCam nPose) (δ : DState n nCam nPose) :
    (h.conv u N).jacState (h.state u.inertial s) (h.turn u.inertial δ) = ⟨h.q.rotate (u.jacState s δ).pos, (u.jacState s δ).att⟩ := by
  have e1 : (h.conv u N).enablePosition = u.enablePosition := rfl
  have e2 : (h.conv u N).enableAttitude = u.enableAttitude := rfl
  have e3 : (h.state u.inertial s).pos = s.pos := rfl
  have e4 : (h.state u.inertial s).att = s.att := rfl
  have e5 : (h.conv u N).noFeedback = u.noFeedback := rfl
  have e6 : (h.conv u N).inertial = u.inertial := rfl
  have e7 : (h.conv u N).body = u.body := rfl
  have d1 : (h.turn u.inertial δ).pos = δ.pos := rfl
  have d2 : (h.turn u.inertial δ).att = δ.att := rfl
  have d3 : (h.turn u.inertial δ).poa = δ.poa := rfl
  have hneg : ∀ (A : M3) v, (-A).mulVec v = -(A.mulVec v) := fun A v => by ext <;> simp [M3.mulVec, V3.dot] <;> ring
  have hB : ∀ v, ((h.att (u.getqWI s)).inv * s.att).mat.mulVec v = h.q.rotate (((u.getqWI s).inv * s.att).mat.mulVec v) := fun v => by
    rw [Quat.mat_mulVec, Quat.mat_mulVec, Quat.rotate_mul, Quat.rotate_mul, att_inv_rotate]
  simp only [PoseUpd.jacState, getqWI_conv, getMrMV_conv N ha, getqVM_conv N ha, e1, e2, e3, e4, e5, e6, e7, d1, d2, d3]
  congr 1
  · cases u.enablePosition with
    | false => simp only [Bool.false_eq_true, if_false]; rw [Quat.rotate_zero]
    | true =>
      simp only [if_true]
      have p1 : (if u.noFeedback = true then (0 : V3) else (h.att (u.getqWI s)).inv.mat.mulVec δ.pos +
          ((-(h.att (u.getqWI s)).inv.mat).mul (M3.skew (s.att.rotate (u.getMrMV s)))).mulVec δ.att) =
          h.q.rotate (if u.noFeedback = true then (0 : V3) else (u.getqWI s).inv.mat.mulVec δ.pos +
            ((-(u.getqWI s).inv.mat).mul (M3.skew (s.att.rotate (u.getMrMV s)))).mulVec δ.att) := by
        cases u.noFeedback with
        | true => simp only [if_true]; rw [Quat.rotate_zero]
        | false =>
          simp only [Bool.false_eq_true, if_false]
          rw [M3.mul_mulVec, M3.mul_mulVec, hneg, hneg, Quat.mat_mulVec, Quat.mat_mulVec, Quat.mat_mulVec, Quat.mat_mulVec, att_inv_rotate, att_inv_rotate,
            Quat.rotate_add, Quat.rotate_neg]
      have p2 := twoBlocks_turn (h := h) ha _ hB δ
      have p3 : PoseUpd.oneBlock u.inertial ((M3.skew ((h.att (u.getqWI s)).inv.rotate (s.pos + s.att.rotate (u.getMrMV s)))).mul (h.att (u.getqWI s)).inv.mat) δ.poa =
          h.q.rotate (PoseUpd.oneBlock u.inertial ((M3.skew ((u.getqWI s).inv.rotate (s.pos + s.att.rotate (u.getMrMV s)))).mul (u.getqWI s).inv.mat) δ.poa) := by
        unfold PoseUpd.oneBlock
        cases u.inertial with
        | none => simp only; rw [Quat.rotate_zero]
        | some j =>
          simp only
          rw [M3.mul_mulVec, M3.mul_mulVec, Quat.mat_mulVec, Quat.mat_mulVec, att_inv_rotate, att_inv_rotate, V3.skew_mulVec, V3.skew_mulVec,
            Quat.cross_rotate hq]
      rw [p1, p2, p3, ← Quat.rotate_add, ← Quat.rotate_add]

omit h in
lemma align_eq (m : PoseMeas) (s : State n nCam nPose) (hc : u.didAlign = false ∧ u.doAlign = true) :
    u.align m s =
      ({ u with
          qWI := s.att * (u.getqVM s).inv * m.att
          IrIW := m.pos - (s.att * (u.getqVM s).inv * m.att).inv.rotate (s.pos + s.att.rotate (u.getMrMV s))
          didAlign := true },
       { s with
          pop := fun j => if u.inertial = some j then m.pos - (s.att * (u.getqVM s).inv * m.att).inv.rotate (s.pos + s.att.rotate (u.getMrMV s)) else s.pop j
          poa := fun j => if u.inertial = some j then s.att * (u.getqVM s).inv * m.att else s.poa j }) := by
  unfold PoseUpd.align
  rw [if_pos hc]
  cases hi : u.inertial with
  | none => simp
  | some j =>
    have hM : ∀ f, u.getMrMV { s with poa := f } = u.getMrMV s := fun f => by
      unfold PoseUpd.getMrMV
      cases u.body <;> rfl
    have hu : ∀ {α : Type} (f : Fin nPose → α) (a : α), Function.update f j a = fun i => if some j = some i then a else f i := fun f a => by
      funext i
      simp only [Function.update_apply, Option.some.injEq, eq_comm]
    simp only [hu, hM]

lemma align_conv (ha : Apart u) (m : PoseMeas) (s : State n nCam nPose) :
    (h.conv u N).align (h.meas m) (h.state u.inertial s) = (h.conv (u.align m s).1 N, h.state u.inertial (u.align m s).2) := by
  have e1 : (h.conv u N).didAlign = u.didAlign := rfl
  have e2 : (h.conv u N).doAlign = u.doAlign := rfl
  have e3 : (h.state u.inertial s).pos = s.pos := rfl
  have e4 : (h.state u.inertial s).att = s.att := rfl
  have e6 : (h.conv u N).inertial = u.inertial := rfl
  have ha' : Apart (h.conv u N) := ha
  by_cases hc : u.didAlign = false ∧ u.doAlign = true
  · rw [align_eq m s hc, align_eq (u := h.conv u N) _ _ hc]
    simp only [getqVM_conv N ha, getMrMV_conv N ha, e3, e4, e6]
    have hw : s.att * (u.getqVM s).inv * (h.meas m).att = h.att (s.att * (u.getqVM s).inv * m.att) := by
      simp only [ExtFrame.meas, att, Quat.mul_assoc']
    have hp : ∀ w v, (h.meas m).pos - (h.att w).inv.rotate v = h.pos (m.pos - w.inv.rotate v) := fun w v => by
      rw [att_inv_rotate]
      simp only [ExtFrame.meas, pos, Quat.rotate_sub]
      ext <;> simp <;> ring
    rw [hw, hp]
    refine Prod.ext rfl ?_
    simp only [state, State.mk.injEq, and_true, true_and]
    refine ⟨funext fun j => ?_, funext fun j => ?_⟩ <;> split_ifs <;> rfl
  · have h1 : u.align m s = (u, s) := by unfold PoseUpd.align; rw [if_neg hc]
    have h2 : (h.conv u N).align (h.meas m) (h.state u.inertial s) = (h.conv u N, h.state u.inertial s) := by
      unfold PoseUpd.align; rw [e1, e2, if_neg hc]
    rw [h1, h2]

lemma align_keeps (u : PoseUpd nPose) (m : PoseMeas) (s : State n nCam nPose) :
    (u.align m s).1.inertial = u.inertial ∧ (u.align m s).1.body = u.body ∧ (u.align m s).1.defaultNoise = u.defaultNoise := by
  unfold PoseUpd.align
  split_ifs <;> exact ⟨rfl, rfl, rfl⟩

lemma err_comm {D : Matrix PoseIx PoseIx ℝ} (hD : SameInAllDirections D) : D * h.err = h.err * D := by
  obtain ⟨a, ν, rfl⟩ := hD
  have e : (Matrix.diagonal (Sum.elim (fun _ => a) ν) : Matrix PoseIx PoseIx ℝ) = Matrix.fromBlocks (a • 1) 0 0 (Matrix.diagonal ν) := by
    rw [← Matrix.fromBlocks_diagonal, ← Matrix.smul_one_eq_diagonal]
  rw [e]
  simp [err, Matrix.fromBlocks_multiply]

lemma setNoise_conv (hq : h.q.IsUnit) (hD : SameInAllDirections u.defaultNoise) (m : PoseMeas) :
    ((h.conv u N).setNoise (h.meas m)) = h.conv (u.setNoise m) (h.err * (u.setNoise m).noise * h.errᵀ) := by
  have e1 : (h.conv u N).useOdometryCov = u.useOdometryCov := rfl
  have e2 : (h.conv u N).enablePosition = u.enablePosition := rfl
  have e3 : (h.conv u N).enableAttitude = u.enableAttitude := rfl
  have e4 : (h.conv u N).defaultNoise = u.defaultNoise := rfl
  have hM : u.defaultNoise * (h.meas m).cov = h.err * (u.defaultNoise * m.cov) * h.errᵀ := by
    simp only [ExtFrame.meas]
    rw [← Matrix.mul_assoc, ← Matrix.mul_assoc, err_comm hD]
    simp only [Matrix.mul_assoc]
  unfold PoseUpd.setNoise
  rw [e1]
  by_cases hc : u.useOdometryCov = true
  · rw [if_pos hc, if_pos hc]
    simp only [e2, e3, e4, hM]
    have : (if u.enablePosition ≠ u.enableAttitude then
          Matrix.fromBlocks (h.err * (u.defaultNoise * m.cov) * h.errᵀ).toBlocks₁₁ 0 0 (h.err * (u.defaultNoise * m.cov) * h.errᵀ).toBlocks₂₂
        else h.err * (u.defaultNoise * m.cov) * h.errᵀ) =
        h.err * (if u.enablePosition ≠ u.enableAttitude then
          Matrix.fromBlocks (u.defaultNoise * m.cov).toBlocks₁₁ 0 0 (u.defaultNoise * m.cov).toBlocks₂₂ else u.defaultNoise * m.cov) * h.errᵀ := by
      split_ifs
      rotate_left
      · rfl
      · generalize u.defaultNoise * m.cov = C
        conv_lhs => rw [← Matrix.fromBlocks_toBlocks C]
        simp [err, Matrix.fromBlocks_multiply, Matrix.fromBlocks_transpose]
    rw [this]
    rfl
  · rw [if_neg hc, if_neg hc]
    have : u.defaultNoise = h.err * u.defaultNoise * h.errᵀ := by
      rw [← err_comm hD, Matrix.mul_assoc, err_orth hq, Matrix.mul_one]
    simp only [e4]
    rw [← this]
    rfl

lemma setNoise_keeps (u : PoseUpd nPose) (m : PoseMeas) :
    (u.setNoise m).inertial = u.inertial ∧ (u.setNoise m).body = u.body ∧ (u.setNoise m).defaultNoise = u.defaultNoise := by
  unfold PoseUpd.setNoise
  split_ifs <;> exact ⟨rfl, rfl, rfl⟩

lemma preProcess_conv (hq : h.q.IsUnit) (ha : Apart u) (hD : SameInAllDirections u.defaultNoise) (m : PoseMeas) (s : State n nCam nPose) :
    (h.conv u N).preProcess (h.meas m) (h.state u.inertial s) =
      (h.conv (u.preProcess m s).1 (h.err * (u.preProcess m s).1.noise * h.errᵀ), h.state u.inertial (u.preProcess m s).2) := by
  unfold PoseUpd.preProcess
  rw [align_conv N ha]
  simp only
  rw [setNoise_conv N hq (by rw [(align_keeps u m s).2.2]; exact hD)]

lemma postProcess_conv (hq : h.q.IsUnit) (ha : Apart u) (m : PoseMeas) (s : State n (nCam + 1) nPose) :
    (h.conv u N).postProcess (h.meas m) (h.state u.inertial s) = h.state u.inertial (u.postProcess m s) := by
  have e4 : (h.state u.inertial s).att = s.att := rfl
  have e5 : (h.state u.inertial s).MrMC = s.MrMC := rfl
  have e6 : (h.state u.inertial s).qCM = s.qCM := rfl
  unfold PoseUpd.postProcess
  simp only [getqWI_conv, getIrIW_conv, getMrMV_conv N ha, getqVM_conv N ha, e4, e5, e6]
  have p1 : (h.att (u.getqWI s)).rotate ((h.meas m).pos - ((h.att (u.getqWI s)).inv * s.att).rotate (u.getMrMV s) - h.pos (u.getIrIW s)) =
      (u.getqWI s).rotate (m.pos - ((u.getqWI s).inv * s.att).rotate (u.getMrMV s) - u.getIrIW s) := by
    have : (h.meas m).pos - ((h.att (u.getqWI s)).inv * s.att).rotate (u.getMrMV s) - h.pos (u.getIrIW s) =
        h.q.rotate (m.pos - ((u.getqWI s).inv * s.att).rotate (u.getMrMV s) - u.getIrIW s) := by
      rw [Quat.rotate_mul, Quat.rotate_mul, att_inv_rotate]
      simp only [ExtFrame.meas, pos, Quat.rotate_sub]
      ext <;> simp <;> ring
    rw [this, att, Quat.rotate_mul, Quat.rotate_inv_rotate hq]
  have p2 : s.qCM 0 * (u.getqVM s).inv * (h.meas m).att * (h.att (u.getqWI s)).inv = s.qCM 0 * (u.getqVM s).inv * m.att * (u.getqWI s).inv := by
    simp only [ExtFrame.meas]
    rw [Quat.mul_assoc' _ (h.att _), att_mul_inv hq, ← Quat.mul_assoc']
  rw [p1, p2]
  rfl

/-! ### The step -/

/-- Rows of the innovation. -/
noncomputable def rowEquiv : Fin 6 ≃ PoseIx := Equiv.ofBijective poseRow (by
  constructor
  · intro a b
    fin_cases a <;> fin_cases b <;> simp [poseRow]
  · intro c
    rcases c with c | c <;> fin_cases c
    exacts [⟨0, rfl⟩, ⟨1, rfl⟩, ⟨2, rfl⟩, ⟨3, rfl⟩, ⟨4, rfl⟩, ⟨5, rfl⟩])

/-- The change of axes of the innovation. -/
noncomputable def axes (h : ExtFrame) : Matrix (Fin 6) (Fin 6) ℝ := h.err.submatrix rowEquiv rowEquiv

lemma axes_orth (hq : h.q.IsUnit) : h.axes * h.axesᵀ = 1 := by
  unfold axes
  rw [Matrix.transpose_submatrix, Matrix.submatrix_mul_equiv, err_orth hq, Matrix.submatrix_one_equiv]

lemma axes_mulVec (d : DPose) : h.axes.mulVec d.row = DPose.row ⟨h.q.rotate d.pos, d.att⟩ := by
  have hd : d.row = (Sum.elim d.pos.at d.att.at) ∘ rowEquiv := by
    funext r
    change _ = Sum.elim d.pos.at d.att.at (poseRow r)
    unfold DPose.row
    cases poseRow r <;> rfl
  unfold axes
  rw [hd, Matrix.submatrix_mulVec_equiv]
  funext r
  have e : (Sum.elim d.pos.at d.att.at ∘ rowEquiv) ∘ rowEquiv.symm = Sum.elim d.pos.at d.att.at := by funext c; simp
  change (h.err.mulVec ((Sum.elim d.pos.at d.att.at ∘ rowEquiv) ∘ rowEquiv.symm)) (poseRow r) = _
  rw [e, err, Matrix.fromBlocks_mulVec]
  unfold DPose.row
  have hrot : h.rot.mulVec d.pos.at = (h.q.rotate d.pos).at := by
    funext j
    have := rot_mul h (Matrix.replicateCol Unit d.pos.at) j ()
    rw [← Matrix.replicateCol_mulVec] at this
    exact this
  cases poseRow r with
  | inl c => simp [hrot, Function.comp_def]
  | inr c => simp [Function.comp_def]

lemma mul_mat_pop {σ : Type} (A : Matrix σ (Ix n nCam nPose) ℝ) (r : σ) (j : Fin nPose) (l : Fin 3) :
    (A * (h.mat (some j) : Cov n nCam nPose)) r (.pop j l) = ∑ i, A r (.pop j i) * h.rot i l := by
  rw [Matrix.mul_apply]
  refine (Fintype.sum_of_injective (fun i : Fin 3 => (Ix.pop j i : Ix n nCam nPose)) (fun a b h => by simpa using h) _ _ (fun b hb => ?_) (fun i => ?_)).symm
  · have : hit (some j) b = false := by
      cases hh : hit (some j) b with
      | false => rfl
      | true =>
        obtain ⟨j', l', rfl, e⟩ := hit_iff.mp hh
        simp only [Option.some.injEq] at e; subst e
        exact absurd ⟨l', rfl⟩ hb
    rw [mat_other h this, if_neg, mul_zero]
    rintro rfl
    exact hb ⟨l, rfl⟩
  · simp [mat]

lemma turn_unit {b : Ix n nCam nPose} (hb : hit k b = false) : h.turn k (DState.unit b) = DState.unit b := by
  unfold turn
  have : (fun j => if k = some j then h.q.rotate ((DState.unit b).pop j) else (DState.unit b).pop j) = (DState.unit b).pop := by
    funext j
    split_ifs with hk
    · have hz : (DState.unit b).pop j = 0 := by
        have : ∀ l, ((DState.unit b).pop j).at l = 0 := fun l => by
          rw [unit_pop, if_neg]
          rintro rfl
          simp [hit, hk] at hb
        exact V3.ext (this 0) (this 1) (this 2)
      rw [hz, Quat.rotate_zero]
    · rfl
  rw [this]

lemma turn_unit_pop (j : Fin nPose) (l : Fin 3) :
    h.turn (some j) (DState.unit (.pop j l : Ix n nCam nPose)) =
      { DState.unit (.pop j l : Ix n nCam nPose) with pop := fun i => if some j = some i then ⟨h.rot 0 l, h.rot 1 l, h.rot 2 l⟩ else (DState.unit (.pop j l : Ix n nCam nPose)).pop i } := by
  unfold turn
  congr 1
  funext i
  split_ifs with hk
  · simp only [Option.some.injEq] at hk; subst hk
    have : (DState.unit (.pop j l : Ix n nCam nPose)).pop j = ⟨if l = 0 then 1 else 0, if l = 1 then 1 else 0, if l = 2 then 1 else 0⟩ := by
      have e : ∀ i, ((DState.unit (.pop j l : Ix n nCam nPose)).pop j).at i = if i = l then 1 else 0 := fun i => by rw [unit_pop]; simp
      refine V3.ext ((e 0).trans ?_) ((e 1).trans ?_) ((e 2).trans ?_) <;> simp only [eq_comm]
    rw [this]
    rfl
  · rfl

/-- The Jacobian in the new frame. -/
lemma jacMat_conv (hq : h.q.IsUnit) (ha : Apart u) (s : State n nCam nPose) :
    (Matrix.of fun r b => ((h.conv u N).jacState (h.state u.inertial s) (DState.unit b)).row r : Matrix (Fin 6) (Ix n nCam nPose) ℝ) * h.mat u.inertial =
      h.axes * Matrix.of fun r b => (u.jacState s (DState.unit b)).row r := by
  have hr : ∀ r b, (h.axes * Matrix.of fun r b => (u.jacState s (DState.unit b)).row r : Matrix (Fin 6) (Ix n nCam nPose) ℝ) r b =
      ((h.conv u N).jacState (h.state u.inertial s) (h.turn u.inertial (DState.unit b))).row r := fun r b => by
    rw [jacState_conv N hq ha, ← axes_mulVec]
    rfl
  ext r b
  rw [hr]
  cases hb : hit u.inertial b with
  | false =>
    rw [turn_unit hb, Matrix.mul_apply]
    simp [mat_other' h hb]
  | true =>
    obtain ⟨j, l, rfl, hi⟩ := hit_iff.mp hb
    rw [hi, mul_mat_pop, turn_unit_pop, Fin.sum_univ_three]
    have hu0 : ∀ i, (DState.unit (.pop j i : Ix n nCam nPose)).OdoZero := fun i => DState.odoZero_unit rfl
    have hpoa : ∀ i j', (DState.unit (.pop j i : Ix n nCam nPose)).poa j' = 0 := fun i j' => by simp [DState.unit, DState.ofFn, Pi.single_apply]; rfl
    have hpop : ∀ i, (DState.unit (.pop j i : Ix n nCam nPose)).pop j = ⟨if i = 0 then 1 else 0, if i = 1 then 1 else 0, if i = 2 then 1 else 0⟩ := fun i => by
      have e : ∀ l, ((DState.unit (.pop j i : Ix n nCam nPose)).pop j).at l = if l = i then 1 else 0 := fun l => by rw [unit_pop]; simp
      refine V3.ext ((e 0).trans ?_) ((e 1).trans ?_) ((e 2).trans ?_) <;> simp only [eq_comm]
    have hpop' : ∀ i j', j' ≠ j → (DState.unit (.pop j i : Ix n nCam nPose)).pop j' = 0 := fun i j' hj => by
      have e : ∀ l, ((DState.unit (.pop j i : Ix n nCam nPose)).pop j').at l = 0 := fun l => by rw [unit_pop]; simp [hj]
      exact V3.ext (e 0) (e 1) (e 2)
    have hin : (h.conv u N).inertial = some j := hi
    have hbd : (h.conv u N).body ≠ some j := ha j hi
    have key : ∀ δ : DState n nCam nPose, δ.OdoZero → (∀ j', δ.poa j' = 0) → (∀ j', j' ≠ j → δ.pop j' = 0) →
        (h.conv u N).jacState (h.state (some j) s) δ = ⟨if (h.conv u N).enablePosition then δ.pop j else 0, 0⟩ := fun δ h1 h2 h3 => by
      cases hbo : (h.conv u N).body with
      | none =>
        simp only [PoseUpd.jacState, PoseUpd.twoBlocks, PoseUpd.oneBlock, hin, hbo, reduceCtorEq, if_false, h1.pos, h1.att, h2, M3.mulVec_zero', M3.one_mulVec]
        congr 1 <;> split_ifs <;> ext <;> simp
      | some k =>
        have hkj : k ≠ j := by rintro rfl; exact hbd hbo
        simp only [PoseUpd.jacState, PoseUpd.twoBlocks, PoseUpd.oneBlock, hin, hbo, Option.some.injEq, if_neg hkj, h1.pos, h1.att, h2, h3 k hkj, M3.mulVec_zero', M3.one_mulVec]
        congr 1 <;> split_ifs <;> ext <;> simp
    rw [hi] at *
    simp only [Matrix.of_apply]
    rw [key _ (hu0 0) (hpoa 0) (hpop' 0), key _ (hu0 1) (hpoa 1) (hpop' 1), key _ (hu0 2) (hpoa 2) (hpop' 2), key]
    · simp only [hpop, if_true]
      unfold DPose.row
      by_cases hp : (h.conv u N).enablePosition = true
      · simp only [hp, if_true]
        cases poseRow r with
        | inl i => fin_cases i <;> simp [V3.at]
        | inr i => fin_cases i <;> simp [V3.at]
      · simp only [hp]
        cases poseRow r with
        | inl i => fin_cases i <;> simp [V3.at]
        | inr i => fin_cases i <;> simp [V3.at]
    · exact ⟨(hu0 l).pos, (hu0 l).vel, (hu0 l).acb, (hu0 l).gyb, (hu0 l).att, (hu0 l).vep, (hu0 l).vea, (hu0 l).nor, (hu0 l).dep⟩
    · exact hpoa l
    · intro j' hj
      simp only [Option.some.injEq]
      rw [if_neg hj.symm]; exact hpop' l j' hj

lemma pose_moved (hq : h.q.IsUnit) (cfg : FCfg n (nCam + 1) nPose) (hg : AxisFree cfg.gateP) (m : PoseMeas) {x y : FSt n (nCam + 1) nPose} (hm : h.Moved x y)
    (ha : Apart x.u) (hD : SameInAllDirections x.u.defaultNoise) :
    Both h.Moved (x.pose cfg m) (y.pose cfg (h.meas m)) := by
  have hu : y.u = h.conv x.u y.u.noise := hm.u
  unfold FSt.pose
  rw [hu, hm.s, preProcess_conv _ hq ha hD]
  have hk : (x.u.preProcess m x.s).1.inertial = x.u.inertial := by
    unfold PoseUpd.preProcess; rw [(setNoise_keeps _ m).1, (align_keeps _ m _).1]
  have hkb : (x.u.preProcess m x.s).1.body = x.u.body := by
    unfold PoseUpd.preProcess; rw [(setNoise_keeps _ m).2.1, (align_keeps _ m _).2.1]
  have ha' : Apart (x.u.preProcess m x.s).1 := by intro j; rw [hk, hkb]; exact ha j
  generalize x.u.preProcess m x.s = p at *
  obtain ⟨u, s⟩ := p
  simp only at *
  rw [← hk]
  generalize hN : h.err * u.noise * h.errᵀ = N
  have hR : (Matrix.of fun r c => (h.conv u N).noise (poseRow r) (poseRow c) : Matrix (Fin 6) (Fin 6) ℝ) =
      h.axes * (Matrix.of fun r c => u.noise (poseRow r) (poseRow c)) * h.axesᵀ := by
    have e1 : (Matrix.of fun r c => u.noise (poseRow r) (poseRow c) : Matrix (Fin 6) (Fin 6) ℝ) = u.noise.submatrix rowEquiv rowEquiv := rfl
    have e2 : (Matrix.of fun r c => (h.conv u N).noise (poseRow r) (poseRow c) : Matrix (Fin 6) (Fin 6) ℝ) = N.submatrix rowEquiv rowEquiv := rfl
    rw [e1, e2, axes, Matrix.transpose_submatrix, Matrix.submatrix_mul_equiv, Matrix.submatrix_mul_equiv, hN]
  have hy : DPose.row ⟨((h.conv u N).innov (h.meas m) (h.state u.inertial s) ⟨0, 0⟩).pos, cfg.log ((h.conv u N).innov (h.meas m) (h.state u.inertial s) ⟨0, 0⟩).att⟩ =
      h.axes.mulVec (DPose.row ⟨(u.innov m s ⟨0, 0⟩).pos, cfg.log (u.innov m s ⟨0, 0⟩).att⟩) := by
    rw [innov_conv N hq ha', axes_mulVec]
  unfold FSt.finish
  simp only [hy, hR]
  rw [hm.P, ← hk]
  unfold cov
  rw [correct_axes hg (axes_orth hq) (jacMat_conv N hq ha' s) rfl]
  cases correct cfg.gateP (DPose.row ⟨(u.innov m s ⟨0, 0⟩).pos, cfg.log (u.innov m s ⟨0, 0⟩).att⟩)
      (Matrix.of fun r b => (u.jacState s (DState.unit b)).row r) (Matrix.of fun r c => u.noise (poseRow r) (poseRow c)) x.P with
  | none => exact .none
  | some r =>
    simp only [Option.map_some, Option.bind_eq_bind, Option.bind_some, mat_mulVec, state_boxPlus, postProcess_conv N hq ha', state_fix hq]
    cases (u.postProcess m (s.boxPlus (DState.ofFn r.1))).fix with
    | none => exact .none
    | some s' => exact .some ⟨rfl, symm_cov _, rfl⟩

end pose

/-! ### Runs -/

lemma step_moved (hq : h.q.IsUnit) (cfg : FCfg n (nCam + 1) nPose) (hg : AxisFree cfg.gateP) {x y : FSt n (nCam + 1) nPose}
    (hn : ∀ j l l', x.u.inertial = some j → cfg.q (.pop j l) = cfg.q (.pop j l')) (ha : Apart x.u) (hD : SameInAllDirections x.u.defaultNoise)
    (hm : h.Moved x y) (e : Step n (nCam + 1) nPose) : Both h.Moved (x.step cfg e) (y.step cfg (h.step e)) := by
  have ho : y.s.odo = x.s.odo := by rw [hm.s, odo_state]
  have hc : y.P.odo = x.P.odo := by rw [hm.P, odo_cov]
  have hv : ∀ b : Ix n (nCam + 1) nPose, b.isAlign = true → (DState.unit b).vel = 0 := fun b hb => (DState.odoZero_unit hb).vel
  cases e with
  | predict m dt => exact predict_moved hq cfg m dt hm hn
  | velocity m =>
    simp only [step, FSt.step, FSt.velocity]
    have : velInnov cfg.qAM m y.s 0 = velInnov cfg.qAM m x.s 0 := by rw [hm.s]; rfl
    rw [this]
    refine finish_moved hq hm fun r b hb => ?_
    simp only [Matrix.of_apply, velJac, hv b hb, M3.mulVec_zero', V3.at_zero]
  | zeroVel tr =>
    simp only [step, FSt.step, FSt.zeroVel, ho]
    by_cases ht : tr x.s.odo = true
    · rw [if_pos ht, if_pos ht]
      have : zeroVelInnov y.s 0 = zeroVelInnov x.s 0 := by rw [hm.s]; rfl
      rw [this]
      refine finish_moved hq hm fun r b hb => ?_
      simp only [Matrix.of_apply, zeroVelJac, hv b hb, M3.mulVec_zero', V3.at_zero]
    · rw [if_neg ht, if_neg ht]; exact .some hm
  | image alg =>
    simp only [step, FSt.step, ho, hc]
    cases alg x.s.odo x.P.odo with
    | none => exact .some hm
    | some c => exact image_moved hq cfg c hm
  | manage alg =>
    simp only [step, FSt.step, ho, hc]
    exact .some (manage_moved _ hm)
  | pose m => exact pose_moved hq cfg hg m hm ha hD

/-- The settings that a step leaves alone. -/
structure Kept (u v : PoseUpd nPose) : Prop where
  inertial : v.inertial = u.inertial
  body : v.body = u.body
  noise : v.defaultNoise = u.defaultNoise
  doAlign : v.doAlign = u.doAlign

lemma Kept.apart {u v : PoseUpd nPose} (hk : Kept u v) (ha : Apart u) : Apart v := fun j => by rw [hk.inertial, hk.body]; exact ha j

lemma finish_kept {m : ℕ} {gate : Gate m} {v : Fin m → ℝ} {H : Matrix (Fin m) (Ix n nCam nPose) ℝ} {R : Matrix (Fin m) (Fin m) ℝ} {x z : FSt n nCam nPose} {post}
    (hz : x.finish gate v H R post = some z) : z.u = x.u := by
  simp only [FSt.finish, Option.bind_eq_bind, Option.bind_eq_some_iff, Option.pure_def, Option.some.injEq] at hz
  obtain ⟨_, _, _, _, rfl⟩ := hz
  rfl

lemma preProcess_kept (u : PoseUpd nPose) (m : PoseMeas) (s : State n nCam nPose) : Kept u (u.preProcess m s).1 := by
  unfold PoseUpd.preProcess PoseUpd.setNoise PoseUpd.align
  constructor <;> split_ifs <;> rfl

/-- Steps other than pose updates leave all settings alone. -/
lemma step_kept' {cfg : FCfg n (nCam + 1) nPose} {x z : FSt n (nCam + 1) nPose} {e : Step n (nCam + 1) nPose} (he : ∀ m, e ≠ .pose m) (hz : x.step cfg e = some z) : z.u = x.u := by
  cases e with
  | predict m dt =>
    simp only [FSt.step, FSt.predict, Option.bind_eq_bind, Option.bind_eq_some_iff, Option.pure_def, Option.some.injEq] at hz
    obtain ⟨_, _, _, _, _, _, rfl⟩ := hz
    rfl
  | velocity m => exact finish_kept hz
  | zeroVel tr =>
    simp only [FSt.step, FSt.zeroVel] at hz
    split_ifs at hz
    · exact finish_kept hz
    · cases hz; rfl
  | image alg =>
    simp only [FSt.step] at hz
    cases ha : alg x.s.odo x.P.odo with
    | none => rw [ha] at hz; cases hz; rfl
    | some c =>
      rw [ha] at hz
      simp only [FSt.image, Option.bind_eq_bind, Option.bind_eq_some_iff] at hz
      obtain ⟨_, _, hz⟩ := hz
      exact finish_kept hz
  | manage alg => cases hz; rfl
  | pose m => exact absurd rfl (he m)

lemma step_kept {cfg : FCfg n (nCam + 1) nPose} {x z : FSt n (nCam + 1) nPose} {e : Step n (nCam + 1) nPose} (hz : x.step cfg e = some z) : Kept x.u z.u := by
  cases e with
  | pose m => rw [finish_kept hz]; exact preProcess_kept _ _ _
  | _ => rw [step_kept' (fun m => by simp) hz]; exact ⟨rfl, rfl, rfl, rfl⟩

/-! ### Before the first pose -/

/-- Equal apart from the pose of the world in the frame of the external poses. -/
structure Forget (x z : FSt n nCam nPose) : Prop where
  P : z.P = x.P
  u : z.u = { x.u with qWI := z.u.qWI, IrIW := z.u.IrIW }
  s : z.s = { x.s with pop := z.s.pop, poa := z.s.poa }
  other : ∀ i, x.u.inertial ≠ some i → z.s.pop i = x.s.pop i ∧ z.s.poa i = x.s.poa i

lemma Forget.inertial {x z : FSt n nCam nPose} (hf : Forget x z) : z.u.inertial = x.u.inertial := by rw [hf.u]
lemma Forget.odo {x z : FSt n nCam nPose} (hf : Forget x z) : z.s.odo = x.s.odo := by rw [hf.s]; rfl

lemma fix_forget {s t : State n nCam nPose} (hs : t = { s with pop := t.pop, poa := t.poa }) :
    Both (fun a b : State n nCam nPose => b = { a with pop := b.pop, poa := b.poa } ∧ a.pop = s.pop ∧ b.pop = t.pop ∧
      (∀ i, a.poa i = (s.poa i).fix) ∧ ∀ i, b.poa i = (t.poa i).fix) s.fix t.fix := by
  have hf : t.fea = s.fea := by rw [hs]
  unfold State.fix
  rw [hf]
  cases optAll fun i => (s.fea i).fix with
  | none => exact .none
  | some f =>
    refine .some ⟨?_, rfl, rfl, fun _ => rfl, fun _ => rfl⟩
    rw [hs]

lemma finish_forget {m : ℕ} {gate : Gate m} {v : Fin m → ℝ} {H : Matrix (Fin m) (Ix n nCam nPose) ℝ} {R : Matrix (Fin m) (Fin m) ℝ}
    {x z : FSt n nCam nPose} (hf : Forget x z) : Both Forget (x.finish gate v H R id) (z.finish gate v H R id) := by
  unfold FSt.finish
  rw [hf.P]
  cases correct gate v H R x.P with
  | none => exact .none
  | some r =>
    simp only [Option.bind_eq_bind, Option.bind_some, id]
    have hb : z.s.boxPlus (DState.ofFn r.1) = { x.s.boxPlus (DState.ofFn r.1) with pop := (z.s.boxPlus (DState.ofFn r.1)).pop, poa := (z.s.boxPlus (DState.ofFn r.1)).poa } := by
      conv_lhs => rw [hf.s]
      rfl
    have h := fix_forget hb
    revert h
    generalize (x.s.boxPlus (DState.ofFn r.1)).fix = a
    generalize (z.s.boxPlus (DState.ofFn r.1)).fix = b
    intro h
    cases h with
    | none => exact .none
    | some h =>
      refine .some ⟨rfl, hf.u, h.1, fun i hi => ?_⟩
      have ho := hf.other i hi
      rw [h.2.1, h.2.2.1, h.2.2.2.1, h.2.2.2.2]
      simp only [State.boxPlus, ho.1, ho.2, and_self]

lemma predict_forget (cfg : FCfg n nCam nPose) (m : ImuMeas) (dt : ℝ) {x z : FSt n nCam nPose} (hf : Forget x z) : Both Forget (x.predict cfg m dt) (z.predict cfg m dt) := by
  unfold FSt.predict
  have e1 : (fun b => (z.s.predJac m dt (DState.unit b)).map DState.get) = fun b => (x.s.predJac m dt (DState.unit b)).map DState.get := by rw [hf.s]; rfl
  have e2 : (fun b => (z.s.noiseJac m dt (DState.unit b)).map DState.get) = fun b => (x.s.noiseJac m dt (DState.unit b)).map DState.get := by rw [hf.s]; rfl
  rw [e1, e2]
  cases hF : colMat fun b => (x.s.predJac m dt (DState.unit b)).map DState.get with
  | none => exact .none
  | some F =>
    cases hG : colMat fun b => (x.s.noiseJac m dt (DState.unit b)).map DState.get with
    | none => exact .none
    | some G =>
      simp only [Option.bind_eq_bind, Option.bind_some]
      by_cases hdt : dt ≤ 0
      · have : ∀ s : State n nCam nPose, s.evalPrediction cfg.pred m true s (DState.ofFn 0) dt = none := fun s => by simp [State.evalPrediction, if_pos hdt]
        rw [this, this]; exact .none
      · rw [State.evalPrediction_eq hdt, State.evalPrediction_eq hdt]
        have e3 : z.s.predictFea (m.gyr - z.s.gyb + (1 / Real.sqrt dt) • (DState.ofFn 0 : DState n nCam nPose).att) dt (DState.ofFn 0) =
            x.s.predictFea (m.gyr - x.s.gyb + (1 / Real.sqrt dt) • (DState.ofFn 0 : DState n nCam nPose).att) dt (DState.ofFn 0) := by rw [hf.s]; rfl
        rw [e3]
        cases optAll (x.s.predictFea (m.gyr - x.s.gyb + (1 / Real.sqrt dt) • (DState.ofFn 0 : DState n nCam nPose).att) dt (DState.ofFn 0)) with
        | none => exact .none
        | some f =>
          simp only [Option.bind_some]
          have hb : State.rawPred cfg.pred m z.s (DState.ofFn 0) dt f = { State.rawPred cfg.pred m x.s (DState.ofFn 0) dt f with
              pop := (State.rawPred cfg.pred m z.s (DState.ofFn 0) dt f).pop, poa := (State.rawPred cfg.pred m z.s (DState.ofFn 0) dt f).poa } := by
            conv_lhs => rw [hf.s]
            rfl
          have h := fix_forget hb
          revert h
          generalize hA : (State.rawPred cfg.pred m x.s (DState.ofFn 0) dt f).fix = a
          generalize hB : (State.rawPred cfg.pred m z.s (DState.ofFn 0) dt f).fix = b
          intro h
          cases h with
          | none => exact .none
          | some h =>
            have ht : ∀ (a : State n nCam nPose) p q, State.tick cfg.pred m dt ({ a with pop := p, poa := q } : State n nCam nPose) =
                ({ State.tick cfg.pred m dt a with pop := p, poa := q } : State n nCam nPose) := fun _ _ _ => rfl
            refine .some ⟨by simp only [hf.P], hf.u, ?_, fun i hi => ?_⟩
            · dsimp only
              conv_lhs => rw [h.1, ht]
              rfl
            have ho := hf.other i hi
            simp only [State.tick]
            rw [h.2.1, h.2.2.1, h.2.2.2.1, h.2.2.2.2]
            simp only [State.rawPred, ho.1, ho.2, and_self]

lemma image_forget (cfg : FCfg n nCam nPose) (c : ImgCorr n nCam) {x z : FSt n nCam nPose} (hf : Forget x z) : Both Forget (x.image cfg c) (z.image cfg c) := by
  unfold FSt.image
  have e : ∀ δ, (z.s.withOdo c.lin).featureJac cfg.sfv true c.i c.b δ = (x.s.withOdo c.lin).featureJac cfg.sfv true c.i c.b δ :=
    fun δ => State.featureJac_withOdo _ _ _ _ _ _
  simp only [e]
  cases colMat fun b' => ((x.s.withOdo c.lin).featureJac cfg.sfv true c.i c.b (DState.unit b')).map fun r => r.1.at with
  | none => exact .none
  | some J => exact finish_forget hf

lemma step_forget (cfg : FCfg n (nCam + 1) nPose) {x z : FSt n (nCam + 1) nPose} (hf : Forget x z) {e : Step n (nCam + 1) nPose} (he : ∀ m, e ≠ .pose m) :
    Both Forget (x.step cfg e) (z.step cfg e) := by
  cases e with
  | predict m dt => exact predict_forget cfg m dt hf
  | velocity m =>
    simp only [FSt.step, FSt.velocity]
    have : velInnov cfg.qAM m z.s 0 = velInnov cfg.qAM m x.s 0 := by rw [hf.s]; rfl
    rw [this]; exact finish_forget hf
  | zeroVel tr =>
    simp only [FSt.step, FSt.zeroVel, hf.odo]
    by_cases ht : tr x.s.odo = true
    · rw [if_pos ht, if_pos ht]
      have : zeroVelInnov z.s 0 = zeroVelInnov x.s 0 := by rw [hf.s]; rfl
      rw [this]; exact finish_forget hf
    · rw [if_neg ht, if_neg ht]; exact .some hf
  | image alg =>
    simp only [FSt.step, hf.odo, hf.P]
    cases alg x.s.odo x.P.odo with
    | none => exact .some hf
    | some c => exact image_forget cfg c hf
  | manage alg =>
    simp only [FSt.step, hf.odo, hf.P]
    refine .some ⟨by simp only [FSt.manage, hf.P], hf.u, ?_, hf.other⟩
    simp only [FSt.manage]
    rw [hf.s]
  | pose m => exact absurd rfl (he m)

/-- The first pose determines the pose of the world in the frame. -/
lemma pose_forget (cfg : FCfg n (nCam + 1) nPose) {x z : FSt n (nCam + 1) nPose} (hf : Forget x z) (ha : Apart x.u) (hc : x.u.didAlign = false ∧ x.u.doAlign = true)
    (m : PoseMeas) : z.pose cfg m = x.pose cfg m := by
  have hc' : z.u.didAlign = false ∧ z.u.doAlign = true := by rw [hf.u]; exact hc
  have hp : z.u.preProcess m z.s = x.u.preProcess m x.s := by
    have h1 : z.u.getqVM z.s = x.u.getqVM x.s := by
      have hb : z.u.body = x.u.body := by rw [hf.u]
      have hq : z.u.qVM = x.u.qVM := by rw [hf.u]
      unfold PoseUpd.getqVM
      rw [hb, hq]
      cases h : x.u.body with
      | none => rfl
      | some k => exact (hf.other k fun hi => ha k hi h).2
    have h2 : z.u.getMrMV z.s = x.u.getMrMV x.s := by
      have hb : z.u.body = x.u.body := by rw [hf.u]
      have hq : z.u.MrMV = x.u.MrMV := by rw [hf.u]
      unfold PoseUpd.getMrMV
      rw [hb, hq]
      cases h : x.u.body with
      | none => rfl
      | some k => exact (hf.other k fun hi => ha k hi h).1
    have h3 : z.s.att = x.s.att := by rw [hf.s]
    have h4 : z.s.pos = x.s.pos := by rw [hf.s]
    have hal : z.u.align m z.s = x.u.align m x.s := by
      rw [align_eq m z.s hc', align_eq m x.s hc, h1, h2, h3, h4, hf.inertial]
      refine Prod.ext ?_ ?_
      · simp only
        rw [hf.u]
      · simp only
        have hpop : ∀ v : V3, (fun j => if x.u.inertial = some j then v else z.s.pop j) = fun j => if x.u.inertial = some j then v else x.s.pop j := fun v => by
          funext j
          split_ifs with hj
          · rfl
          · exact (hf.other j hj).1
        have hpoa : ∀ v : Quat, (fun j => if x.u.inertial = some j then v else z.s.poa j) = fun j => if x.u.inertial = some j then v else x.s.poa j := fun v => by
          funext j
          split_ifs with hj
          · rfl
          · exact (hf.other j hj).2
        rw [hpop, hpoa, hf.s]
    unfold PoseUpd.preProcess
    rw [hal]
  unfold FSt.pose
  rw [hp, hf.P]

end ExtFrame

end Spec

end Rovio
