import Verif.Lemmas.Filter

/-! # Lemmas about filter runs: the block structure of covariance and Jacobians -/

namespace Rovio

open Matrix Spec Distance

variable {n nCam nPose : ℕ}

/-- Does a row belong to an additional pose? -/
def Ix.isAlign : Ix n nCam nPose → Bool
  | .pop _ _ => true
  | .poa _ _ => true
  | _ => false

namespace Ix

lemma ofOdo_inj : Function.Injective (ofOdo : Ix n nCam 0 → Ix n nCam nPose) := by
  intro a b h
  cases a with
  | pop j k => exact j.elim0
  | poa j k => exact j.elim0
  | _ =>
    cases b with
    | pop j k => exact j.elim0
    | poa j k => exact j.elim0
    | _ => simp_all [ofOdo]

lemma ofOdo_align (a : Ix n nCam 0) : (a.ofOdo : Ix n nCam nPose).isAlign = false := by
  cases a <;> first | rfl | (rename_i j _; exact j.elim0)

lemma ofOdo_surj {a : Ix n nCam nPose} (h : a.isAlign = false) : ∃ o, ofOdo o = a := by
  cases a with
  | pos k => exact ⟨.pos k, rfl⟩
  | vel k => exact ⟨.vel k, rfl⟩
  | acb k => exact ⟨.acb k, rfl⟩
  | gyb k => exact ⟨.gyb k, rfl⟩
  | att k => exact ⟨.att k, rfl⟩
  | vep c k => exact ⟨.vep c k, rfl⟩
  | vea c k => exact ⟨.vea c k, rfl⟩
  | nor i k => exact ⟨.nor i k, rfl⟩
  | dep i => exact ⟨.dep i, rfl⟩
  | pop j k => cases h
  | poa j k => cases h

lemma sum_odo {f : Ix n nCam nPose → ℝ} (h : ∀ a, a.isAlign = true → f a = 0) : ∑ a, f a = ∑ o, f (ofOdo o) := by
  symm
  apply Fintype.sum_of_injective ofOdo ofOdo_inj
  · intro a ha
    apply h
    by_contra hc
    exact ha (ofOdo_surj (by simpa using hc))
  · intro; rfl

end Ix

/-- No correlation between the odometry part and the additional poses. -/
def BlockDiag (P : Cov n nCam nPose) : Prop := ∀ a b, a.isAlign ≠ b.isAlign → P a b = 0

namespace BlockDiag

variable {P Q : Cov n nCam nPose}

lemma add (hP : BlockDiag P) (hQ : BlockDiag Q) : BlockDiag (P + Q) := fun a b h => by rw [Matrix.add_apply, hP a b h, hQ a b h, add_zero]
lemma sub (hP : BlockDiag P) (hQ : BlockDiag Q) : BlockDiag (P - Q) := fun a b h => by rw [Matrix.sub_apply, hP a b h, hQ a b h, sub_zero]
lemma smul (c : ℝ) (hP : BlockDiag P) : BlockDiag (c • P) := fun a b h => by rw [Matrix.smul_apply, hP a b h, smul_zero]
lemma tr (hP : BlockDiag P) : BlockDiag Pᵀ := fun a b h => hP b a h.symm
lemma mul (hP : BlockDiag P) (hQ : BlockDiag Q) : BlockDiag (P * Q) := fun a b h => by
  rw [mul_apply]
  refine Finset.sum_eq_zero fun c _ => ?_
  by_cases hc : a.isAlign = c.isAlign
  · rw [hQ c b (hc ▸ h), mul_zero]
  · rw [hP a c hc, zero_mul]
lemma diagonal (q : Ix n nCam nPose → ℝ) : BlockDiag (Matrix.diagonal q) := fun a b h => diagonal_apply_ne _ fun e => h (e ▸ rfl)
lemma symm (hP : BlockDiag P) : BlockDiag (symm P) := (hP.add hP.tr).smul _

end BlockDiag

/-- A product through the odometry rows only. -/
lemma mul_odo {ρ σ : Type} {A : Matrix ρ (Ix n nCam nPose) ℝ} {B : Matrix (Ix n nCam nPose) σ ℝ} {r : ρ} {c : σ}
    (h : ∀ a, a.isAlign = true → A r a = 0 ∨ B a c = 0) :
    (A * B) r c = (A.submatrix (fun x : ρ => x) Ix.ofOdo * B.submatrix Ix.ofOdo (fun x : σ => x)) r c := by
  rw [mul_apply, mul_apply]
  rw [Ix.sum_odo]
  · rfl
  · intro a ha
    rcases h a ha with h | h <;> simp [h]

namespace Cov

variable {P Q : Cov n nCam nPose}

lemma odo_add : Cov.odo (P + Q) = P.odo + Q.odo := rfl
lemma odo_sub : Cov.odo (P - Q) = P.odo - Q.odo := rfl
lemma odo_smul (c : ℝ) : Cov.odo (c • P) = c • P.odo := rfl
lemma odo_tr : Cov.odo (Pᵀ) = P.odoᵀ := rfl
lemma odo_symm : (Rovio.symm P).odo = Rovio.symm P.odo := rfl
lemma odo_mul (hP : BlockDiag P) : Cov.odo (P * Q) = P.odo * Q.odo := by
  ext a b
  simp only [Cov.odo, submatrix_apply]
  rw [mul_odo (fun c hc => .inl (hP _ _ (by rw [Ix.ofOdo_align, hc]; simp)))]
  rfl

end Cov

lemma symm_symm (P : Cov n nCam nPose) : (symm P)ᵀ = symm P := by
  unfold symm
  rw [transpose_smul, transpose_add, transpose_transpose, add_comm]

lemma symm_of_symm {P : Cov n nCam nPose} (h : Pᵀ = P) : symm P = P := by
  ext a b
  have : P b a = P a b := congrFun (congrFun h a) b
  simp only [symm, Matrix.smul_apply, Matrix.add_apply, transpose_apply, this, smul_eq_mul]
  norm_num; ring

/-! ## The correction -/

section correct

variable {m : ℕ} {gate : Gate m} {y : Fin m → ℝ} {H : Matrix (Fin m) (Ix n nCam nPose) ℝ} {R : Matrix (Fin m) (Fin m) ℝ} {P : Cov n nCam nPose}

/-- The innovation covariance after rejection. -/
def innS (gate : Gate m) (y : Fin m → ℝ) (H : Matrix (Fin m) (Ix n nCam nPose) ℝ) (R : Matrix (Fin m) (Fin m) ℝ) (P : Cov n nCam nPose) : Matrix (Fin m) (Fin m) ℝ :=
  Matrix.of fun i j => if gate y (H * P * Hᵀ + R) i || gate y (H * P * Hᵀ + R) j then (if i = j then 1 else 0) else (H * P * Hᵀ + R) i j
/-- The Jacobian after rejection. -/
def innH (gate : Gate m) (y : Fin m → ℝ) (H : Matrix (Fin m) (Ix n nCam nPose) ℝ) (R : Matrix (Fin m) (Fin m) ℝ) (P : Cov n nCam nPose) : Matrix (Fin m) (Ix n nCam nPose) ℝ :=
  Matrix.of fun i b => if gate y (H * P * Hᵀ + R) i then 0 else H i b
/-- The gain. -/
noncomputable def gain (gate : Gate m) (y : Fin m → ℝ) (H : Matrix (Fin m) (Ix n nCam nPose) ℝ) (R : Matrix (Fin m) (Fin m) ℝ) (P : Cov n nCam nPose) : Matrix (Ix n nCam nPose) (Fin m) ℝ :=
  P * (innH gate y H R P)ᵀ * (innS gate y H R P)⁻¹

open Classical in
lemma correct_eq : correct gate y H R P = if (innS gate y H R P).det = 0 then none else
    some (-((gain gate y H R P).mulVec y), P - gain gate y H R P * innS gate y H R P * (gain gate y H R P)ᵀ) := rfl

lemma correct_some {r : (Ix n nCam nPose → ℝ) × Cov n nCam nPose} (h : correct gate y H R P = some r) :
    (innS gate y H R P).det ≠ 0 ∧ r.1 = -((gain gate y H R P).mulVec y) ∧
      r.2 = P - gain gate y H R P * innS gate y H R P * (gain gate y H R P)ᵀ := by
  classical
  rw [correct_eq] at h
  by_cases hd : (innS gate y H R P).det = 0
  · rw [if_pos hd] at h; cases h
  · rw [if_neg hd, Option.some.injEq] at h
    subst h
    exact ⟨hd, rfl, rfl⟩

/-- Odometry columns of a Jacobian. -/
def colsO (H : Matrix (Fin m) (Ix n nCam nPose) ℝ) : Matrix (Fin m) (Ix n nCam 0) ℝ := H.submatrix (fun x => x) Ix.ofOdo

lemma innov_odo (hH : ∀ k b, b.isAlign = true → H k b = 0) : H * P * Hᵀ = colsO H * P.odo * (colsO H)ᵀ := by
  ext i j
  rw [mul_odo (fun a ha => .inr (hH j a ha))]
  rw [mul_apply, mul_apply]
  refine Finset.sum_congr rfl fun c _ => ?_
  congr 1
  simp only [submatrix_apply]
  rw [mul_odo (fun a ha => .inl (hH i a ha))]
  rfl

lemma innS_odo (hH : ∀ k b, b.isAlign = true → H k b = 0) : innS gate y H R P = innS gate y (colsO H) R P.odo := by
  unfold innS; rw [innov_odo hH]

lemma innH_odo (hH : ∀ k b, b.isAlign = true → H k b = 0) : colsO (innH gate y H R P) = innH gate y (colsO H) R P.odo := by
  unfold innH; rw [innov_odo hH]; rfl

lemma innH_zero {k : Fin m} {b : Ix n nCam nPose} (h : H k b = 0) : innH gate y H R P k b = 0 := by
  simp [innH, h]

lemma gain_odo (hH : ∀ k b, b.isAlign = true → H k b = 0) (a : Ix n nCam 0) (k : Fin m) :
    gain gate y H R P a.ofOdo k = gain gate y (colsO H) R P.odo a k := by
  unfold gain
  rw [innS_odo hH, mul_apply, mul_apply]
  refine Finset.sum_congr rfl fun c _ => ?_
  congr 1
  have h0 : ∀ b : Ix n nCam nPose, b.isAlign = true → P a.ofOdo b = 0 ∨ (innH gate y H R P)ᵀ b c = 0 :=
    fun b hb => .inr (innH_zero (hH c b hb))
  rw [mul_odo h0, ← innH_odo hH]
  rfl

lemma gain_zero {a : Ix n nCam nPose} (h : ∀ b k, P a b = 0 ∨ H k b = 0) (k : Fin m) : gain gate y H R P a k = 0 := by
  unfold gain
  rw [mul_apply]
  refine Finset.sum_eq_zero fun c _ => ?_
  rw [mul_apply, Finset.sum_eq_zero, zero_mul]
  intro b _
  rcases h b c with h | h
  · rw [h, zero_mul]
  · rw [transpose_apply, innH_zero h, mul_zero]

lemma quad_zero {K : Matrix (Ix n nCam nPose) (Fin m) ℝ} {S : Matrix (Fin m) (Fin m) ℝ} {a b : Ix n nCam nPose} (h : (∀ k, K a k = 0) ∨ ∀ k, K b k = 0) :
    (K * S * Kᵀ) a b = 0 := by
  rw [mul_apply]
  refine Finset.sum_eq_zero fun c _ => ?_
  rcases h with h | h
  · rw [mul_apply, Finset.sum_eq_zero, zero_mul]
    intro d _
    rw [h, zero_mul]
  · rw [transpose_apply, h, mul_zero]

/-- An update that does not read the additional poses is an update of the odometry part, and leaves the poses uncorrelated. -/
lemma correct_odo (hP : BlockDiag P) (hH : ∀ k b, b.isAlign = true → H k b = 0) :
    (correct gate y H R P).map (fun r => ((fun b => r.1 b.ofOdo : Ix n nCam 0 → ℝ), r.2.odo)) = correct gate y (colsO H) R P.odo ∧
    ∀ r, correct gate y H R P = some r → BlockDiag r.2 := by
  classical
  constructor
  · rw [correct_eq, correct_eq, innS_odo hH]
    by_cases hd : (innS gate y (colsO H) R P.odo).det = 0
    · rw [if_pos hd, if_pos hd]; rfl
    · rw [if_neg hd, if_neg hd, Option.map_some, Option.some.injEq]
      refine Prod.ext ?_ ?_
      · funext b
        simp only [Pi.neg_apply, mulVec, dotProduct, gain_odo hH]
      · ext a b
        simp only [Cov.odo, submatrix_apply, Matrix.sub_apply]
        congr 1
        simp only [mul_apply, transpose_apply, gain_odo hH]
        rfl
  · intro r hr
    obtain ⟨-, -, h2⟩ := correct_some hr
    rw [h2]
    have hz : ∀ a : Ix n nCam nPose, a.isAlign = true → ∀ k, gain gate y H R P a k = 0 := by
      intro a ha k
      refine gain_zero (fun b k => ?_) k
      by_cases hb : b.isAlign = true
      · exact .inr (hH k b hb)
      · exact .inl (hP a b (by rw [ha]; exact fun e => hb e.symm))
    refine hP.sub fun a b hab => quad_zero ?_
    cases ha : a.isAlign
    · right; apply hz; rw [ha] at hab; simpa using hab.symm
    · left; exact hz a ha

/-- An update that only reads the additional poses changes nothing else. -/
lemma correct_align (hP : BlockDiag P) (hH : ∀ k b, b.isAlign = false → H k b = 0) {r : (Ix n nCam nPose → ℝ) × Cov n nCam nPose}
    (hr : correct gate y H R P = some r) : (∀ b, b.isAlign = false → r.1 b = 0) ∧ r.2.odo = P.odo ∧ BlockDiag r.2 := by
  obtain ⟨-, h1, h2⟩ := correct_some hr
  have hz : ∀ a : Ix n nCam nPose, a.isAlign = false → ∀ k, gain gate y H R P a k = 0 := by
    intro a ha k
    refine gain_zero (fun b k => ?_) k
    by_cases hb : b.isAlign = false
    · exact .inr (hH k b hb)
    · exact .inl (hP a b (by rw [ha]; exact fun e => hb e.symm))
  refine ⟨fun b hb => ?_, ?_, ?_⟩
  · rw [h1]
    simp [mulVec, dotProduct, hz b hb]
  · rw [h2]
    ext a b
    simp only [Cov.odo, submatrix_apply, Matrix.sub_apply]
    rw [quad_zero (.inl (hz _ (Ix.ofOdo_align a))), sub_zero]
  · rw [h2]
    refine hP.sub fun a b hab => quad_zero ?_
    cases ha : a.isAlign
    · left; exact hz a ha
    · right; apply hz; rw [ha] at hab; simpa using hab.symm

end correct

end Rovio
