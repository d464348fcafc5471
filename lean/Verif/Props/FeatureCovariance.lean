import Verif.Lemmas.Covariance

/-! # C52: inserting a feature resets its covariance cleanly -/

namespace Rovio

open Matrix Spec

variable {n nCam nPose : ℕ}

/-- Specification: the components of the error vector that belong to feature slot `i`, in the order distance, bearing
(the order of the configured initial covariance). -/
def slotIx (i : Fin n) : Fin 3 → Ix n nCam nPose
  | 0 => .dep i
  | 1 => .nor i 0
  | 2 => .nor i 1

lemma feaId_dep (i : Fin n) : (Ix.dep i : Ix n nCam nPose).id = Ix.feaId n nCam nPose i + 2 := rfl
lemma feaId_nor (i : Fin n) (k : Fin 2) : (Ix.nor i k : Ix n nCam nPose).id = Ix.feaId n nCam nPose i + k := rfl

lemma not_slot {i : Fin n} {a : Ix n nCam nPose} (h : ∀ k, a ≠ slotIx i k) :
    a.id < Ix.feaId n nCam nPose i ∨ Ix.feaId n nCam nPose i + 3 ≤ a.id := by
  by_contra hc
  have h0 : a.id ≠ Ix.feaId n nCam nPose i + 2 := fun e => h 0 (Ix.id_inj (e.trans (feaId_dep i).symm))
  have h1 : a.id ≠ Ix.feaId n nCam nPose i := fun e => h 1 (Ix.id_inj (e.trans (feaId_nor i 0).symm))
  have h2 : a.id ≠ Ix.feaId n nCam nPose i + 1 := fun e => h 2 (Ix.id_inj (e.trans (feaId_nor i 1).symm))
  omega

lemma slotIx_inj {i : Fin n} {k l : Fin 3} (h : (slotIx i k : Ix n nCam nPose) = slotIx i l) : k = l := by
  fin_cases k <;> fin_cases l <;> simp [slotIx] at h ⊢

/-- The row names are the rows: no two components of the error vector share a row, and every row of the matrix belongs to
one. -/
theorem C52_layout (n nCam nPose : ℕ) :
    (∀ a b : Ix n nCam nPose, a.id = b.id → a = b) ∧ (∀ a : Ix n nCam nPose, a.id < Ix.D n nCam nPose) ∧
    ∀ k < Ix.D n nCam nPose, ∃ a : Ix n nCam nPose, a.id = k :=
  ⟨fun _ _ h => Ix.id_inj h, Ix.id_lt, fun _ h => Ix.id_surj h⟩

/-- Entries between other components are untouched, correlations of the slot with other components become zero, and the slot's
own entries are exactly the requested block. -/
theorem C52_entries (P : Cov n nCam nPose) (i : Fin n) (C : Matrix (Fin 3) (Fin 3) ℝ) :
    (∀ a b, (∀ k, a ≠ slotIx i k) → (∀ k, b ≠ slotIx i k) → P.resetFeature i C a b = P a b) ∧
    (∀ a k, (∀ k, a ≠ slotIx i k) → P.resetFeature i C a (slotIx i k) = 0 ∧ P.resetFeature i C (slotIx i k) a = 0) ∧
    (∀ k l, P.resetFeature i C (slotIx i k) (slotIx i l) = C k l) := by
  refine ⟨fun a b ha hb => ?_, fun a k ha => ⟨?_, ?_⟩, fun k l => ?_⟩
  · have ha := not_slot ha
    have hb := not_slot hb
    simp only [Cov.resetFeature, Cov.setBlock]
    repeat rw [dif_neg (by omega)]
  · have h := not_slot ha
    have hD := a.id_lt
    fin_cases k
    · have e : (slotIx i 0 : Ix n nCam nPose).id = Ix.feaId n nCam nPose i + 2 := rfl
      simp only [Fin.zero_eta, Cov.resetFeature, Cov.setBlock]
      repeat rw [dif_neg (by omega)]
      rw [dif_pos (by omega)]
    · have e : (slotIx i 1 : Ix n nCam nPose).id = Ix.feaId n nCam nPose i := rfl
      simp only [Fin.mk_one, Cov.resetFeature, Cov.setBlock]
      repeat rw [dif_neg (by omega)]
      rw [dif_pos (by omega)]
    · have e : (slotIx i 2 : Ix n nCam nPose).id = Ix.feaId n nCam nPose i + 1 := rfl
      simp only [Fin.reduceFinMk, Cov.resetFeature, Cov.setBlock]
      repeat rw [dif_neg (by omega)]
      rw [dif_pos (by omega)]
  · have h := not_slot ha
    have hD := a.id_lt
    fin_cases k
    · have e : (slotIx i 0 : Ix n nCam nPose).id = Ix.feaId n nCam nPose i + 2 := rfl
      simp only [Fin.zero_eta, Cov.resetFeature, Cov.setBlock]
      repeat rw [dif_neg (by omega)]
      rw [dif_pos (by omega)]
    · have e : (slotIx i 1 : Ix n nCam nPose).id = Ix.feaId n nCam nPose i := rfl
      simp only [Fin.mk_one, Cov.resetFeature, Cov.setBlock]
      repeat rw [dif_neg (by omega)]
      rw [dif_pos (by omega)]
    · have e : (slotIx i 2 : Ix n nCam nPose).id = Ix.feaId n nCam nPose i + 1 := rfl
      simp only [Fin.reduceFinMk, Cov.resetFeature, Cov.setBlock]
      repeat rw [dif_neg (by omega)]
      rw [dif_pos (by omega)]
  · fin_cases k <;> fin_cases l <;> simp [Cov.resetFeature, Cov.setBlock, slotIx, subBlock, feaId_dep, feaId_nor]

/-- The slots not touched, as a diagonal matrix. -/
def keepMat (i : Fin n) : Cov n nCam nPose := Matrix.diagonal fun a => if ∀ k, a ≠ slotIx i k then 1 else 0

/-- The embedding of the slot. -/
def slotMat (i : Fin n) : Matrix (Ix n nCam nPose) (Fin 3) ℝ := fun a k => if a = slotIx i k then 1 else 0

lemma resetFeature_eq (P : Cov n nCam nPose) (i : Fin n) (C : Matrix (Fin 3) (Fin 3) ℝ) :
    P.resetFeature i C = keepMat i * P * (keepMat i)ᵀ + slotMat i * C * (slotMat i)ᵀ := by
  obtain ⟨h1, h2, h3⟩ := C52_entries P i C
  ext a b
  have hk : ∀ (k l : Fin 3), ((slotIx i k : Ix n nCam nPose) = slotIx i l) ↔ k = l := fun k l => ⟨slotIx_inj, fun h => by rw [h]⟩
  have hk0 : ∀ k, ¬ ∀ l, (slotIx i k : Ix n nCam nPose) ≠ slotIx i l := fun k h => h k rfl
  simp only [keepMat, Matrix.diagonal_transpose, Matrix.add_apply, Matrix.mul_diagonal, Matrix.diagonal_mul]
  rw [Matrix.mul_apply]
  simp only [Matrix.mul_apply, slotMat, Matrix.transpose_apply]
  by_cases ha : ∀ k, a ≠ slotIx i k
  · by_cases hb : ∀ k, b ≠ slotIx i k
    · rw [h1 a b ha hb]; simp [ha, hb]
    · push Not at hb
      obtain ⟨l, rfl⟩ := hb
      rw [(h2 a l ha).1, if_neg (hk0 l)]; simp [ha]
  · push Not at ha
    obtain ⟨k, rfl⟩ := ha
    by_cases hb : ∀ k, b ≠ slotIx i k
    · rw [(h2 b k hb).2, if_neg (hk0 k)]; simp [hb]
    · push Not at hb
      obtain ⟨l, rfl⟩ := hb
      rw [h3 k l, if_neg (hk0 k)]
      simp [hk]

/-- The matrix stays symmetric and positive semi-definite. -/
theorem C52_cov {P : Cov n nCam nPose} (hP : IsCov P) (i : Fin n) {C : Matrix (Fin 3) (Fin 3) ℝ} (hC : IsCov C) :
    IsCov (P.resetFeature i C) := by
  rw [resetFeature_eq]
  exact (hP.conj _).add (hC.conj _)

/-- Inserting features into different slots in either order gives the same matrix, and the second of two insertions into the
same slot wins. -/
theorem C52_order (P : Cov n nCam nPose) {i j : Fin n} (C E : Matrix (Fin 3) (Fin 3) ℝ) :
    (i ≠ j → (P.resetFeature i C).resetFeature j E = (P.resetFeature j E).resetFeature i C) ∧
    (P.resetFeature i C).resetFeature i E = P.resetFeature i E := by
  have hne : i ≠ j → ∀ k l, (slotIx i k : Ix n nCam nPose) ≠ slotIx j l := by
    intro h k l e
    fin_cases k <;> fin_cases l <;> simp [slotIx] at e <;> exact h e
  constructor
  · intro hij
    ext a b
    obtain ⟨p1, p2, p3⟩ := C52_entries P i C
    obtain ⟨q1, q2, q3⟩ := C52_entries P j E
    obtain ⟨r1, r2, r3⟩ := C52_entries (P.resetFeature i C) j E
    obtain ⟨t1, t2, t3⟩ := C52_entries (P.resetFeature j E) i C
    have hij' := hne hij
    by_cases hai : ∀ k, a ≠ slotIx i k <;> by_cases haj : ∀ k, a ≠ slotIx j k <;>
    by_cases hbi : ∀ k, b ≠ slotIx i k <;> by_cases hbj : ∀ k, b ≠ slotIx j k
    all_goals
      first
      | rw [r1 a b haj hbj, t1 a b hai hbi, p1 a b hai hbi, q1 a b haj hbj]
      | (push Not at hai hbi; obtain ⟨k, rfl⟩ := hai; obtain ⟨l, rfl⟩ := hbi; rw [r1 _ _ haj hbj, p3, t3])
      | (push Not at haj hbj; obtain ⟨k, rfl⟩ := haj; obtain ⟨l, rfl⟩ := hbj; rw [r3, t1 _ _ hai hbi, q3])
      | (push Not at hbi; obtain ⟨l, rfl⟩ := hbi; rw [r1 _ _ haj hbj, (p2 a l hai).1, (t2 a l hai).1])
      | (push Not at hbj; obtain ⟨l, rfl⟩ := hbj; rw [(r2 a l haj).1, t1 _ _ hai hbi, (q2 a l haj).1])
      | (push Not at hai; obtain ⟨l, rfl⟩ := hai; rw [r1 _ _ haj hbj, (p2 b l hbi).2, (t2 b l hbi).2])
      | (push Not at haj; obtain ⟨l, rfl⟩ := haj; rw [(r2 b l hbj).2, t1 _ _ hai hbi, (q2 b l hbj).2])
      | (push Not at hai hbj; obtain ⟨k, rfl⟩ := hai; obtain ⟨l, rfl⟩ := hbj; rw [(r2 _ l haj).1, (t2 _ k hbi).2])
      | (push Not at haj hbi; obtain ⟨k, rfl⟩ := haj; obtain ⟨l, rfl⟩ := hbi; rw [(r2 _ k hbj).2, (t2 _ l hai).1])
      | (exfalso; push Not at hai haj; obtain ⟨k, rfl⟩ := hai; obtain ⟨l, h⟩ := haj; exact hij' k l h)
      | (exfalso; push Not at hbi hbj; obtain ⟨k, rfl⟩ := hbi; obtain ⟨l, h⟩ := hbj; exact hij' k l h)
  · ext a b
    obtain ⟨p1, p2, p3⟩ := C52_entries P i C
    obtain ⟨q1, q2, q3⟩ := C52_entries P i E
    obtain ⟨r1, r2, r3⟩ := C52_entries (P.resetFeature i C) i E
    by_cases ha : ∀ k, a ≠ slotIx i k <;> by_cases hb : ∀ k, b ≠ slotIx i k
    · rw [r1 a b ha hb, p1 a b ha hb, q1 a b ha hb]
    · push Not at hb; obtain ⟨l, rfl⟩ := hb; rw [(r2 a l ha).1, (q2 a l ha).1]
    · push Not at ha; obtain ⟨l, rfl⟩ := ha; rw [(r2 b l hb).2, (q2 b l hb).2]
    · push Not at ha hb; obtain ⟨k, rfl⟩ := ha; obtain ⟨l, rfl⟩ := hb; rw [r3, q3]

lemma isCov_one {ι : Type*} [Fintype ι] [DecidableEq ι] : IsCov (1 : Matrix ι ι ℝ) :=
  ⟨by simp, fun x => by simpa [dotProduct] using Finset.sum_nonneg fun i _ => mul_self_nonneg (x i)⟩

/-- A covariance and an initial block meeting the hypotheses of `C52_cov`, with correlations that have to disappear and an
initial block that is not diagonal: the velocity is correlated with the distance of feature 1, and no longer after the reset. -/
example : ∃ (P : Cov 2 1 0) (C : Matrix (Fin 3) (Fin 3) ℝ), IsCov P ∧ IsCov C ∧ P (.vel 0) (.dep 1) ≠ 0 ∧ C 0 1 ≠ 0 ∧
    P.resetFeature 1 C (.vel 0) (.dep 1) = 0 ∧ P.resetFeature 1 C (.dep 1) (.nor 1 0) = C 0 1 := by
  refine ⟨1 + (Matrix.of fun _ _ => 1 : Matrix _ (Fin 1) ℝ) * 1 * (Matrix.of fun _ _ => 1 : Matrix _ (Fin 1) ℝ)ᵀ, !![2, 1, 0; 1, 2, 0; 0, 0, 1],
    isCov_one.add (isCov_one.conj _), ⟨?_, fun x => ?_⟩, ?_, ?_, ((C52_entries _ 1 _).2.1 (.vel 0) 0 ?_).1, (C52_entries _ 1 _).2.2 0 1⟩
  · ext i j; fin_cases i <;> fin_cases j <;> rfl
  · simp [Matrix.mulVec, dotProduct, Fin.sum_univ_three, Matrix.of_apply]
    nlinarith [mul_self_nonneg (x 0 + x 1), mul_self_nonneg (x 0), mul_self_nonneg (x 1), mul_self_nonneg (x 2)]
  · simp [Matrix.mul_apply]
  · simp
  · intro k; fin_cases k <;> simp [slotIx]

end Rovio
