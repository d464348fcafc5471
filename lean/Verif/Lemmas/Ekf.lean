import Verif.Lemmas.FilterBlocks
import Mathlib.LinearAlgebra.Matrix.ToLinearEquiv

/-! # Lemmas about the correction step of the Kalman filter -/

namespace Rovio

open Matrix Spec

variable {n nCam nPose : ℕ} {m : ℕ}

/-- Specification: strictly positive noise, no direction is measured without error. -/
def Spec.StrictPos {ι : Type*} [Fintype ι] (R : Matrix ι ι ℝ) : Prop := ∀ x, x ≠ 0 → 0 < x ⬝ᵥ R.mulVec x

lemma Spec.IsCov.diagonal {ι : Type*} [Fintype ι] [DecidableEq ι] {d : ι → ℝ} (h : ∀ i, 0 ≤ d i) : IsCov (Matrix.diagonal d) := by
  refine ⟨diagonal_transpose d, fun x => ?_⟩
  simp only [dotProduct, mulVec_diagonal]
  exact Finset.sum_nonneg fun i _ => by nlinarith [h i, mul_self_nonneg (x i)]

/-- The noise of the rows that are kept, and unit noise for the rejected ones. -/
def keptR (rej : Fin m → Bool) (R : Matrix (Fin m) (Fin m) ℝ) : Matrix (Fin m) (Fin m) ℝ :=
  Matrix.of fun i j => if rej i || rej j then (if i = j then 1 else 0) else R i j

/-- Selects the rows that are kept. -/
def keepD (rej : Fin m → Bool) : Matrix (Fin m) (Fin m) ℝ := Matrix.diagonal fun i => if rej i then 0 else 1

lemma keptR_eq (rej : Fin m → Bool) (R : Matrix (Fin m) (Fin m) ℝ) :
    keptR rej R = keepD rej * R * (keepD rej)ᵀ + Matrix.diagonal fun i => if rej i then 1 else 0 := by
  ext i j
  simp only [keptR, keepD, of_apply, Matrix.add_apply, diagonal_transpose, mul_diagonal, diagonal_mul, diagonal_apply]
  by_cases hij : i = j
  · subst hij; cases rej i <;> simp
  · cases hi : rej i <;> cases hj : rej j <;> simp [hij]

lemma keptR_cov {rej : Fin m → Bool} {R : Matrix (Fin m) (Fin m) ℝ} (h : IsCov R) : IsCov (keptR rej R) := by
  rw [keptR_eq]
  exact (h.conj _).add (Spec.IsCov.diagonal fun i => by split_ifs <;> norm_num)

lemma keptR_pos {rej : Fin m → Bool} {R : Matrix (Fin m) (Fin m) ℝ} (h : StrictPos R) : StrictPos (keptR rej R) := by
  intro x hx
  rw [keptR_eq, add_mulVec, dotProduct_add, ← mulVec_mulVec, ← mulVec_mulVec]
  have e1 : x ⬝ᵥ (keepD rej).mulVec (R.mulVec ((keepD rej)ᵀ.mulVec x)) = (keepD rej).mulVec x ⬝ᵥ R.mulVec ((keepD rej).mulVec x) := by
    have ht : (keepD rej)ᵀ = keepD rej := diagonal_transpose _
    rw [dotProduct_mulVec, ← mulVec_transpose, ht]
  have e2 : x ⬝ᵥ (Matrix.diagonal fun i => if rej i then (1:ℝ) else 0).mulVec x = ∑ i, if rej i then x i * x i else 0 := by
    simp only [dotProduct, mulVec_diagonal]
    refine Finset.sum_congr rfl fun i _ => ?_
    cases rej i <;> simp
  rw [e1, e2]
  have n2 : 0 ≤ ∑ i, if rej i then x i * x i else 0 := Finset.sum_nonneg fun i _ => by split_ifs; exacts [mul_self_nonneg _, le_rfl]
  by_cases hz : (keepD rej).mulVec x = 0
  · rw [hz, mulVec_zero, dotProduct_zero, zero_add]
    refine lt_of_le_of_ne n2 fun h0 => hx ?_
    funext i
    have hi := (Finset.sum_eq_zero_iff_of_nonneg (fun i _ => by split_ifs; exacts [mul_self_nonneg _, le_rfl])).mp h0.symm i (Finset.mem_univ i)
    have hk := congrFun hz i
    simp only [keepD, mulVec_diagonal, Pi.zero_apply] at hk
    cases hr : rej i
    · simpa [hr] using hk
    · simpa [hr] using hi
  · exact add_pos_of_pos_of_nonneg (h _ hz) n2

section

variable {gate : Gate m} {y : Fin m → ℝ} {H : Matrix (Fin m) (Ix n nCam nPose) ℝ} {R : Matrix (Fin m) (Fin m) ℝ} {P : Cov n nCam nPose}

lemma innS_eq : innS gate y H R P =
    innH gate y H R P * P * (innH gate y H R P)ᵀ + keptR (gate y (H * P * Hᵀ + R)) R := by
  unfold innS innH keptR
  generalize gate y (H * P * Hᵀ + R) = rej
  have hrow : ∀ (A B : Matrix (Fin m) (Ix n nCam nPose) ℝ) i j, (A * P * Bᵀ) i j = ∑ c, (∑ b, A i b * P b c) * B j c := by
    intro A B i j
    rw [mul_apply]
    exact Finset.sum_congr rfl fun c _ => by rw [mul_apply, transpose_apply]
  ext i j
  rw [Matrix.add_apply, hrow, of_apply, of_apply]
  cases hi : rej i <;> cases hj : rej j <;> simp [hi, hj]
  rw [hrow]

lemma innS_cov (hP : IsCov P) (hR : IsCov R) : IsCov (innS gate y H R P) := by
  rw [innS_eq]; exact (hP.conj _).add (keptR_cov hR)

/-- Positive definite noise: the innovation covariance is invertible. -/
lemma innS_det (hP : IsCov P) (hR : StrictPos R) : (innS gate y H R P).det ≠ 0 := by
  intro h
  obtain ⟨v, hv, h0⟩ := exists_mulVec_eq_zero_iff.mpr h
  have h1 := (hP.conj (innH gate y H R P)).nonneg v
  have h2 := keptR_pos (rej := gate y (H * P * Hᵀ + R)) hR v hv
  have h3 : v ⬝ᵥ (innS gate y H R P).mulVec v = 0 := by rw [h0, dotProduct_zero]
  rw [innS_eq, add_mulVec, dotProduct_add] at h3
  linarith

lemma gain_S (hd : (innS gate y H R P).det ≠ 0) : gain gate y H R P * innS gate y H R P = P * (innH gate y H R P)ᵀ := by
  unfold gain
  rw [Matrix.mul_assoc, nonsing_inv_mul _ (Ne.isUnit hd), Matrix.mul_one]

/-- The corrected covariance in Joseph form. -/
lemma joseph (hP : IsCov P) (hR : IsCov R) (hd : (innS gate y H R P).det ≠ 0) :
    P - gain gate y H R P * innS gate y H R P * (gain gate y H R P)ᵀ =
      (1 - gain gate y H R P * innH gate y H R P) * P * (1 - gain gate y H R P * innH gate y H R P)ᵀ +
        gain gate y H R P * keptR (gate y (H * P * Hᵀ + R)) R * (gain gate y H R P)ᵀ := by
  have hS := (innS_cov (gate := gate) (y := y) (H := H) hP hR).symm
  have hKS := gain_S hd
  have hE := innS_eq (gate := gate) (y := y) (H := H) (R := R) (P := P)
  generalize gain gate y H R P = K at *
  generalize innH gate y H R P = A at *
  generalize keptR (gate y (H * P * Hᵀ + R)) R = Q at *
  generalize innS gate y H R P = S at *
  have h1 : K * S * Kᵀ = P * Aᵀ * Kᵀ := by rw [hKS]
  have h2 : K * A * P = K * S * Kᵀ := by
    have : (K * S * Kᵀ)ᵀ = K * S * Kᵀ := by
      rw [transpose_mul, transpose_mul, transpose_transpose, hS, Matrix.mul_assoc]
    rw [← this, h1, transpose_mul, transpose_mul, transpose_transpose, transpose_transpose, hP.symm, Matrix.mul_assoc]
  have h3 : K * A * P * (K * A)ᵀ + K * Q * Kᵀ = K * S * Kᵀ := by
    rw [hE, transpose_mul]
    simp only [Matrix.mul_add, Matrix.add_mul, Matrix.mul_assoc]
  have e : (1 - K * A) * P * (1 - K * A)ᵀ + K * Q * Kᵀ = P - K * A * P - P * (K * A)ᵀ + (K * A * P * (K * A)ᵀ + K * Q * Kᵀ) := by
    rw [transpose_sub, transpose_one]
    simp only [Matrix.sub_mul, Matrix.mul_sub, Matrix.one_mul, Matrix.mul_one]
    abel
  rw [e, h3, h2, transpose_mul, ← Matrix.mul_assoc, ← h1]
  abel

/-- A correction gives a covariance again, and removes a covariance. -/
lemma correct_cov (hP : IsCov P) (hR : IsCov R) {r : (Ix n nCam nPose → ℝ) × Cov n nCam nPose} (h : correct gate y H R P = some r) :
    IsCov r.2 ∧ IsCov (P - r.2) := by
  obtain ⟨hd, -, h2⟩ := correct_some h
  rw [h2]
  constructor
  · rw [joseph hP hR hd]
    exact (hP.conj _).add ((keptR_cov hR).conj _)
  · rw [sub_sub_cancel]
    exact (innS_cov hP hR).conj _

lemma correct_isSome (hP : IsCov P) (hR : StrictPos R) : ∃ r, correct gate y H R P = some r := by
  classical
  rw [correct_eq, if_neg (innS_det hP hR)]
  exact ⟨_, rfl⟩

end

end Rovio
