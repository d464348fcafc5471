import Verif.Model.ImgInnov
import Verif.Lemmas.Ekf
import Verif.Props.Alignment

/-!
# Property C80: the direct update with reduced equations is the update with all pixel equations
-/

namespace Rovio

open Spec Distance Matrix

variable {n nCam nPose : ℕ}

section

variable {ι κ : Type*} [Fintype ι] [DecidableEq ι] [Fintype κ] [DecidableEq κ]

omit [DecidableEq κ] in
lemma dot_self_zero {v : κ → ℝ} (h : v ⬝ᵥ v = 0) : v = 0 := by
  funext i
  have := (Finset.sum_eq_zero_iff_of_nonneg (fun i _ => mul_self_nonneg (v i))).mp h i (Finset.mem_univ _)
  exact mul_self_eq_zero.mp this

/-- The information matrix seen from the state side. -/
def infoW (N P : Matrix ι ι ℝ) (σ : ℝ) : Matrix ι ι ℝ := N * P + σ • (1 : Matrix ι ι ℝ)

lemma infoW_det {P : Matrix ι ι ℝ} (hP : IsCov P) (H : Matrix κ ι ℝ) {σ : ℝ} (hσ : 0 < σ) : (infoW (Hᵀ * H) P σ).det ≠ 0 := by
  intro h
  obtain ⟨x, hx, h0⟩ := exists_mulVec_eq_zero_iff.mpr h
  apply hx
  have e : Hᵀ.mulVec (H.mulVec (P.mulVec x)) + σ • x = 0 := by
    rw [← h0, infoW, add_mulVec, ← mulVec_mulVec, ← mulVec_mulVec, smul_mulVec, one_mulVec]
  have h1 : H.mulVec (P.mulVec x) ⬝ᵥ H.mulVec (P.mulVec x) + σ * (x ⬝ᵥ P.mulVec x) = 0 := by
    have := congrArg (fun v => P.mulVec x ⬝ᵥ v) e
    simp only [dotProduct_add, dotProduct_smul, dotProduct_zero, smul_eq_mul] at this
    rw [dotProduct_mulVec, vecMul_transpose, dotProduct_comm (P.mulVec x) x] at this
    exact this
  have h2 : 0 ≤ H.mulVec (P.mulVec x) ⬝ᵥ H.mulVec (P.mulVec x) := Finset.sum_nonneg fun i _ => mul_self_nonneg _
  have h3 := mul_nonneg hσ.le (hP.nonneg x)
  have h4 : H.mulVec (P.mulVec x) = 0 := (dot_self_zero (by linarith))
  rw [h4, mulVec_zero, zero_add] at e
  exact (smul_eq_zero.mp e).resolve_left hσ.ne'

/-- Push-through identity. -/
lemma push_through {P : Matrix ι ι ℝ} (hP : IsCov P) (H : Matrix κ ι ℝ) {σ : ℝ} (hσ : 0 < σ) (hd : (H * P * Hᵀ + σ • (1 : Matrix κ κ ℝ)).det ≠ 0) :
    Hᵀ * (H * P * Hᵀ + σ • (1 : Matrix κ κ ℝ))⁻¹ = (infoW (Hᵀ * H) P σ)⁻¹ * Hᵀ := by
  set S := H * P * Hᵀ + σ • (1 : Matrix κ κ ℝ) with hS
  set W := infoW (Hᵀ * H) P σ with hW
  have e : W * Hᵀ = Hᵀ * S := by
    rw [hW, hS, infoW, Matrix.add_mul, Matrix.mul_add, Matrix.smul_mul, Matrix.mul_smul, Matrix.one_mul, Matrix.mul_one]
    simp only [Matrix.mul_assoc]
  have hWd := infoW_det hP H hσ
  calc Hᵀ * S⁻¹ = (W⁻¹ * W) * Hᵀ * S⁻¹ := by rw [nonsing_inv_mul _ (Ne.isUnit hWd), Matrix.one_mul]
    _ = W⁻¹ * (Hᵀ * S) * S⁻¹ := by rw [Matrix.mul_assoc W⁻¹, e]
    _ = W⁻¹ * Hᵀ * (S * S⁻¹) := by simp only [Matrix.mul_assoc]
    _ = W⁻¹ * Hᵀ := by rw [mul_nonsing_inv _ (Ne.isUnit hd), Matrix.mul_one]

end

lemma strictPos_smul_one {m : ℕ} {σ : ℝ} (hσ : 0 < σ) : StrictPos (σ • (1 : Matrix (Fin m) (Fin m) ℝ)) := by
  intro x hx
  rw [smul_mulVec, one_mulVec, dotProduct_smul, smul_eq_mul]
  refine mul_pos hσ (lt_of_le_of_ne (Finset.sum_nonneg fun i _ => mul_self_nonneg _) fun h => hx ?_)
  exact dot_self_zero h.symm

/-- An accepted correction with isotropic noise depends only on the normal equations. -/
lemma correct_info {m : ℕ} {gate : Gate m} (hg : ∀ y S k, gate y S k = false) (y : Fin m → ℝ) (H : Matrix (Fin m) (Ix n nCam nPose) ℝ) {σ : ℝ} (hσ : 0 < σ)
    {P : Cov n nCam nPose} (hP : IsCov P) : correct gate y H (σ • 1) P =
      some (-((P * (infoW (Hᵀ * H) P σ)⁻¹).mulVec (Hᵀ.mulVec y)), P - P * (infoW (Hᵀ * H) P σ)⁻¹ * (Hᵀ * H) * P) := by
  classical
  have hd := innS_det (gate := gate) (y := y) (H := H) hP (strictPos_smul_one (m := m) hσ)
  have hS : innS gate y H (σ • 1) P = H * P * Hᵀ + σ • (1 : Matrix (Fin m) (Fin m) ℝ) := by
    ext i j; simp [innS, hg]
  have hH : (Matrix.of fun i b => if gate y (H * P * Hᵀ + σ • 1) i then 0 else H i b) = H := by
    ext i j; simp [hg]
  have hS' : (Matrix.of fun i j => if gate y (H * P * Hᵀ + σ • 1) i || gate y (H * P * Hᵀ + σ • 1) j then (if i = j then 1 else 0)
      else (H * P * Hᵀ + σ • (1 : Matrix (Fin m) (Fin m) ℝ)) i j) = H * P * Hᵀ + σ • (1 : Matrix (Fin m) (Fin m) ℝ) := by
    ext i j; simp [hg]
  rw [hS] at hd
  unfold correct
  simp only [hS', hH]
  rw [if_neg hd]
  have hp := push_through hP H hσ hd
  set S := H * P * Hᵀ + σ • (1 : Matrix (Fin m) (Fin m) ℝ)
  have hSt : Sᵀ = S := by
    simp only [S, transpose_add, transpose_mul, transpose_transpose, hP.symm, transpose_smul, transpose_one, Matrix.mul_assoc]
  have hK : P * Hᵀ * S⁻¹ = P * (infoW (Hᵀ * H) P σ)⁻¹ * Hᵀ := by rw [Matrix.mul_assoc, hp, Matrix.mul_assoc]
  congr 2
  · rw [hK, mulVec_mulVec]
  · rw [Matrix.mul_assoc (P * Hᵀ) S⁻¹ S, nonsing_inv_mul _ (Ne.isUnit hd), Matrix.mul_one, transpose_mul, transpose_nonsing_inv, hSt, transpose_mul,
      transpose_transpose, hP.symm, ← Matrix.mul_assoc, hK]
    simp only [Matrix.mul_assoc]

/-- C80: a direct update of the filter with the two reduced equations gives the same estimate and the same covariance as the update with all pixel
equations of the patch, when both are accepted: `A`, `b` are the pixel equations, `Ar`, `br` the reduced ones, `cJ` the projection Jacobian and `w` the
bearing displacement between the estimate and the linearisation point (iterated updates; zero in the first iteration). -/
theorem C80_direct_full_patch (cfg : FCfg n nCam nPose) (x : FSt n nCam nPose) (hP : IsCov x.P) {m : ℕ} (hm : 2 ≤ m) (A : Matrix (Fin m) (Fin 2) ℝ)
    (b : Fin m → ℝ) (d : Align.QR m) (hd : d.Decomposes A) (Ar : Matrix (Fin 2) (Fin 2) ℝ) (br : Fin 2 → ℝ) (hr : Align.reduced d b = some (Ar, br))
    (i : Fin n) (cam : Fin nCam) (lin : State n nCam 0) (cJ : Matrix (Fin 2) (Fin 2) ℝ) (w : Fin 2 → ℝ) (σ : ℝ) (hσ : 0 < σ)
    (g2 : Gate 2) (gm : Gate m) (h2 : ∀ y S k, g2 y S k = false) (hgm : ∀ y S k, gm y S k = false) :
    x.image cfg { m := 2, i := i, b := cam, lin := lin, A := -(Ar * cJ), y := br + (-(Ar * cJ)).mulVec w, R := σ • 1, gate := g2 } =
    x.image cfg { m := m, i := i, b := cam, lin := lin, A := -(A * cJ), y := b + (-(A * cJ)).mulVec w, R := σ • 1, gate := gm } := by
  obtain ⟨Ar', br', e, hAA, hAb, -⟩ := C68_reduced_same_problem d A b hd hm
  obtain ⟨rfl, rfl⟩ : Ar' = Ar ∧ br' = br := by
    rw [hr, Option.some.injEq, Prod.mk.injEq] at e; exact ⟨e.1.symm, e.2.symm⟩
  unfold FSt.image
  simp only
  congr 1
  funext J
  unfold FSt.finish
  rw [correct_info h2 _ _ hσ hP, correct_info hgm _ _ hσ hP]
  have hHH : ∀ {k : ℕ} (B : Matrix (Fin k) (Fin 2) ℝ), (-(B * cJ) * J)ᵀ * (-(B * cJ) * J) = Jᵀ * cJᵀ * (Bᵀ * B) * cJ * J := by
    intro k B
    simp only [transpose_mul, transpose_neg, Matrix.neg_mul, Matrix.mul_neg, neg_neg, Matrix.mul_assoc]
  have hHy : ∀ {k : ℕ} (B : Matrix (Fin k) (Fin 2) ℝ) (v : Fin k → ℝ), (-(B * cJ) * J)ᵀ.mulVec (v + (-(B * cJ)).mulVec w) =
      -((Jᵀ * cJᵀ).mulVec (Bᵀ.mulVec v)) + (Jᵀ * cJᵀ * (Bᵀ * B) * cJ).mulVec w := by
    intro k B v
    rw [mulVec_add, mulVec_mulVec, mulVec_mulVec]
    simp only [transpose_mul, transpose_neg, Matrix.neg_mul, Matrix.mul_neg, neg_neg, Matrix.mul_assoc, neg_mulVec]
  rw [hHH, hHH, hHy, hHy, hAA, hAb]

/-- Non-vacuity: a patch of three pixel equations, reduced with a column swap. -/
example : (⟨1, !![3, 1; 7, 2; 9, 9], Equiv.swap 0 1⟩ : Align.QR 3).Decomposes !![1, 3; 2, 0; 0, 0] ∧
    ∃ Ar br, Align.reduced (⟨1, !![3, 1; 7, 2; 9, 9], Equiv.swap 0 1⟩ : Align.QR 3) ![1, 2, 3] = some (Ar, br) := by
  refine ⟨⟨by simp, ?_⟩, _, _, rfl⟩
  · ext i j
    rw [Matrix.one_mul]
    fin_cases i <;> fin_cases j <;> simp [Align.QR.P, Align.QR.upper, Matrix.mul_apply]

end Rovio
