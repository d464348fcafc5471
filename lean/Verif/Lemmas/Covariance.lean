import Verif.Model.Covariance
import Verif.Spec.Covariance
import Mathlib.Tactic.FinCases

/-! # Lemmas about covariance matrices and the layout of the error vector -/

namespace Rovio

open Matrix

variable {n nCam nPose : ℕ}

namespace Spec.IsCov

variable {ι κ : Type*} [Fintype ι] [Fintype κ]

lemma add {P Q : Matrix ι ι ℝ} (hP : IsCov P) (hQ : IsCov Q) : IsCov (P + Q) := by
  refine ⟨by rw [transpose_add, hP.symm, hQ.symm], fun x => ?_⟩
  rw [add_mulVec, dotProduct_add]
  exact add_nonneg (hP.nonneg x) (hQ.nonneg x)

lemma conj {P : Matrix ι ι ℝ} (hP : IsCov P) (A : Matrix κ ι ℝ) : IsCov (A * P * Aᵀ) := by
  refine ⟨by rw [transpose_mul, transpose_mul, transpose_transpose, hP.symm, Matrix.mul_assoc], fun x => ?_⟩
  have h := hP.nonneg (Aᵀ.mulVec x)
  rw [← mulVec_mulVec, ← mulVec_mulVec, dotProduct_mulVec, vecMul_eq_mulVec_transpose]
  exact h
where
  vecMul_eq_mulVec_transpose {κ ι : Type _} [Fintype κ] [Fintype ι] (A : Matrix κ ι ℝ) (x : κ → ℝ) : x ᵥ* A = Aᵀ *ᵥ x := by
    rw [mulVec_transpose]

end Spec.IsCov

namespace Ix

lemma id_lt (a : Ix n nCam nPose) : a.id < D n nCam nPose := by
  cases a <;> simp only [id, D] <;> omega

lemma id_inj {a b : Ix n nCam nPose} (h : a.id = b.id) : a = b := by
  cases a <;> cases b <;> simp only [id] at h <;>
    first
    | (exfalso; omega)
    | (congr 1 <;> (apply Fin.ext; omega))

lemma id_surj {k : ℕ} (h : k < D n nCam nPose) : ∃ a : Ix n nCam nPose, a.id = k := by
  unfold D at h
  by_cases h1 : k < 3
  · exact ⟨pos ⟨k, h1⟩, rfl⟩
  by_cases h2 : k < 6
  · exact ⟨vel ⟨k - 3, by omega⟩, by simp only [id]; omega⟩
  by_cases h3 : k < 9
  · exact ⟨acb ⟨k - 6, by omega⟩, by simp only [id]; omega⟩
  by_cases h4 : k < 12
  · exact ⟨gyb ⟨k - 9, by omega⟩, by simp only [id]; omega⟩
  by_cases h5 : k < 15
  · exact ⟨att ⟨k - 12, by omega⟩, by simp only [id]; omega⟩
  by_cases h6 : k < 15 + 3 * nCam
  · exact ⟨vep ⟨(k - 15) / 3, by omega⟩ ⟨(k - 15) % 3, by omega⟩, by simp only [id]; omega⟩
  by_cases h7 : k < 15 + 6 * nCam
  · exact ⟨vea ⟨(k - 15 - 3 * nCam) / 3, by omega⟩ ⟨(k - 15 - 3 * nCam) % 3, by omega⟩, by simp only [id]; omega⟩
  by_cases h8 : k < 15 + 6 * nCam + 3 * n
  · by_cases h9 : (k - 15 - 6 * nCam) % 3 < 2
    · exact ⟨nor ⟨(k - 15 - 6 * nCam) / 3, by omega⟩ ⟨(k - 15 - 6 * nCam) % 3, h9⟩, by simp only [id]; omega⟩
    · exact ⟨dep ⟨(k - 15 - 6 * nCam) / 3, by omega⟩, by simp only [id]; omega⟩
  by_cases h9 : k < 15 + 6 * nCam + 3 * n + 3 * nPose
  · exact ⟨pop ⟨(k - 15 - 6 * nCam - 3 * n) / 3, by omega⟩ ⟨(k - 15 - 6 * nCam - 3 * n) % 3, by omega⟩, by simp only [id]; omega⟩
  · exact ⟨poa ⟨(k - 15 - 6 * nCam - 3 * n - 3 * nPose) / 3, by omega⟩ ⟨(k - 15 - 6 * nCam - 3 * n - 3 * nPose) % 3, by omega⟩,
      by simp only [id]; omega⟩

end Ix

namespace DState

lemma get_ofFn (v : Ix n nCam nPose → ℝ) : (ofFn v).get = v := by
  funext a
  cases a <;> simp only [get, ofFn, V3.at, V2.at] <;> first | rfl | (rename_i k; fin_cases k <;> rfl)

@[ext] lemma ext' {δ ε : DState n nCam nPose} (h : δ.get = ε.get) : δ = ε := by
  have h' := fun a => congrFun h a
  obtain ⟨p, v, ab, gb, at', vp, va, nr, dp, pp, pa⟩ := δ
  obtain ⟨p', v', ab', gb', at'', vp', va', nr', dp', pp', pa'⟩ := ε
  simp only [DState.mk.injEq]
  have e3 : ∀ u w : V3, (∀ k, u.at k = w.at k) → u = w := fun u w h => V3.ext (h 0) (h 1) (h 2)
  have e2 : ∀ u w : V2, (∀ k, u.at k = w.at k) → u = w := fun u w h => V2.ext (h 0) (h 1)
  refine ⟨e3 _ _ fun k => h' (.pos k), e3 _ _ fun k => h' (.vel k), e3 _ _ fun k => h' (.acb k), e3 _ _ fun k => h' (.gyb k),
    e3 _ _ fun k => h' (.att k), funext fun c => e3 _ _ fun k => h' (.vep c k), funext fun c => e3 _ _ fun k => h' (.vea c k),
    funext fun i => e2 _ _ fun k => h' (.nor i k), funext fun i => h' (.dep i), funext fun j => e3 _ _ fun k => h' (.pop j k),
    funext fun j => e3 _ _ fun k => h' (.poa j k)⟩

lemma ofFn_get (δ : DState n nCam nPose) : ofFn δ.get = δ := ext' (get_ofFn _)

end DState

end Rovio
