import Verif.Model.FeatureDistance
import Mathlib.Analysis.SpecialFunctions.ExpDeriv
import Mathlib.Analysis.SpecialFunctions.Trigonometric.Deriv
import Mathlib.Analysis.SpecialFunctions.Log.Deriv
import Mathlib.Tactic.NormNum
import Mathlib.Tactic.Linarith
import Mathlib.Tactic.FieldSimp
import Mathlib.Tactic.Ring

namespace Rovio.Distance

lemma makeNonZero_of_abs_ge {p : ℝ} (h : 1e-6 ≤ |p|) : makeNonZero p = p := by
  unfold makeNonZero
  rcases le_or_gt 0 p with hp | hp
  · rw [abs_of_nonneg hp] at h
    rw [if_neg (not_lt.mpr h)]
  · rw [abs_of_neg hp] at h
    have h1 : p < 1e-6 := by norm_num at h ⊢; linarith
    rw [if_pos h1, if_neg (not_le.mpr hp), if_neg]
    push Not; linarith

lemma makeNonZero_of_small_nonneg {p : ℝ} (h0 : 0 ≤ p) (h : p ≤ 1e-6) : makeNonZero p = 1e-6 := by
  unfold makeNonZero
  split_ifs with h1 <;> linarith

lemma makeNonZero_of_small_neg {p : ℝ} (h0 : p < 0) (h : -1e-6 ≤ p) : makeNonZero p = -1e-6 := by
  unfold makeNonZero
  split_ifs <;> linarith

lemma makeNonZero_abs_ge (p : ℝ) : 1e-6 ≤ |makeNonZero p| := by
  rcases le_or_gt (1e-6) |p| with h | h
  · rwa [makeNonZero_of_abs_ge h]
  · rcases le_or_gt 0 p with hp | hp
    · rw [abs_of_nonneg hp] at h
      rw [makeNonZero_of_small_nonneg hp h.le]; exact le_abs_self _
    · rw [abs_of_neg hp] at h
      rw [makeNonZero_of_small_neg hp (by linarith), abs_neg]; exact le_abs_self _

lemma makeNonZero_ne_zero (p : ℝ) : makeNonZero p ≠ 0 := by
  have := makeNonZero_abs_ge p
  intro h; rw [h] at this; norm_num at this

end Rovio.Distance
