import Verif.Model.Rays
import Verif.Lemmas.Geom
import Verif.Lemmas.MultiCamera

/-! # C57: uncertainty rays -/

namespace Rovio

namespace Rays

open Distance

lemma clampRange_eq (d : ℝ) : clampRange d = max 0 (min d 1000) := by
  unfold clampRange
  by_cases h1 : d > 1000
  · simp only [h1, if_true]
    rw [if_neg (by norm_num), min_eq_right h1.le, max_eq_right (by norm_num)]
  · simp only [h1, if_false]
    rw [min_eq_left (not_lt.mp h1)]
    by_cases h2 : d < 0
    · rw [if_pos h2, max_eq_left h2.le]
    · rw [if_neg h2, max_eq_right (not_lt.mp h2)]

lemma clampRange_mono {a b : ℝ} (h : a ≤ b) : clampRange a ≤ clampRange b := by
  rw [clampRange_eq, clampRange_eq]; exact max_le_max le_rfl (min_le_min h le_rfl)

lemma clampRange_id {d : ℝ} (h0 : 0 ≤ d) (h1 : d ≤ 1000) : clampRange d = d := by
  rw [clampRange_eq, min_eq_left h1, max_eq_right h0]

lemma ends_eq (f : FeatureDistance) (σ : ℝ) (hσ : 0 ≤ σ) :
    ends f (σ ^ 2) = some (clampRange (getDistance ⟨f.type, f.p - 3 * σ⟩), clampRange (getDistance ⟨f.type, f.p + 3 * σ⟩)) := by
  unfold ends
  rw [if_neg (not_lt.mpr (by positivity)), Real.sqrt_sq hσ]
  simp only
  rw [show f.p - 3 * σ + 2 * 3 * σ = f.p + 3 * σ by ring]

lemma getDistance_mono {t : DType} (ht : t ≠ .inverse) {p q : ℝ} (h : p ≤ q) : getDistance ⟨t, p⟩ ≤ getDistance ⟨t, q⟩ := by
  cases t with
  | regular => exact h
  | inverse => exact absurd rfl ht
  | log => exact Real.exp_le_exp.mpr h
  | hyperbolic => exact Real.sinh_le_sinh.mpr h

lemma makeNonZero_of_nonneg {p : ℝ} (h : 0 ≤ p) : makeNonZero p = max p 1e-6 := by
  unfold makeNonZero
  by_cases h1 : p < 1e-6
  · rw [if_pos h1, if_pos h, max_eq_right h1.le]
  · rw [if_neg h1, max_eq_left (not_lt.mp h1)]

lemma getDistance_anti {p q : ℝ} (h0 : 0 ≤ p) (h : p ≤ q) : getDistance ⟨.inverse, q⟩ ≤ getDistance ⟨.inverse, p⟩ := by
  simp only [getDistance]
  rw [makeNonZero_of_nonneg h0, makeNonZero_of_nonneg (h0.trans h)]
  exact one_div_le_one_div_of_le (lt_of_lt_of_le (by norm_num) (le_max_right _ _)) (max_le_max h le_rfl)

/-- For regular, logarithmic and hyperbolic distances: if the estimated distance lies in the drawable range, the ends of the ray,
taken at three standard deviations, enclose it, they stay in the range, and a larger uncertainty never gives a shorter ray. -/
theorem C57_bracket (f : FeatureDistance) (ht : f.type ≠ .inverse) (σ : ℝ) (hσ : 0 ≤ σ) (h0 : 0 ≤ getDistance f) (h1 : getDistance f ≤ 1000) :
    ∃ lo hi, ends f (σ ^ 2) = some (lo, hi) ∧ 0 ≤ lo ∧ lo ≤ getDistance f ∧ getDistance f ≤ hi ∧ hi ≤ 1000 ∧
      (∀ σ' lo' hi', σ ≤ σ' → ends f (σ' ^ 2) = some (lo', hi') → lo' ≤ lo ∧ hi ≤ hi') := by
  refine ⟨_, _, ends_eq f σ hσ, ?_, ?_, ?_, ?_, ?_⟩
  · rw [clampRange_eq]; exact le_max_left _ _
  · calc clampRange (getDistance ⟨f.type, f.p - 3 * σ⟩) ≤ clampRange (getDistance f) :=
          clampRange_mono (getDistance_mono (p := f.p - 3 * σ) (q := f.p) ht (by linarith))
      _ = getDistance f := clampRange_id h0 h1
  · calc getDistance f = clampRange (getDistance f) := (clampRange_id h0 h1).symm
      _ ≤ _ := clampRange_mono (getDistance_mono (p := f.p) (q := f.p + 3 * σ) ht (by linarith))
  · rw [clampRange_eq]; exact max_le (by norm_num) (min_le_right _ _)
  · intro σ' lo' hi' hs he
    rw [ends_eq f σ' (hσ.trans hs)] at he
    simp only [Option.some.injEq, Prod.mk.injEq] at he
    obtain ⟨rfl, rfl⟩ := he
    exact ⟨clampRange_mono (getDistance_mono ht (by linarith)), clampRange_mono (getDistance_mono ht (by linarith))⟩

/-- For inverse distances the same holds, with the two ends exchanged, as long as three standard deviations below the parameter is
not negative. -/
theorem C57_bracket_inverse (f : FeatureDistance) (ht : f.type = .inverse) (σ : ℝ) (hσ : 0 ≤ σ) (hp : 3 * σ ≤ f.p) (h1 : getDistance f ≤ 1000) :
    ∃ hi lo, ends f (σ ^ 2) = some (hi, lo) ∧ 0 ≤ lo ∧ lo ≤ getDistance f ∧ getDistance f ≤ hi ∧ hi ≤ 1000 := by
  have hp0 : 0 ≤ f.p := le_trans (by linarith) hp
  have hf : f = ⟨.inverse, f.p⟩ := by cases f; simp only at ht; subst ht; rfl
  have h0 : 0 ≤ getDistance f := by
    rw [hf]; simp only [getDistance]
    rw [makeNonZero_of_nonneg hp0]
    have : (0 : ℝ) < max f.p 1e-6 := lt_of_lt_of_le (by norm_num) (le_max_right _ _)
    positivity
  refine ⟨_, _, ends_eq f σ hσ, ?_, ?_, ?_, ?_⟩
  · rw [clampRange_eq]; exact le_max_left _ _
  · calc clampRange (getDistance ⟨f.type, f.p + 3 * σ⟩) ≤ clampRange (getDistance f) := by
          apply clampRange_mono
          rw [ht]; conv_rhs => rw [hf]
          exact getDistance_anti hp0 (by linarith)
      _ = getDistance f := clampRange_id h0 h1
  · calc getDistance f = clampRange (getDistance f) := (clampRange_id h0 h1).symm
      _ ≤ _ := by
          apply clampRange_mono
          rw [ht]; conv_lhs => rw [hf]
          exact getDistance_anti (by linarith) (by linarith)
  · rw [clampRange_eq]; exact max_le (by norm_num) (min_le_right _ _)

/-- Finding: for an inverse distance whose parameter is less than three standard deviations above zero, both ends of the ray are
closer than the estimated distance: the far end, which should be at infinity, is drawn at the camera. -/
theorem C57_finding_inverse (f : FeatureDistance) (ht : f.type = .inverse) (σ : ℝ) (hσ : 0 ≤ σ) (hp : f.p < 3 * σ) (hp0 : 1e-6 ≤ f.p)
    (h1 : getDistance f ≤ 1000) : ∃ near, ends f (σ ^ 2) = some (0, near) ∧ near < getDistance f ∧ 0 < getDistance f := by
  have hf : f = ⟨.inverse, f.p⟩ := by cases f; simp only at ht; subst ht; rfl
  have hpos : 0 < f.p := lt_of_lt_of_le (by norm_num) hp0
  have hd : getDistance f = 1 / f.p := by
    rw [hf]; simp only [getDistance]
    rw [makeNonZero_of_nonneg hpos.le, max_eq_left hp0]
  have hσ' : 0 < σ := by linarith
  refine ⟨clampRange (getDistance ⟨f.type, f.p + 3 * σ⟩), ?_, ?_, by rw [hd]; positivity⟩
  · rw [ends_eq f σ hσ]
    congr 2
    have hneg : getDistance ⟨f.type, f.p - 3 * σ⟩ ≤ 0 := by
      rw [ht]; simp only [getDistance]
      have : makeNonZero (f.p - 3 * σ) < 0 := by
        unfold makeNonZero
        rw [if_pos (by linarith [show (0:ℝ) < 1e-6 by norm_num]), if_neg (by linarith)]
        split_ifs
        · norm_num
        · linarith
      exact (one_div_neg.mpr this).le
    rw [clampRange_eq, max_eq_left (le_trans (min_le_left _ _) hneg)]
  · rw [ht]
    have hq : getDistance ⟨.inverse, f.p + 3 * σ⟩ = 1 / (f.p + 3 * σ) := by
      simp only [getDistance]
      rw [makeNonZero_of_nonneg (by linarith), max_eq_left (by linarith)]
    rw [hq, hd]
    have h2 : 1 / (f.p + 3 * σ) < 1 / f.p := one_div_lt_one_div_of_lt hpos (by linarith)
    rw [hd] at h1
    rw [clampRange_id (by positivity) (h2.le.trans h1)]
    exact h2

/-- The drawn segment contains the estimated point, in the coordinates of the feature's camera: whenever the ends enclose the
distance, the point at the estimated distance along the bearing is a convex combination of the two published points. -/
theorem C57_segment (f : FeatureDistance) (bearing : V3) (σ : ℝ) (hσ : 0 ≤ σ) (h0 : 0 ≤ getDistance f) (h1 : getDistance f ≤ 1000)
    (hi : f.type = .inverse → 3 * σ ≤ f.p) :
    ∃ a b, points bearing f (σ ^ 2) = some (a, b) ∧ ∃ c : ℝ, 0 ≤ c ∧ c ≤ 1 ∧ getDistance f • bearing = c • a + (1 - c) • b := by
  have key : ∀ x y d : ℝ, (x ≤ d ∧ d ≤ y ∨ y ≤ d ∧ d ≤ x) → ∃ c : ℝ, 0 ≤ c ∧ c ≤ 1 ∧ d = c * x + (1 - c) * y := by
    intro x y d h
    by_cases hxy : x = y
    · subst hxy
      exact ⟨0, le_rfl, zero_le_one, by rcases h with h | h <;> linarith⟩
    · have hne : y - x ≠ 0 := sub_ne_zero.mpr (Ne.symm hxy)
      refine ⟨(y - d) / (y - x), ?_, ?_, by field_simp; ring⟩
      · rcases h with ⟨ha, hb⟩ | ⟨ha, hb⟩
        · exact div_nonneg (by linarith) (by linarith)
        · exact div_nonneg_of_nonpos (by linarith) (by linarith)
      · rcases h with ⟨ha, hb⟩ | ⟨ha, hb⟩
        · exact div_le_one_of_le₀ (by linarith) (by linarith)
        · rw [div_le_one_of_neg (lt_of_le_of_ne (by linarith) hne)]; linarith
  have hE : ∃ e₁ e₂, ends f (σ ^ 2) = some (e₁, e₂) ∧ (e₁ ≤ getDistance f ∧ getDistance f ≤ e₂ ∨ e₂ ≤ getDistance f ∧ getDistance f ≤ e₁) := by
    by_cases ht : f.type = .inverse
    · obtain ⟨a, b, e, _, g1, g2, _⟩ := C57_bracket_inverse f ht σ hσ (hi ht) h1
      exact ⟨a, b, e, Or.inr ⟨g1, g2⟩⟩
    · obtain ⟨a, b, e, _, g1, g2, _, _⟩ := C57_bracket f ht σ hσ h0 h1
      exact ⟨a, b, e, Or.inl ⟨g1, g2⟩⟩
  obtain ⟨e₁, e₂, he, hor⟩ := hE
  obtain ⟨c, c0, c1, hc⟩ := key e₂ e₁ (getDistance f) hor.symm
  refine ⟨e₂ • bearing, e₁ • bearing, by simp [points, he], c, c0, c1, ?_⟩
  conv_lhs => rw [hc]
  ext <;> simp <;> ring

/-- Non-vacuity: a logarithmic distance of one and an inverse distance of two with standard deviation one tenth. -/
example : getDistance ⟨.log, 0⟩ = 1 ∧ getDistance ⟨.inverse, 0.5⟩ = 2 ∧ 3 * (0.1 : ℝ) ≤ 0.5 ∧ (0.5 : ℝ) < 3 * 0.2 ∧ 1e-6 ≤ (0.5 : ℝ) := by
  refine ⟨by simp [getDistance], ?_, by norm_num, by norm_num, by norm_num⟩
  simp only [getDistance]
  rw [makeNonZero_of_nonneg (by norm_num), max_eq_left (by norm_num)]; norm_num

/-- Finding: the marker message is announced in the IMU frame but the points are in the coordinates of the feature's camera: with a
camera mounted one metre to the side the ray is drawn one metre off. -/
theorem C57_finding_frame : ∃ (BrBC : V3) (qCB : Quat) (f : FeatureDistance), qCB.IsUnit ∧
    ∀ (bearing : V3), ∃ a b, points bearing f 0 = some (a, b) ∧ a = b ∧
      a - (BrBC + qCB.inv.rotate (getDistance f • bearing)) = ⟨-1, 0, 0⟩ := by
  refine ⟨⟨1, 0, 0⟩, Quat.one, ⟨.regular, 1⟩, Quat.isUnit_one, fun bearing => ?_⟩
  have he := ends_eq ⟨.regular, 1⟩ 0 le_rfl
  simp only [getDistance, mul_zero, sub_zero, add_zero] at he
  rw [clampRange_id zero_le_one (by norm_num)] at he
  rw [show (0 : ℝ) ^ 2 = 0 by norm_num] at he
  refine ⟨(1 : ℝ) • bearing, (1 : ℝ) • bearing, by simp [points, he], rfl, ?_⟩
  simp only [getDistance]
  rw [show (Quat.one).inv = Quat.one by simp [Quat.inv, Quat.one], Quat.rotate_one]
  ext <;> simp

end Rays

end Rovio
