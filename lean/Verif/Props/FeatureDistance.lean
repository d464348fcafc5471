import Verif.Lemmas.FeatureDistance

/-!
# Properties C01, C02, C03: the distance parametrisations
-/

namespace Rovio.Distance

/-- Specification: the distances that a parametrisation can represent (inverse: magnitudes between
one micrometre and 1000 km; logarithmic: positive ones; otherwise all). -/
def Representable : DType → ℝ → Prop
  | .regular, _ => True
  | .inverse, d => 1e-6 ≤ |d| ∧ |d| ≤ 1e6
  | .log, d => 0 < d
  | .hyperbolic, _ => True

/-- Specification: what is read back after storing `d` in the inverse parametrisation:
`d` clipped in magnitude to `[1e-6, 1e6]`, keeping the sign (zero counts as positive). -/
noncomputable def invClip (d : ℝ) : ℝ :=
  if 0 ≤ d then max (1e-6) (min d 1e6) else -(max (1e-6) (min (-d) 1e6))

/-- C01: a new distance parameter is one, in every parametrisation: a distance of one, one, `e` and `sinh 1`. -/
theorem C01_new (t : DType) : (mk' t).type = t ∧
    getDistance (mk' t) = match t with
      | .regular => 1
      | .inverse => 1
      | .log => Real.exp 1
      | .hyperbolic => Real.sinh 1 := by
  refine ⟨rfl, ?_⟩
  cases t
  · rfl
  · show 1 / makeNonZero 1 = 1
    rw [makeNonZero_of_abs_ge (by norm_num), div_one]
  · rfl
  · rfl

example : getDistance (mk' .inverse) = 1 := (C01_new .inverse).2

/-- C01: a representable distance survives storing and reading, for every type. -/
theorem C01_roundtrip (f : FeatureDistance) (d : ℝ) (h : Representable f.type d) :
    ∃ f', setParameter f d = some f' ∧ f'.type = f.type ∧ getDistance f' = d := by
  obtain ⟨t, p⟩ := f
  cases t <;> simp only [Representable] at h
  · exact ⟨_, rfl, rfl, rfl⟩
  · refine ⟨_, rfl, rfl, ?_⟩
    obtain ⟨h1, h2⟩ := h
    have hd : d ≠ 0 := by intro h; rw [h] at h1; norm_num at h1
    simp only [getDistance]
    rw [makeNonZero_of_abs_ge h1, makeNonZero_of_abs_ge, one_div_one_div]
    rw [abs_div, abs_one, le_div_iff₀ (abs_pos.mpr hd)]
    norm_num at h1 h2 ⊢; linarith
  · refine ⟨⟨.log, Real.log d⟩, ?_, rfl, ?_⟩
    · simp [setParameter, h]
    · simp [getDistance, Real.exp_log h]
  · exact ⟨_, rfl, rfl, by simp [getDistance, Real.sinh_arsinh]⟩

example : ∃ f', setParameter (mk' .inverse) 2.5 = some f' ∧ f'.type = .inverse ∧ getDistance f' = 2.5 :=
  C01_roundtrip (mk' .inverse) 2.5 (by norm_num [mk', Representable, abs_of_pos])

example : ∃ f', setParameter (mk' .log) 2.5 = some f' ∧ f'.type = .log ∧ getDistance f' = 2.5 :=
  C01_roundtrip (mk' .log) 2.5 (by norm_num [mk', Representable])

/-- C01: outside the representable range the inverse parametrisation clips the distance. -/
theorem C01_inverse_clips (f : FeatureDistance) (hf : f.type = .inverse) (d : ℝ) :
    ∃ f', setParameter f d = some f' ∧ f'.type = .inverse ∧ getDistance f' = invClip d := by
  obtain ⟨t, p⟩ := f
  simp only at hf; subst hf
  refine ⟨_, rfl, rfl, ?_⟩
  simp only [getDistance, invClip]
  rcases le_or_gt (1e-6) |d| with h1 | h1
  · rw [makeNonZero_of_abs_ge h1]
    have hd : d ≠ 0 := by intro h; rw [h] at h1; norm_num at h1
    rcases le_or_gt (1e-6) |1/d| with h2 | h2
    · rw [makeNonZero_of_abs_ge h2, one_div_one_div]
      rw [abs_div, abs_one, le_div_iff₀ (abs_pos.mpr hd)] at h2
      split_ifs with h0
      · rw [abs_of_nonneg h0] at h1 h2
        rw [min_eq_left (by norm_num at h2 ⊢; linarith), max_eq_right (by linarith)]
      · rw [abs_of_neg (not_le.mp h0)] at h1 h2
        rw [min_eq_left (by norm_num at h2 ⊢; linarith), max_eq_right (by linarith), neg_neg]
    · have h3 : 1e6 ≤ |d| := by
        rw [abs_div, abs_one, div_lt_iff₀ (abs_pos.mpr hd)] at h2
        norm_num at h2 ⊢; linarith
      split_ifs with h0
      · have hp : 0 < d := lt_of_le_of_ne h0 (Ne.symm hd)
        rw [abs_of_nonneg h0] at h3
        rw [makeNonZero_of_small_nonneg (by positivity)
          (by rw [abs_of_pos (by positivity)] at h2; exact h2.le), min_eq_right h3]
        norm_num
      · have hn : d < 0 := not_le.mp h0
        have hn' : 1 / d < 0 := one_div_neg.mpr hn
        rw [abs_of_neg hn] at h3
        rw [makeNonZero_of_small_neg hn' (by rw [abs_of_neg hn'] at h2; linarith), min_eq_right h3]
        norm_num
  · split_ifs with h0
    · rw [abs_of_nonneg h0] at h1
      rw [makeNonZero_of_small_nonneg h0 h1.le, makeNonZero_of_abs_ge (by norm_num [abs_of_pos]),
        max_eq_left]
      · norm_num
      · exact le_trans (min_le_left _ _) h1.le
    · have hn : d < 0 := not_le.mp h0
      rw [abs_of_neg hn] at h1
      rw [makeNonZero_of_small_neg hn (by linarith), makeNonZero_of_abs_ge (by norm_num [abs_of_pos]),
        max_eq_left]
      · norm_num
      · exact le_trans (min_le_left _ _) h1.le

example : ∃ f', setParameter (mk' .inverse) (-3) = some f' ∧ f'.type = .inverse ∧
    getDistance f' = invClip (-3) := C01_inverse_clips _ rfl _

/-- C01: the distance held by the inverse parametrisation is never zero and never exceeds `1e6`
in magnitude, whatever the parameter (so no division by zero can occur). -/
theorem C01_inverse_bounded (f : FeatureDistance) (hf : f.type = .inverse) :
    getDistance f ≠ 0 ∧ |getDistance f| ≤ 1e6 ∧ makeNonZero f.p ≠ 0 := by
  have h := makeNonZero_abs_ge f.p
  have h0 := makeNonZero_ne_zero f.p
  simp only [getDistance, hf]
  refine ⟨one_div_ne_zero h0, ?_, h0⟩
  rw [abs_div, abs_one, div_le_iff₀ (abs_pos.mpr h0)]
  norm_num at h ⊢; linarith

example : getDistance ⟨.inverse, 0⟩ ≠ 0 := (C01_inverse_bounded ⟨.inverse, 0⟩ rfl).1

/-- C01 (log): a non-positive distance cannot be stored logarithmically (NaN / -inf in C++). -/
theorem C01_log_nonpos (f : FeatureDistance) (hf : f.type = .log) (d : ℝ) (hd : d ≤ 0) :
    setParameter f d = none := by
  simp [setParameter, hf, not_lt.mpr hd]

example : setParameter (mk' .log) 0 = none := C01_log_nonpos _ rfl 0 le_rfl

/-- The parameter at which a type is clamped (only the inverse one is). -/
def Unclamped : DType → ℝ → Prop
  | .inverse, p => 1e-6 < |p|
  | _, _ => True

lemma hasDerivAt_one_div {p : ℝ} (hp : p ≠ 0) :
    HasDerivAt (fun q : ℝ => 1 / q) (-1 / (p * p)) p := by
  have h := hasDerivAt_inv hp
  simp only [one_div]
  exact h.congr_deriv (by field_simp)

lemma eventually_abs_gt {p : ℝ} (h : (1e-6:ℝ) < |p|) : ∀ᶠ q in nhds p, (1e-6:ℝ) < |q| :=
  (isOpen_lt continuous_const continuous_abs).mem_nhds h

/-- C02: `getDistanceDerivative` is the derivative of the distance with respect to the parameter. -/
theorem C02_distance_derivative (t : DType) (p : ℝ) (h : Unclamped t p) :
    HasDerivAt (fun q => getDistance ⟨t, q⟩) (getDistanceDerivative ⟨t, p⟩) p := by
  cases t
  · exact hasDerivAt_id p
  · have hp : p ≠ 0 := by rintro rfl; simp only [Unclamped] at h; norm_num at h
    have h1 := hasDerivAt_one_div hp
    simp only [getDistanceDerivative, makeNonZero_of_abs_ge (le_of_lt h)]
    refine h1.congr_of_eventuallyEq ?_
    filter_upwards [eventually_abs_gt h] with q hq
    simp only [getDistance, makeNonZero_of_abs_ge hq.le]
  · exact Real.hasDerivAt_exp p
  · exact Real.hasDerivAt_sinh p

example : HasDerivAt (fun q => getDistance ⟨.inverse, q⟩) (getDistanceDerivative ⟨.inverse, 0.5⟩) 0.5 :=
  C02_distance_derivative _ _ (by norm_num [Unclamped, abs_of_pos])

/-- C02: `getParameterDerivative` is the reciprocal of `getDistanceDerivative`, for every parameter. -/
theorem C02_reciprocal (f : FeatureDistance) :
    getParameterDerivative f * getDistanceDerivative f = 1 := by
  obtain ⟨t, p⟩ := f
  cases t
  · simp [getParameterDerivative, getDistanceDerivative]
  · have h0 := makeNonZero_ne_zero p
    simp only [getParameterDerivative, getDistanceDerivative]
    field_simp
  · simp only [getParameterDerivative, getDistanceDerivative]
    rw [← Real.exp_add]; simp
  · simp only [getParameterDerivative, getDistanceDerivative]
    have : Real.sinh p ^ 2 + 1 = Real.cosh p ^ 2 := by rw [Real.cosh_sq]
    rw [this, Real.sqrt_sq (Real.cosh_pos p).le]
    field_simp [(Real.cosh_pos p).ne']

/-- C02: `getParameterDerivative`, read after storing `d`, is the derivative of the stored parameter
with respect to the metric distance `d`, strictly inside the representable range. -/
theorem C02_parameter_derivative (t : DType) (p₀ d : ℝ)
    (h : match t with | .inverse => 1e-6 < |d| ∧ |d| < 1e6 | .log => 0 < d | _ => True) :
    ∃ param : ℝ → ℝ, (∀ᶠ x in nhds d, setParameter ⟨t, p₀⟩ x = some ⟨t, param x⟩) ∧
      HasDerivAt param (getParameterDerivative ⟨t, param d⟩) d := by
  cases t
  · exact ⟨id, Filter.Eventually.of_forall fun x => rfl, hasDerivAt_id d⟩
  · obtain ⟨h1, h2⟩ := h
    have hd : d ≠ 0 := by rintro rfl; norm_num at h1
    have h3 : (1e-6:ℝ) ≤ |1/d| := by
      rw [abs_div, abs_one, le_div_iff₀ (abs_pos.mpr hd)]; norm_num at h2 ⊢; linarith
    refine ⟨fun x => 1 / x, ?_, ?_⟩
    · filter_upwards [eventually_abs_gt h1] with q hq
      simp only [setParameter, makeNonZero_of_abs_ge hq.le]
    · simp only [getParameterDerivative, makeNonZero_of_abs_ge h3]
      exact (hasDerivAt_one_div hd).congr_deriv (by field_simp)
  · simp only at h
    refine ⟨Real.log, ?_, ?_⟩
    · filter_upwards [isOpen_Ioi.mem_nhds (Set.mem_Ioi.mpr h)] with q hq
      have hq' : 0 < q := hq
      simp [setParameter, hq']
    · simp only [getParameterDerivative]
      rw [Real.exp_neg, Real.exp_log h]
      exact Real.hasDerivAt_log h.ne'
  · refine ⟨Real.arsinh, Filter.Eventually.of_forall fun x => rfl, ?_⟩
    simp only [getParameterDerivative, Real.sinh_arsinh]
    refine (Real.hasDerivAt_arsinh d).congr_deriv ?_
    rw [one_div, add_comm]

example : ∃ param : ℝ → ℝ, (∀ᶠ x in nhds 2, setParameter ⟨.inverse, 1⟩ x = some ⟨.inverse, param x⟩) ∧
      HasDerivAt param (getParameterDerivative ⟨.inverse, param 2⟩) 2 :=
  C02_parameter_derivative .inverse 1 2 (by norm_num [abs_of_pos])

/-- C02: `getParameterDerivativeCombined()` is the derivative of `getParameterDerivative()` with
respect to the stored parameter. -/
theorem C02_combined_derivative (t : DType) (p : ℝ) (h : Unclamped t p) :
    HasDerivAt (fun q => getParameterDerivative ⟨t, q⟩) (getParameterDerivativeCombined ⟨t, p⟩) p := by
  cases t
  · exact hasDerivAt_const p 1
  · simp only [getParameterDerivativeCombined, makeNonZero_of_abs_ge (le_of_lt h)]
    have h1 : HasDerivAt (fun q : ℝ => -q * q) (-2 * p) p :=
      ((hasDerivAt_id' p).neg.mul (hasDerivAt_id' p)).congr_deriv (by simp; ring)
    refine h1.congr_of_eventuallyEq ?_
    filter_upwards [eventually_abs_gt h] with q hq
    simp only [getParameterDerivative, makeNonZero_of_abs_ge hq.le]
  · have := (Real.hasDerivAt_exp (-p)).comp p (hasDerivAt_neg p)
    simpa [getParameterDerivative, getParameterDerivativeCombined, Function.comp_def] using this
  · have e1 : (fun q => getParameterDerivative ⟨.hyperbolic, q⟩) = fun q => (Real.cosh q)⁻¹ := by
      ext q
      simp only [getParameterDerivative]
      rw [← Real.cosh_sq, Real.sqrt_sq (Real.cosh_pos q).le, one_div]
    rw [e1]
    have hc := Real.cosh_pos p
    have := (Real.hasDerivAt_cosh p).inv hc.ne'
    refine this.congr_deriv ?_
    simp only [getParameterDerivativeCombined]
    rw [← Real.cosh_sq]
    have e2 : (Real.cosh p ^ 2) ^ (1.5 : ℝ) = Real.cosh p ^ 3 := by
      rw [← Real.rpow_natCast, ← Real.rpow_natCast, ← Real.rpow_mul hc.le]; norm_num
    rw [e2]
    field_simp

example : HasDerivAt (fun q => getParameterDerivative ⟨.hyperbolic, q⟩)
    (getParameterDerivativeCombined ⟨.hyperbolic, 1⟩) 1 := C02_combined_derivative _ _ trivial

/-- C02, negative part: inside the clamp of the inverse parametrisation the reported derivative
(`-1e12`) is not the derivative of the distance (which is constant there). -/
theorem C02_clamped_derivative_wrong (p : ℝ) (h0 : 0 < p) (h1 : p < 1e-6) :
    HasDerivAt (fun q => getDistance ⟨.inverse, q⟩) 0 p ∧
    getDistanceDerivative ⟨.inverse, p⟩ = -1e12 := by
  constructor
  · refine (hasDerivAt_const p (1e6:ℝ)).congr_of_eventuallyEq ?_
    filter_upwards [isOpen_Ioo.mem_nhds (Set.mem_Ioo.mpr ⟨h0, h1⟩)] with q hq
    simp only [getDistance, makeNonZero_of_small_nonneg hq.1.le hq.2.le]
    norm_num
  · simp only [getDistanceDerivative, makeNonZero_of_small_nonneg h0.le h1.le]
    norm_num

example : getDistanceDerivative ⟨.inverse, 1e-7⟩ = -1e12 :=
  (C02_clamped_derivative_wrong 1e-7 (by norm_num) (by norm_num)).2

/-- C03: converting from any parametrisation to any other keeps the metric distance whenever the
target can represent it. -/
theorem C03_conversion (f other : FeatureDistance) (h : Representable f.type (getDistance other)) :
    ∃ f', setFromOther f other = some f' ∧ f'.type = f.type ∧ getDistance f' = getDistance other :=
  C01_roundtrip f (getDistance other) h

example : ∃ f', setFromOther (mk' .inverse) ⟨.log, 0⟩ = some f' ∧ f'.type = .inverse ∧
    getDistance f' = getDistance ⟨.log, 0⟩ :=
  C03_conversion _ _ (by norm_num [mk', Representable, getDistance])

/-- C03: converting there and back through a type that can represent the distance restores it. -/
theorem C03_there_and_back (f other : FeatureDistance)
    (h1 : Representable f.type (getDistance other)) (h2 : Representable other.type (getDistance other)) :
    ∃ f' o', setFromOther f other = some f' ∧ setFromOther other f' = some o' ∧
      o'.type = other.type ∧ getDistance o' = getDistance other := by
  obtain ⟨f', e1, t1, d1⟩ := C03_conversion f other h1
  obtain ⟨o', e2, t2, d2⟩ := C03_conversion other f' (d1 ▸ h2)
  exact ⟨f', o', e1, e2, t2, d2.trans d1⟩

example : ∃ f' o', setFromOther (mk' .hyperbolic) ⟨.regular, -7⟩ = some f' ∧
    setFromOther ⟨.regular, -7⟩ f' = some o' ∧ o'.type = .regular ∧ getDistance o' = getDistance ⟨.regular, -7⟩ :=
  C03_there_and_back _ _ trivial trivial

/-- C03: the integers 0, 1, 2, 3 select the regular, inverse, logarithmic and hyperbolic parametrisation, every other integer the regular one;
the stored parameter is kept. -/
theorem C03_set_type (f : FeatureDistance) (t : ℤ) :
    (setTypeInt f t).p = f.p ∧ (t = 1 → (setTypeInt f t).type = .inverse) ∧ (t = 2 → (setTypeInt f t).type = .log) ∧
    (t = 3 → (setTypeInt f t).type = .hyperbolic) ∧ (t ≠ 1 → t ≠ 2 → t ≠ 3 → (setTypeInt f t).type = .regular) := by
  unfold setTypeInt
  refine ⟨by split_ifs <;> rfl, by rintro rfl; rfl, by rintro rfl; rfl, by rintro rfl; rfl, ?_⟩
  intro h1 h2 h3
  simp [h1, h2, h3]

/-- Changing only the type tag (`setType(int)`) re-interprets the stored parameter: the distance
is *not* converted (finding: only the converting setter keeps the distance). -/
theorem C03_setType_does_not_convert :
    ∃ f : FeatureDistance, f.type = .regular ∧ getDistance (setTypeInt f 1) ≠ getDistance f := by
  refine ⟨⟨.regular, 2⟩, rfl, ?_⟩
  simp only [setTypeInt, getDistance]
  norm_num
  rw [makeNonZero_of_abs_ge (by norm_num [abs_of_pos])]
  norm_num

end Rovio.Distance
