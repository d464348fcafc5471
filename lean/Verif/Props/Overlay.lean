import Verif.Model.Overlay
import Verif.Spec.Overlay
import Verif.Lemmas.Geom
import Verif.Props.Ypr
import Verif.Props.FeatureCoordinates

/-!
# C111: the artificial horizon and the uncertainty ellipse drawn over the camera image
-/

namespace Rovio.Overlay

open Rovio.Spec

/-! ### Lemmas -/

lemma truncZ_near (x : ℝ) : |(truncZ x : ℝ) - x| < 1 := by
  unfold truncZ
  split
  · rw [abs_lt]; constructor <;> linarith [Int.floor_le x, Int.lt_floor_add_one x]
  · rw [abs_lt]; constructor <;> linarith [Int.le_ceil x, Int.ceil_lt_add_one x]

lemma truncZ_mono {x y : ℝ} (h : x ≤ y) : truncZ x ≤ truncZ y := by
  unfold truncZ
  split <;> split
  · exact Int.floor_le_floor h
  · linarith
  · have h1 : ⌈x⌉ ≤ 0 := Int.ceil_le.2 (by push_cast; linarith)
    have h2 : 0 ≤ ⌊y⌋ := Int.floor_nonneg.2 (by linarith)
    linarith
  · exact Int.ceil_le_ceil h

lemma truncZ_span {x y : ℝ} (h : y ≤ x + 360) (hxy : x ≤ y) : truncZ y ≤ truncZ x + 360 := by
  have key : (truncZ y : ℝ) < truncZ x + 361 := by
    unfold truncZ
    split <;> split
    · linarith [Int.floor_le y, Int.lt_floor_add_one x]
    · linarith [Int.floor_le y, Int.le_ceil x]
    · linarith
    · linarith [Int.ceil_lt_add_one y, Int.le_ceil x]
  have : truncZ y < truncZ x + 361 := by exact_mod_cast key
  omega

lemma cInt_small {x : ℝ} (h : |x| ≤ 1000) : cInt x = some (truncZ x) := by
  have h1 := abs_lt.1 (truncZ_near x)
  have h2 := abs_le.1 h
  unfold cInt
  rw [if_pos]
  constructor
  · have : ((-2147483648 : ℤ) : ℝ) ≤ truncZ x := by push_cast; linarith [h1.1, h2.1]
    exact_mod_cast this
  · have : (truncZ x : ℝ) ≤ ((2147483647 : ℤ) : ℝ) := by push_cast; linarith [h1.2, h2.2]
    exact_mod_cast this

section horizon

variable {n nCam nPose : ℕ} {s : State n nCam nPose} {cam : Fin nCam}

lemma vg_z (ha : s.att.IsUnit) (hq : (s.qCM cam).IsUnit) :
    (vg s cam).z = -(s.att.rotate ((s.qCM cam).inv.rotate ⟨0, 0, 1⟩)).z := by
  have h1 := Quat.dot_rotate (q := s.qCM cam) hq ((s.qCM cam).inv.rotate ⟨0, 0, 1⟩) (s.att.inv.rotate ⟨0, 0, -1⟩)
  have h2 := Quat.dot_rotate (q := s.att) ha ((s.qCM cam).inv.rotate ⟨0, 0, 1⟩) (s.att.inv.rotate ⟨0, 0, -1⟩)
  rw [Quat.rotate_rotate_inv hq] at h1
  rw [Quat.rotate_rotate_inv ha] at h2
  rw [← h2] at h1
  unfold vg
  rw [Quat.rotate_mul]
  simpa [V3.dot] using h1

lemma vg_norm (ha : s.att.IsUnit) (hq : (s.qCM cam).IsUnit) : (vg s cam).x ^ 2 + (vg s cam).y ^ 2 + (vg s cam).z ^ 2 = 1 := by
  have h : (vg s cam).normSq = 1 := by
    unfold vg
    rw [Quat.rotate_mul, Quat.normSq_rotate hq, Quat.normSq_rotate (by simpa [Quat.IsUnit, Quat.normSq, Quat.inv] using ha)]
    norm_num [V3.normSq]
  exact h

lemma arc_iff {p u : ℝ} (h1 : -1 ≤ p) (h2 : p ≤ 1) (hl : -Real.arccos p ≤ u) (hu : u < 2 * Real.pi - Real.arccos p) :
    u ≤ Real.arccos p ↔ p ≤ Real.cos u := by
  have hw := Real.arccos_nonneg p
  have hw' := Real.arccos_le_pi p
  have hc : Real.cos (Real.arccos p) = p := Real.cos_arccos h1 h2
  constructor
  · intro h
    have : |u| ≤ Real.arccos p := abs_le.2 ⟨hl, h⟩
    rw [← Real.cos_abs u]
    nth_rewrite 1 [← hc]
    exact Real.cos_le_cos_of_nonneg_of_le_pi (abs_nonneg u) hw' this
  · intro h
    by_contra hn
    push Not at hn
    have : Real.cos u < p := by
      rcases le_total u Real.pi with hp | hp
      · have := Real.cos_lt_cos_of_nonneg_of_le_pi hw hp hn
        rwa [hc] at this
      · have := Real.cos_lt_cos_of_nonneg_of_le_pi (x := Real.arccos p) (y := 2 * Real.pi - u) hw (by linarith) (by linarith)
        rwa [hc, Real.cos_two_pi_sub] at this
    linarith

end horizon

/-! ### The properties -/

variable {n nCam nPose : ℕ}

/-- C111: for a camera whose optical axis points at most 60 degrees above or below the horizon, the dark part of the indicator is
the ground.  Up to the rounding of the two ends of the arc to degrees, the points of the rim that are filled are those on the
side of the estimated direction of gravity in the image, beyond a line at right angles to that direction whose distance from the
centre is half a pixel per degree of elevation, towards the ground when the camera looks up.  The arc is at most a full turn and
never runs backwards. -/
theorem C111_horizon (s : State n nCam nPose) (cam : Fin nCam) (ha : s.att.IsUnit) (hq : (s.qCM cam).IsUnit)
    (he : |elevation (s.att.rotate ((s.qCM cam).inv.rotate ⟨0, 0, 1⟩))| ≤ 60) :
    ∃ (a b : ℤ) (α β : ℝ) (down : V2), drawVirtualHorizon s cam = some (a, b) ∧ a ≤ b ∧ b ≤ a + 360 ∧
      |(a : ℝ) - α| < 1 ∧ |(b : ℝ) - β| < 1 ∧ α ≤ β ∧ β ≤ α + 360 ∧
      ImageDirection ((s.qCM cam).rotate (s.att.inv.rotate ⟨0, 0, -1⟩)) down ∧
      ∀ t, α ≤ t → t < α + 360 →
        (t ≤ β ↔ elevation (s.att.rotate ((s.qCM cam).inv.rotate ⟨0, 0, 1⟩)) / 2 ≤ (onCircle 30 t).dot down) := by
  set e := elevation (s.att.rotate ((s.qCM cam).inv.rotate ⟨0, 0, 1⟩)) with hedef
  set z := (s.att.rotate ((s.qCM cam).inv.rotate ⟨0, 0, 1⟩)).z with hz
  have hpi := Real.pi_pos
  have hez : e = Real.arcsin z * 180 / Real.pi := rfl
  have hgz : (vg s cam).z = -z := vg_z ha hq
  have hgn := vg_norm (s := s) (cam := cam) ha hq
  set g := vg s cam with hg
  have hpitch : pitch g = Real.arcsin z := by
    unfold pitch
    have h1 : g.dot ⟨0, 0, 1⟩ = -z := by simp [V3.dot, hgz]
    rw [h1, Real.arccos_neg, Real.arccos_eq_pi_div_two_sub_arcsin, show (0.5 : ℝ) = 1 / 2 by norm_num]
    ring
  have hp : pitch g / Real.pi * 180.0 / 10.0 * 5.0 / 30.0 = e / 60 := by
    rw [hpitch, hez]; norm_num; ring
  obtain ⟨he1, he2⟩ := abs_le.1 he
  have hp1 : -1 ≤ e / 60 := by linarith
  have hp2 : e / 60 ≤ 1 := by linarith
  have ho : pitchOffsetAngle g = some (-Real.arcsin (e / 60)) := by
    unfold pitchOffsetAngle cAsin
    rw [hp, if_pos ⟨hp1, hp2⟩]
    rfl
  have hr : roll g = Ypr.atan2 g.y g.x - Real.pi / 2 := by
    unfold roll; rw [show (0.5 : ℝ) = 1 / 2 by norm_num]; ring
  set φ := Ypr.atan2 g.y g.x with hφ
  have hφ1 : -Real.pi < φ := Complex.neg_pi_lt_arg _
  have hφ2 : φ ≤ Real.pi := Complex.arg_le_pi _
  set w := Real.arccos (e / 60) with hw
  have hw0 : 0 ≤ w := Real.arccos_nonneg _
  have hwp : w ≤ Real.pi := Real.arccos_le_pi _
  have hwo : -Real.arcsin (e / 60) = w - Real.pi / 2 := by rw [hw, Real.arccos_eq_pi_div_two_sub_arcsin]; ring
  -- the two ends of the arc, in degrees
  set α := (φ - w) / Real.pi * 180 with hα
  set β := (φ + w) / Real.pi * 180 with hβ
  have eα : (roll g - -Real.arcsin (e / 60)) / Real.pi * 180 = α := by rw [hwo, hr, hα]; ring
  have eβ : (roll g + -Real.arcsin (e / 60)) / Real.pi * 180 + 180 = β := by
    rw [hwo, hr, hβ]; field_simp; ring
  have deg : ∀ {x k : ℝ}, -(k * Real.pi) ≤ x → x ≤ k * Real.pi → |x / Real.pi * 180| ≤ k * 180 := by
    intro x k h1 h2
    rw [abs_le]
    have e1 : -k ≤ x / Real.pi := by rw [le_div_iff₀ hpi]; linarith
    have e2 : x / Real.pi ≤ k := by rw [div_le_iff₀ hpi]; linarith
    constructor <;> linarith
  have cα := cInt_small (x := α) ((deg (k := 2) (by linarith) (by linarith)).trans (by norm_num))
  have cβ := cInt_small (x := β) ((deg (k := 2) (by linarith) (by linarith)).trans (by norm_num))
  have hαβ : β - α = 2 * w / Real.pi * 180 := by rw [hα, hβ]; ring
  have hαβ1 : α ≤ β := by
    have : 0 ≤ 2 * w / Real.pi * 180 := by positivity
    linarith
  have hαβ2 : β ≤ α + 360 := by
    have : 2 * w / Real.pi ≤ 2 := by rw [div_le_iff₀ hpi]; linarith
    linarith
  have hz1 : z ^ 2 < 1 := by
    by_contra hn
    push Not at hn
    have hzz : z ^ 2 = 1 := by nlinarith [sq_nonneg g.x, sq_nonneg g.y, congrArg (· ^ 2) hgz]
    rcases mul_self_eq_one_iff.1 ((sq z).symm.trans hzz) with h | h
    · rw [h, Real.arcsin_one] at hez
      have : e = 90 := by rw [hez]; field_simp; norm_num
      linarith
    · rw [h, Real.arcsin_neg_one] at hez
      have : e = -90 := by rw [hez]; field_simp; norm_num
      linarith
  have hc2 : 0 < g.x ^ 2 + g.y ^ 2 := by rw [hgz] at hgn; nlinarith
  set c := Real.sqrt (g.x ^ 2 + g.y ^ 2) with hc
  have hc0 : 0 < c := Real.sqrt_pos.2 hc2
  have hcc : g.x ^ 2 + g.y ^ 2 = c ^ 2 := (Real.sq_sqrt hc2.le).symm
  obtain ⟨k1, k2⟩ := Ypr.atan2_cos_sin hc0 hcc
  rw [← hφ] at k1 k2
  refine ⟨truncZ α, truncZ β, α, β, ⟨Real.cos φ, Real.sin φ⟩, ?_, truncZ_mono hαβ1, truncZ_span hαβ2 hαβ1, truncZ_near α, truncZ_near β,
    hαβ1, hαβ2, ⟨Real.cos_sq_add_sin_sq φ, c, hc0, ?_, ?_⟩, ?_⟩
  · unfold drawVirtualHorizon
    simp only [← hg, ho, Option.bind_eq_bind, Option.bind_some, eα, eβ, cα, cβ, Option.pure_def]
  · rw [k1, ← Quat.rotate_mul]; show g.x = _; field_simp
  · rw [k2, ← Quat.rotate_mul]; show g.y = _; field_simp
  · intro t ht1 ht2
    have hdot : (onCircle 30 t).dot ⟨Real.cos φ, Real.sin φ⟩ = 30 * Real.cos (t * Real.pi / 180 - φ) := by
      rw [Real.cos_sub]; simp only [onCircle, V2.dot]; ring
    have ea : α * Real.pi / 180 = φ - w := by rw [hα]; field_simp
    have eb : β * Real.pi / 180 = φ + w := by rw [hβ]; field_simp
    have i1 : α * Real.pi / 180 ≤ t * Real.pi / 180 := by gcongr
    have i2 : t * Real.pi / 180 < (α + 360) * Real.pi / 180 := by gcongr
    have e3 : (α + 360) * Real.pi / 180 = φ - w + 2 * Real.pi := by rw [← ea]; ring
    have key := arc_iff (p := e / 60) (u := t * Real.pi / 180 - φ) hp1 hp2 (by rw [← hw]; linarith) (by rw [← hw]; linarith)
    have e4 : t ≤ β ↔ t * Real.pi / 180 - φ ≤ w := by
      constructor
      · intro h
        have : t * Real.pi / 180 ≤ β * Real.pi / 180 := by gcongr
        linarith
      · intro h
        by_contra hn
        push Not at hn
        have : β * Real.pi / 180 < t * Real.pi / 180 := by gcongr
        linarith
    rw [e4, hw, key, hdot]
    constructor <;> intro h <;> linarith

/- Non-vacuity: a camera looking up by 16.3 degrees (the arc sine of 7/25). -/
example (s : State n nCam nPose) (cam : Fin nCam) (h : s.qCM cam = Quat.one) :
    let s' : State n nCam nPose := { s with att := ⟨4 / 5, 3 / 5, 0, 0⟩ }
    s'.att.IsUnit ∧ (s'.qCM cam).IsUnit ∧ 0 < elevation (s'.att.rotate ((s'.qCM cam).inv.rotate ⟨0, 0, 1⟩)) ∧
      |elevation (s'.att.rotate ((s'.qCM cam).inv.rotate ⟨0, 0, 1⟩))| ≤ 60 := by
  intro s'
  have h' : s'.qCM cam = Quat.one := h
  have hpi := Real.pi_pos
  have hz : (s'.att.rotate ((s'.qCM cam).inv.rotate ⟨0, 0, 1⟩)).z = 7 / 25 := by
    rw [h']; norm_num [s', Quat.rotate, Quat.inv, Quat.one]
  have h0 : 0 < Real.arcsin (7 / 25) := Real.arcsin_pos.2 (by norm_num)
  have h1 : Real.arcsin (7 / 25) ≤ Real.pi / 6 := by
    rw [Real.arcsin_le_iff_le_sin ⟨by norm_num, by norm_num⟩ ⟨by linarith, by linarith⟩, Real.sin_pi_div_six]; norm_num
  refine ⟨by norm_num [s', Quat.IsUnit, Quat.normSq], by rw [h']; norm_num [Quat.IsUnit, Quat.normSq, Quat.one], ?_, ?_⟩
  · unfold elevation; rw [hz]; positivity
  · unfold elevation; rw [hz, abs_of_pos (by positivity), div_le_iff₀ hpi]; linarith

/-- C111 (finding): when the optical axis of the camera points more than 60 degrees above or below the horizon, as that of a camera
looking at the ground does, drawing the horizon is undefined: the arc sine is not a number and is converted to an integer. -/
theorem C111_finding_steep (s : State n nCam nPose) (cam : Fin nCam) (ha : s.att.IsUnit) (hq : (s.qCM cam).IsUnit)
    (he : 60 < |elevation (s.att.rotate ((s.qCM cam).inv.rotate ⟨0, 0, 1⟩))|) : drawVirtualHorizon s cam = none := by
  set e := elevation (s.att.rotate ((s.qCM cam).inv.rotate ⟨0, 0, 1⟩)) with hedef
  set z := (s.att.rotate ((s.qCM cam).inv.rotate ⟨0, 0, 1⟩)).z with hz
  have hez : e = Real.arcsin z * 180 / Real.pi := rfl
  have hgz : (vg s cam).z = -z := vg_z ha hq
  have hp : pitch (vg s cam) / Real.pi * 180.0 / 10.0 * 5.0 / 30.0 = e / 60 := by
    unfold pitch
    have h1 : (vg s cam).dot ⟨0, 0, 1⟩ = -z := by simp [V3.dot, hgz]
    rw [h1, Real.arccos_neg, Real.arccos_eq_pi_div_two_sub_arcsin, hez]
    norm_num; ring
  have hn : pitchOffsetAngle (vg s cam) = none := by
    unfold pitchOffsetAngle cAsin
    rw [hp, if_neg]
    · rfl
    · rintro ⟨h1, h2⟩
      have : |e| ≤ 60 := abs_le.2 ⟨by linarith, by linarith⟩
      linarith
  unfold drawVirtualHorizon
  simp only [hn, Option.bind_eq_bind, Option.bind_none]

/- Non-vacuity: a camera looking straight down. -/
example (s : State n nCam nPose) (cam : Fin nCam) (h : s.qCM cam = Quat.one) :
    let s' : State n nCam nPose := { s with att := ⟨0, 1, 0, 0⟩ }
    s'.att.IsUnit ∧ (s'.qCM cam).IsUnit ∧ elevation (s'.att.rotate ((s'.qCM cam).inv.rotate ⟨0, 0, 1⟩)) = -90 := by
  intro s'
  have h' : s'.qCM cam = Quat.one := h
  have hz : (s'.att.rotate ((s'.qCM cam).inv.rotate ⟨0, 0, 1⟩)).z = -1 := by
    rw [h']; norm_num [s', Quat.rotate, Quat.inv, Quat.one]
  refine ⟨by norm_num [s', Quat.IsUnit, Quat.normSq], by rw [h']; norm_num [Quat.IsUnit, Quat.normSq, Quat.one], ?_⟩
  unfold elevation
  rw [hz, Real.arcsin_neg_one]
  field_simp
  norm_num

/-- C111: for a positive semi-definite covariance of a pixel whose axes, times the scale, are less than 10⁹ pixels, the half axes of the
ellipse drawn are the scaled standard deviations along its axes rounded to whole pixels, but at least one pixel, and its first
axis has the direction, up to orientation, of the eigenvector of the larger variance. -/
theorem C111_ellipse (cov : M2) (l0 l1 : ℝ) (e0 e1 : V2) (h0 : cov.mulVec e0 = l0 • e0) (h1 : cov.mulVec e1 = l1 • e1)
    (hl0 : 0 ≤ l0) (hl1 : 0 ≤ l1) (n0 : e0.x ^ 2 + e0.y ^ 2 = 1) (n1 : e1.x ^ 2 + e1.y ^ 2 = 1)
    (ho : e0.x * e1.x + e0.y * e1.y = 0) (k : ℝ) (hk : 0 ≤ k) (hk0 : k * Real.sqrt l0 ≤ 1000000000) (hk1 : k * Real.sqrt l1 ≤ 1000000000) :
    ∃ (E : Ellipse) (σ₁ σ₂ : ℝ) (v₁ v₂ : V2), drawEllipse (FC.setPixelCov l0 l1 e0 e1) k = some E ∧ 0 ≤ σ₂ ∧ σ₂ ≤ σ₁ ∧
      cov.mulVec v₁ = (σ₁ ^ 2) • v₁ ∧ cov.mulVec v₂ = (σ₂ ^ 2) • v₂ ∧ v₁.x * v₂.x + v₁.y * v₂.y = 0 ∧
      (v₁ = onCircle 1 E.angle ∨ v₁ = onCircle (-1) E.angle) ∧ 1 ≤ E.axis1 ∧ 1 ≤ E.axis2 ∧
      (1 / 2 ≤ k * σ₁ → |(E.axis1 : ℝ) - k * σ₁| ≤ 1 / 2) ∧ (k * σ₁ < 1 / 2 → E.axis1 = 1) ∧
      (1 / 2 ≤ k * σ₂ → |(E.axis2 : ℝ) - k * σ₂| ≤ 1 / 2) ∧ (k * σ₂ < 1 / 2 → E.axis2 = 1) := by
  obtain ⟨a1, a2, a3, a4, a5⟩ := FC.C62_axes cov l0 l1 e0 e1 h0 h1 hl0 hl1 n0 n1 ho
  set r := FC.setPixelCov l0 l1 e0 e1 with hr
  have hb : k * r.sigma1 ≤ 1000000000 ∧ k * r.sigma2 ≤ 1000000000 ∧
      r.eigenVector1.x * r.eigenVector2.x + r.eigenVector1.y * r.eigenVector2.y = 0 := by
    rw [hr]; unfold FC.setPixelCov
    dsimp only
    split
    · exact ⟨hk1, hk0, by dsimp only; linarith⟩
    · exact ⟨hk0, hk1, ho⟩
  obtain ⟨b1, b2, b3⟩ := hb
  have half : (0.5 : ℝ) = 1 / 2 := by norm_num
  have round : ∀ x : ℝ, 0 ≤ x → x ≤ 1000000000 →
      cInt (x + 0.5) = some ⌊x + 1 / 2⌋ ∧ (1 / 2 ≤ x → |((max ⌊x + 1 / 2⌋ 1 : ℤ) : ℝ) - x| ≤ 1 / 2) ∧ (x < 1 / 2 → max ⌊x + 1 / 2⌋ 1 = 1) := by
    intro x h0 h1
    have f1 := Int.floor_le (x + 1 / 2)
    have f2 := Int.lt_floor_add_one (x + 1 / 2)
    refine ⟨?_, ?_, ?_⟩
    · have ht : truncZ (x + 0.5) = ⌊x + 1 / 2⌋ := by
        unfold truncZ; rw [half, if_pos (by linarith)]
      unfold cInt
      rw [ht, if_pos]
      constructor
      · have : 0 ≤ ⌊x + 1 / 2⌋ := Int.floor_nonneg.2 (by linarith)
        omega
      · have : (⌊x + 1 / 2⌋ : ℝ) ≤ ((2147483647 : ℤ) : ℝ) := by push_cast; linarith
        exact_mod_cast this
    · intro h
      have : 1 ≤ ⌊x + 1 / 2⌋ := Int.le_floor.2 (by push_cast; linarith)
      rw [max_eq_left this, abs_le]
      constructor <;> linarith
    · intro h
      have : ⌊x + 1 / 2⌋ < 1 := Int.floor_lt.2 (by push_cast; linarith)
      exact max_eq_right this.le
  obtain ⟨c1, c2, c3⟩ := round (k * r.sigma1) (by have := a1.trans a2; positivity) b1
  obtain ⟨d1, d2, d3⟩ := round (k * r.sigma2) (by positivity) b2
  refine ⟨⟨max ⌊k * r.sigma1 + 1 / 2⌋ 1, max ⌊k * r.sigma2 + 1 / 2⌋ 1, r.sigmaAngle * 180 / Real.pi⟩, r.sigma1, r.sigma2, r.eigenVector1, r.eigenVector2,
    ?_, a1, a2, a3, a4, b3, ?_, le_max_right _ _, le_max_right _ _, c2, c3, d2, d3⟩
  · unfold drawEllipse
    simp only [c1, d1, Option.bind_eq_bind, Option.bind_some, Option.pure_def]
  · have ea : r.sigmaAngle * 180 / Real.pi * Real.pi / 180 = r.sigmaAngle := by field_simp
    simp only [onCircle, ea, one_mul, neg_one_mul]
    exact a5

/- Non-vacuity: standard deviations of 1 and 2 pixels, drawn with the scale 2 of the image update. -/
example : ∃ E, drawEllipse (FC.setPixelCov 1 4 ⟨1, 0⟩ ⟨0, 1⟩) 2 = some E := by
  have h4 : Real.sqrt 4 = 2 := by rw [show (4 : ℝ) = 2 ^ 2 by norm_num, Real.sqrt_sq (by norm_num)]
  obtain ⟨E, _, _, _, _, h, _⟩ := C111_ellipse ⟨1, 0, 0, 4⟩ 1 4 ⟨1, 0⟩ ⟨0, 1⟩ (by ext <;> simp [M2.mulVec]) (by ext <;> simp [M2.mulVec])
    (by norm_num) (by norm_num) (by norm_num) (by norm_num) (by norm_num) 2 (by norm_num) (by norm_num) (by rw [h4]; norm_num)
  exact ⟨E, h⟩

end Rovio.Overlay
