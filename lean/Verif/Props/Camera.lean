import Verif.Lemmas.Camera
import Mathlib.Analysis.SpecialFunctions.Sqrt

/-!
# C12 - C15: camera projection and back-projection
-/

namespace Rovio

open Filter Topology

namespace Camera

/-! ## C12: projection depends on the ray only and fails exactly behind the camera -/

/-- C12: `bearingToPixel` returns true exactly for vectors strictly in front of the camera. -/
theorem C12_succeeds_iff (C : Camera) (v : V3) : (C.bearingToPixel v).isSome ↔ 0 < v.z := by
  unfold bearingToPixel
  split <;> simp <;> linarith

/-- C12: positive multiples of a vector have the same outcome. -/
theorem C12_ray_only (C : Camera) (v : V3) (s : ℝ) (hs : 0 < s) :
    C.bearingToPixel (s • v) = C.bearingToPixel v := by
  have hx : s * v.x / (s * v.z) = v.x / v.z := mul_div_mul_left _ _ hs.ne'
  have hy : s * v.y / (s * v.z) = v.y / v.z := mul_div_mul_left _ _ hs.ne'
  have hz : s * v.z ≤ 0 ↔ v.z ≤ 0 := by
    constructor
    · intro h; by_contra hc; nlinarith [mul_pos hs (not_le.mp hc)]
    · intro h; exact mul_nonpos_of_nonneg_of_nonpos hs.le h
  simp only [bearingToPixel, V3.smul_x, V3.smul_y, V3.smul_z, hx, hy, hz]

/-- C12: a vector and its opposite are never both projected. -/
theorem C12_not_both (C : Camera) (v : V3) (h : (C.bearingToPixel v).isSome) :
    C.bearingToPixel (-v) = none := by
  rw [C12_succeeds_iff] at h
  unfold bearingToPixel
  rw [if_pos (by simp; exact h.le)]

/-- C12: the overload with Jacobian returns the same pixel (and fails in the same cases). -/
theorem C12_overload_same_pixel (C : Camera) (v : V3) :
    (C.bearingToPixelJ v).map Prod.fst = C.bearingToPixel v := by
  unfold bearingToPixelJ bearingToPixel
  split
  · rfl
  · simp [distortJ_fst]

/-- C12: same for the overloads taking a bearing element. -/
theorem C12_overload_same_pixel_bearing (C : Camera) (n : Nor) :
    (C.bearingToPixelNJ n).map Prod.fst = C.bearingToPixelN n := by
  unfold bearingToPixelNJ bearingToPixelN
  rw [← C12_overload_same_pixel]
  cases C.bearingToPixelJ n.vec <;> rfl

/-- C12: on the optical axis every model projects to the principal point. -/
theorem C12_principal_point (C : Camera) (z : ℝ) (hz : 0 < z) :
    C.bearingToPixel ⟨0, 0, z⟩ = some ⟨C.cx, C.cy⟩ := by
  have : C.distort ⟨0, 0⟩ = ⟨0, 0⟩ := by
    unfold distort
    cases C.type
    · simp [distortRadtan]
    · have : (0:ℝ) < 1e-8 := by norm_num
      simp [distortEquidist]
    · simp [distortDoubleSphere]
  simp [bearingToPixel, this, not_le.mpr hz]

/- Non-vacuity. -/
example : ((Camera.default').bearingToPixel ⟨1, 2, 4⟩).isSome := by
  rw [C12_succeeds_iff]; norm_num
example : (Camera.default').bearingToPixel ⟨1, 2, -4⟩ = none := by
  simp [bearingToPixel]

/-! ## C13: Jacobians are the derivatives of what is returned -/

/-- The points at which C13 is claimed.  Radial-tangential: everywhere.  Equidistant and double
sphere: everywhere except exactly on the circle where the special-cased centre ends, and (double
sphere) except where the denominator of the model vanishes. -/
def RegularAt (C : Camera) (i : V2) : Prop :=
  match C.type with
  | .radtan => True
  | .equidist => i.x * i.x + i.y * i.y ≠ 1e-16
  | .ds => i.x * i.x + i.y * i.y ≠ 1e-16 ∧ (1e-16 < i.x * i.x + i.y * i.y → C.dsDen i ≠ 0)

/-- C13: `distort` with Jacobian returns the derivative of `distort`, along every differentiable
curve through the point. -/
theorem C13_distort (C : Camera) (P : ℝ → V2) (P' : V2) (t : ℝ) (hP : HasDerivV2 P P' t)
    (hreg : C.RegularAt (P t)) :
    HasDerivV2 (fun s => C.distort (P s)) ((C.distortJ (P t)).2.mulVec P') t := by
  unfold RegularAt at hreg
  unfold distort distortJ
  cases h : C.type
  · exact hasDeriv_radtan hP
  · rw [h] at hreg
    refine hasDeriv_equidist hP ?_
    intro e
    apply hreg
    have hnn : 0 ≤ (P t).x * (P t).x + (P t).y * (P t).y :=
      add_nonneg (mul_self_nonneg _) (mul_self_nonneg _)
    rw [← Real.mul_self_sqrt hnn, e]; norm_num
  · rw [h] at hreg
    exact hasDeriv_doubleSphere hP hreg.1 hreg.2

/-- C13: the 2x3 Jacobian of `bearingToPixel` is the derivative of the returned pixel: near `t` the
projection of the curve succeeds, and the pixel curve has derivative `J * P'`. -/
theorem C13_bearingToPixel (C : Camera) (P : ℝ → V3) (P' : V3) (t : ℝ) (hP : HasDerivV3 P P' t)
    (c : V2) (J : M23) (hJ : C.bearingToPixelJ (P t) = some (c, J))
    (hreg : C.RegularAt ⟨(P t).x / (P t).z, (P t).y / (P t).z⟩) :
    ∃ pix : ℝ → V2, (∀ᶠ s in 𝓝 t, C.bearingToPixel (P s) = some (pix s)) ∧ pix t = c ∧
      HasDerivV2 pix (J.mulVec P') t := by
  unfold bearingToPixelJ at hJ
  by_cases hz : (P t).z ≤ 0
  · simp [hz] at hJ
  rw [if_neg hz] at hJ
  have hz0 : 0 < (P t).z := not_le.mp hz
  simp only [Option.some.injEq, Prod.mk.injEq] at hJ
  obtain ⟨hc, hJ⟩ := hJ
  have hq : HasDerivV2 (fun s => (⟨(P s).x / (P s).z, (P s).y / (P s).z⟩ : V2))
      ⟨(P'.x * (P t).z - (P t).x * P'.z) / (P t).z ^ 2, (P'.y * (P t).z - (P t).y * P'.z) / (P t).z ^ 2⟩ t :=
    ⟨hP.x.div hP.z hz0.ne', hP.y.div hP.z hz0.ne'⟩
  have hd := C13_distort C _ _ t hq hreg
  refine ⟨fun s => ⟨C.fx * (C.distort ⟨(P s).x / (P s).z, (P s).y / (P s).z⟩).x + C.cx,
    C.fy * (C.distort ⟨(P s).x / (P s).z, (P s).y / (P s).z⟩).y + C.cy⟩, ?_, ?_, ?_⟩
  · filter_upwards [hP.z.continuousAt.eventually_const_lt hz0] with s hs
    simp only [bearingToPixel]
    rw [if_neg (not_le.mpr hs)]
  · rw [← hc, distortJ_fst]
  · subst hJ
    have hzne := hz0.ne'
    constructor
    · refine ((hd.x.const_mul C.fx).add_const C.cx).congr_deriv ?_
      simp only [M2.mulVec, M23.mulVec, V3.dot, V3.smul_x, V3.smul_y, V3.smul_z, V3.add_x, V3.add_y, V3.add_z, lit1]
      field_simp
      ring
    · refine ((hd.y.const_mul C.fy).add_const C.cy).congr_deriv ?_
      simp only [M2.mulVec, M23.mulVec, V3.dot, V3.smul_x, V3.smul_y, V3.smul_z, V3.add_x, V3.add_y, V3.add_z, lit1]
      field_simp
      ring

/-- C13: the 2x2 Jacobian with respect to the bearing increment, as used by the filter. -/
theorem C13_bearing_increment (C : Camera) (n : Nor) (hn : n.q.IsUnit) (d : V2)
    (c : V2) (J : M2) (hJ : C.bearingToPixelNJ n = some (c, J))
    (hreg : C.RegularAt ⟨n.vec.x / n.vec.z, n.vec.y / n.vec.z⟩) :
    ∃ pix : ℝ → V2, (∀ᶠ s in 𝓝 0, C.bearingToPixelN (n.boxPlus (s • d)) = some (pix s)) ∧ pix 0 = c ∧
      HasDerivV2 pix (J.mulVec d) 0 := by
  have hP := Nor.hasDeriv_boxPlus hn d
  have h0 : (n.boxPlus ((0:ℝ) • d)).vec = n.vec := by
    have : (0:ℝ) • d = (0 : V2) := by ext <;> simp
    rw [this]
    simp only [Nor.boxPlus, Nor.vec, Nor.N]
    rw [show (0:V2).x • n.perp1 + (0:V2).y • n.perp2 = (0 : V3) by ext <;> simp]
    simp
  unfold bearingToPixelNJ at hJ
  cases hJ3 : C.bearingToPixelJ n.vec with
  | none => simp [hJ3] at hJ
  | some p =>
    obtain ⟨c', J3⟩ := p
    simp only [hJ3, Option.some.injEq, Prod.mk.injEq] at hJ
    obtain ⟨rfl, hJ⟩ := hJ
    obtain ⟨pix, h1, h2, h3⟩ := C13_bearingToPixel C _ _ 0 hP c' J3 (by simpa only [h0] using hJ3)
      (by simpa only [h0] using hreg)
    refine ⟨pix, h1, h2, h3.congr_deriv ?_⟩
    subst hJ
    ext <;> simp [M2.mulVec, M23.mulVec, Nor.M, V3.dot] <;> ring

/- Non-vacuity: every camera model has regular points and non-trivial Jacobians there. -/
example : RegularAt { Camera.default' with type := .equidist, k1 := 0.1 } ⟨1, 2⟩ := by
  simp only [RegularAt]; norm_num
example : RegularAt { Camera.default' with type := .ds, k1 := 1, k2 := 0 } ⟨1, 2⟩ := by
  simp only [RegularAt]
  refine ⟨by norm_num, fun _ => ?_⟩
  simp only [dsDen]
  have := Real.sqrt_nonneg ((1:ℝ) * 1 + 2 * 2 + 1.0)
  norm_num at this ⊢
  positivity
example : ∃ J, (Camera.default').bearingToPixelJ ⟨1, 1, 2⟩ = some (⟨1/2, 1/2⟩, J) ∧ J.r1.x = 1/2 := by
  refine ⟨⟨⟨1/2, 0, -1/4⟩, ⟨0, 1/2, -1/4⟩⟩, ?_, ?_⟩
  · simp [bearingToPixelJ, default', distortJ, distortRadtanJ]; norm_num
    constructor <;> ext <;> simp
  · norm_num

/-! ## C14: back-projection -/

/-- C14: whenever back-projection succeeds with finite numbers, the bearing is a unit vector in front
of the camera, and it is one Gauss-Newton correction away from an iterate whose squared residual (in
normalised image coordinates) was at most `1e-10`. -/
theorem C14_success (C : Camera) (c : V2) (v : V3) (h : C.pixelToBearing c = .ok v) :
    v.norm = 1 ∧ 0 < v.z ∧ (C.bearingToPixel v).isSome ∧
    ∃ yb : V2, ((c.x - C.cx) / C.fx - (C.distort yb).x) ^ 2 + ((c.y - C.cy) / C.fy - (C.distort yb).y) ^ 2 ≤ 1e-10 ∧
      ((C.distortJ yb).2.tr.mul (C.distortJ yb).2).mulVec (⟨v.x / v.z, v.y / v.z⟩ - yb)
        = (C.distortJ yb).2.tr.mulVec ⟨(c.x - C.cx) / C.fx - (C.distort yb).x, (c.y - C.cy) / C.fy - (C.distort yb).y⟩ := by
  unfold pixelToBearing at h
  by_cases hf : C.fx = 0 ∨ C.fy = 0
  · simp [hf] at h
  rw [if_neg hf] at h
  simp only at h
  set y : V2 := ⟨(c.x - C.cx) / C.fx, (c.y - C.cy) / C.fy⟩ with hy
  rcases hg : C.gnLoop y 100 (some y) with _ | _ | r
  · simp [hg] at h
  · simp [hg] at h
  · simp only [hg, PBResult.ok.injEq] at h
    obtain ⟨yb, he, hdet, hr⟩ := C.gnLoop_success y 100 y r hg
    have hne : (⟨r.x, r.y, 1⟩ : V3) ≠ 0 := by
      intro e; have := congrArg V3.z e; simp at this
    have hpos := V3.norm_pos hne
    have hvz : v.z = 1 / (⟨r.x, r.y, 1⟩ : V3).norm := by rw [← h]; simp [V3.normalized]
    have hvzpos : 0 < v.z := by rw [hvz]; positivity
    have hvx : v.x / v.z = r.x := by rw [← h]; simp [V3.normalized]; field_simp
    have hvy : v.y / v.z = r.y := by rw [← h]; simp [V3.normalized]; field_simp
    refine ⟨by rw [← h]; exact V3.norm_normalized hne, hvzpos, (C12_succeeds_iff C v).mpr hvzpos, yb, ?_, ?_⟩
    · simp only [V2.dot, V2.sub_x, V2.sub_y, hy] at he
      nlinarith [he]
    · rw [hvx, hvy]
      generalize hJ : (C.distortJ yb).2 = J at *
      have e : (⟨r.x, r.y⟩ - yb : V2) = ((J.tr.mul J).inv.mul J.tr).mulVec (y - C.distort yb) := by
        rw [hr]; ext <;> simp
      rw [e, M2.mulVec_inv_mul _ _ hdet]
      rfl

/-- A camera without lens distortion. -/
def Undistorted (C : Camera) : Prop :=
  (C.type = .radtan ∧ C.k1 = 0 ∧ C.k2 = 0 ∧ C.k3 = 0 ∧ C.p1 = 0 ∧ C.p2 = 0) ∨
  (C.type = .ds ∧ C.k1 = 0 ∧ C.k2 = 0)

lemma Undistorted.distortJ {C : Camera} (h : C.Undistorted) (i : V2) : C.distortJ i = (i, M2.one) := by
  rcases h with ⟨ht, h1, h2, h3, h4, h5⟩ | ⟨ht, h1, h2⟩
  · simp [Camera.distortJ, ht, distortRadtanJ, h1, h2, h3, h4, h5, M2.one]
  · simp only [Camera.distortJ, ht, distortDoubleSphereJ, dsDen, h1, h2, lit1]
    split
    · rfl
    · simp [M2.one]

/-- C14: for an undistorted camera with non-zero focal lengths back-projection always succeeds and
the result projects exactly onto the pixel. -/
theorem C14_undistorted_roundtrip (C : Camera) (hu : C.Undistorted) (hfx : C.fx ≠ 0) (hfy : C.fy ≠ 0) (c : V2) :
    ∃ v : V3, C.pixelToBearing c = .ok v ∧ v.norm = 1 ∧ C.bearingToPixel v = some c := by
  set y : V2 := ⟨(c.x - C.cx) / C.fx, (c.y - C.cy) / C.fy⟩ with hy
  have hg : C.gnLoop y 100 (some y) = some (some y) := by
    have : y + ((M2.one.tr.mul M2.one).inv.mul M2.one.tr).mulVec (y - y) = y := by
      ext <;> simp [M2.mulVec]
    have he : (y - y).dot (y - y) ≤ 1e-10 := by simp [V2.dot]; norm_num
    have hdet : ¬ (M2.one.tr.mul M2.one).det = 0 := by simp [M2.det, M2.mul, M2.tr, M2.one]
    simp only [gnLoop, hu.distortJ, this]
    rw [if_pos he, if_neg hdet]
  have hok : C.pixelToBearing c = .ok (V3.normalized ⟨y.x, y.y, 1⟩) := by
    unfold pixelToBearing
    rw [if_neg (by simp [hfx, hfy])]
    simp only [← hy, hg]
  refine ⟨_, hok, (C14_success C c _ hok).1, ?_⟩
  have hne : (⟨y.x, y.y, 1⟩ : V3) ≠ 0 := by
    intro e; have := congrArg V3.z e; simp at this
  have hpos := V3.norm_pos hne
  rw [V3.normalized, C12_ray_only C _ _ (by positivity)]
  have hd : C.distort ⟨y.x, y.y⟩ = ⟨y.x, y.y⟩ := by rw [← distortJ_fst, hu.distortJ]
  simp only [bearingToPixel]
  rw [if_neg (by norm_num)]
  simp only [div_one, hd]
  simp only [hy]
  congr 2 <;> field_simp <;> ring

/-- C14: and back-projecting the projection of a forward vector returns its direction. -/
theorem C14_undistorted_roundtrip' (C : Camera) (hu : C.Undistorted) (hfx : C.fx ≠ 0) (hfy : C.fy ≠ 0)
    (v : V3) (hv : 0 < v.z) (c : V2) (hc : C.bearingToPixel v = some c) :
    C.pixelToBearing c = .ok v.normalized := by
  have hd : C.distort ⟨v.x / v.z, v.y / v.z⟩ = ⟨v.x / v.z, v.y / v.z⟩ := by rw [← distortJ_fst, hu.distortJ]
  simp only [bearingToPixel] at hc
  rw [if_neg (not_le.mpr hv), hd] at hc
  simp only [Option.some.injEq] at hc
  have hyv : (⟨(c.x - C.cx) / C.fx, (c.y - C.cy) / C.fy⟩ : V2) = ⟨v.x / v.z, v.y / v.z⟩ := by
    rw [← hc]; ext <;> simp <;> field_simp
  have hg : ∀ y : V2, C.gnLoop y 100 (some y) = some (some y) := by
    intro y
    have : y + ((M2.one.tr.mul M2.one).inv.mul M2.one.tr).mulVec (y - y) = y := by
      ext <;> simp [M2.mulVec]
    have he : (y - y).dot (y - y) ≤ 1e-10 := by simp [V2.dot]; norm_num
    have hdet : ¬ (M2.one.tr.mul M2.one).det = 0 := by simp [M2.det, M2.mul, M2.tr, M2.one]
    simp only [gnLoop, hu.distortJ, this]
    rw [if_pos he, if_neg hdet]
  unfold pixelToBearing
  rw [if_neg (by simp [hfx, hfy])]
  simp only [hyv, hg]
  congr 1
  have e : (⟨v.x / v.z, v.y / v.z, 1⟩ : V3) = (1 / v.z) • v := by
    ext <;> simp <;> field_simp
  rw [e, V3.normalized, V3.normalized, V3.norm_smul, abs_of_pos (by positivity)]
  have hvne : v ≠ 0 := by rintro rfl; simp at hv
  have := V3.norm_pos hvne
  ext <;> simp <;> field_simp

/-- C14, finding: success does not imply a finite bearing.  With `k1 = 1/2, k2 = -1/2` the pixel
`(1,0)` is its own undistorted position, so the residual is zero, but the distortion Jacobian is
singular there: `pixelToBearing` returns true with a non-finite vector. -/
theorem C14_finding_nonfinite_success :
    ({ Camera.default' with k1 := 1/2, k2 := -1/2 } : Camera).pixelToBearing ⟨1, 0⟩ = .nonfinite := by
  have he : (1e-10 : ℝ) ≥ 0 := by norm_num
  unfold pixelToBearing
  simp [default', gnLoop, distortJ, distortRadtanJ, M2.det, M2.mul, M2.tr, V2.dot, lit2, lit4]
  norm_num

/- Non-vacuity: an undistorted camera with focal length 400. -/
example : Undistorted { Camera.default' with fx := 400, fy := 400, cx := 320, cy := 240 } := by
  left; simp [default']
example : ∃ v, ({ Camera.default' with fx := 400, fy := 400, cx := 320, cy := 240 } : Camera).pixelToBearing ⟨720, 240⟩ = .ok v ∧ v.x / v.z = 1 := by
  set C : Camera := { Camera.default' with fx := 400, fy := 400, cx := 320, cy := 240 } with hC
  have hu : C.Undistorted := by left; simp [hC, default']
  have hp : C.bearingToPixel ⟨1, 0, 1⟩ = some ⟨720, 240⟩ := by
    simp [bearingToPixel, hC, default', distort, distortRadtan]; norm_num
  refine ⟨_, C14_undistorted_roundtrip' C hu (by simp [hC]) (by simp [hC]) ⟨1, 0, 1⟩ (by norm_num) _ hp, ?_⟩
  have : (⟨1, 0, 1⟩ : V3).norm ≠ 0 := (V3.norm_pos (by intro e; have := congrArg V3.z e; simp at this)).ne'
  simp only [V3.normalized, V3.smul_x, V3.smul_z]
  field_simp

/-! ## C15: radial models keep the azimuth -/

/-- C15: the equidistant distortion multiplies the point by a scalar, positive wherever the
polynomial in the angle is. -/
theorem C15_equidist_radial (C : Camera) (i : V2) : ∃ s : ℝ, C.distortEquidist i = s • i ∧
    ((∀ th : ℝ, th = Real.arctan (Real.sqrt (i.x ^ 2 + i.y ^ 2)) →
      0 < 1 + C.k1 * th ^ 2 + C.k2 * th ^ 4 + C.k3 * th ^ 6 + C.k4 * th ^ 8) → 0 < s) := by
  simp only [distortEquidist, lit1]
  split
  · exact ⟨1, by ext <;> simp, fun _ => one_pos⟩
  · rename_i h
    refine ⟨_, by ext <;> simp only [V2.smul_x, V2.smul_y] <;> exact mul_comm _ _, fun hp => ?_⟩
    have hr : 0 < Real.sqrt (i.x * i.x + i.y * i.y) := lt_of_lt_of_le (by norm_num) (not_lt.mp h)
    have hth := Real.arctan_pos.mpr hr
    have := hp _ rfl
    rw [show i.x ^ 2 + i.y ^ 2 = i.x * i.x + i.y * i.y by ring] at this
    refine div_pos (mul_pos hth ?_) hr
    calc (0:ℝ) < _ := this
      _ = _ := by ring

/-- C15: the double-sphere distortion multiplies the point by a scalar, positive wherever the
denominator of the model is. -/
theorem C15_doubleSphere_radial (C : Camera) (i : V2) : ∃ s : ℝ, C.distortDoubleSphere i = s • i ∧
    (0 < C.dsDen i → 0 < s) := by
  simp only [distortDoubleSphere, lit1]
  split
  · exact ⟨1, by ext <;> simp, fun _ => one_pos⟩
  · exact ⟨1 / C.dsDen i, by ext <;> simp [mul_comm], fun h => by positivity⟩

/-- C15: for non-negative `k1` and `k2` in `[0,1]` the double-sphere denominator is positive on the
whole image plane. -/
theorem C15_doubleSphere_den_pos (C : Camera) (h1 : 0 ≤ C.k1) (h2 : 0 ≤ C.k2) (h2' : C.k2 ≤ 1) (i : V2) :
    0 < C.dsDen i := by
  simp only [dsDen, lit1]
  set d1 := Real.sqrt (i.x * i.x + i.y * i.y + 1)
  have hd1 : 0 ≤ d1 := Real.sqrt_nonneg _
  have ha : 1 ≤ C.k1 * d1 + 1 := by have := mul_nonneg h1 hd1; linarith
  have hd2 : 1 ≤ Real.sqrt (i.x * i.x + i.y * i.y + (C.k1 * d1 + 1) * (C.k1 * d1 + 1)) := by
    rw [Real.one_le_sqrt]
    nlinarith [mul_self_nonneg i.x, mul_self_nonneg i.y]
  nlinarith

/-- C15 at the level of the API: for a radial model the pixel of a vector, relative to the principal
point and in units of the focal lengths, is a positive multiple of the vector's transverse part. -/
theorem C15_azimuth (C : Camera) (v : V3) (c : V2) (h : C.bearingToPixel v = some c)
    (hfx : C.fx ≠ 0) (hfy : C.fy ≠ 0)
    (hrad : (C.type = .equidist ∧ 0 ≤ C.k1 ∧ 0 ≤ C.k2 ∧ 0 ≤ C.k3 ∧ 0 ≤ C.k4) ∨
      (C.type = .ds ∧ 0 ≤ C.k1 ∧ 0 ≤ C.k2 ∧ C.k2 ≤ 1)) :
    ∃ s : ℝ, 0 < s ∧ (c.x - C.cx) / C.fx = s * v.x ∧ (c.y - C.cy) / C.fy = s * v.y := by
  have hz : 0 < v.z := (C12_succeeds_iff C v).mp (by rw [h]; rfl)
  simp only [bearingToPixel] at h
  rw [if_neg (not_le.mpr hz)] at h
  simp only [Option.some.injEq] at h
  have key : ∃ s : ℝ, 0 < s ∧ C.distort ⟨v.x / v.z, v.y / v.z⟩ = s • (⟨v.x / v.z, v.y / v.z⟩ : V2) := by
    rcases hrad with ⟨ht, h1, h2, h3, h4⟩ | ⟨ht, h1, h2, h2'⟩
    · obtain ⟨s, hs, hp⟩ := C15_equidist_radial C ⟨v.x / v.z, v.y / v.z⟩
      refine ⟨s, hp ?_, by simpa [distort, ht] using hs⟩
      intro th _; positivity
    · obtain ⟨s, hs, hp⟩ := C15_doubleSphere_radial C ⟨v.x / v.z, v.y / v.z⟩
      exact ⟨s, hp (C15_doubleSphere_den_pos C h1 h2 h2' _), by simpa [distort, ht] using hs⟩
  obtain ⟨s, hs, hd⟩ := key
  rw [hd] at h
  refine ⟨s / v.z, by positivity, ?_, ?_⟩
  · rw [← h]; simp; field_simp
  · rw [← h]; simp; field_simp

/-- C15: with non-negative coefficients the equidistant model never maps two points outside the
special-cased centre to the same image point. -/
theorem C15_equidist_injective (C : Camera) (h1 : 0 ≤ C.k1) (h2 : 0 ≤ C.k2) (h3 : 0 ≤ C.k3) (h4 : 0 ≤ C.k4)
    (i j : V2) (hi : 1e-8 ≤ Real.sqrt (i.x ^ 2 + i.y ^ 2)) (hj : 1e-8 ≤ Real.sqrt (j.x ^ 2 + j.y ^ 2))
    (h : C.distortEquidist i = C.distortEquidist j) : i = j := by
  have e2 : ∀ k : V2, k.x ^ 2 + k.y ^ 2 = k.x * k.x + k.y * k.y := fun k => by ring
  rw [e2] at hi hj
  -- radial profile
  let f : ℝ → ℝ := fun th => th * (1 + C.k1 * (th * th) + C.k2 * (th * th * (th * th)) + C.k3 * (th * th * (th * th * (th * th)))
    + C.k4 * (th * th * (th * th * (th * th * (th * th)))))
  have hmono : ∀ a b : ℝ, 0 < a → a < b → f a < f b := by
    intro a b ha hab
    have hb : 0 < b := ha.trans hab
    simp only [f]
    have q2 : a * a ≤ b * b := by nlinarith
    have q0 : 0 ≤ a * a := mul_self_nonneg a
    have q0' : 0 ≤ b * b := mul_self_nonneg b
    have q4 : a * a * (a * a) ≤ b * b * (b * b) := mul_le_mul q2 q2 q0 q0'
    have q40 : 0 ≤ a * a * (a * a) := mul_nonneg q0 q0
    have q6 : a * a * (a * a * (a * a)) ≤ b * b * (b * b * (b * b)) := mul_le_mul q2 q4 q40 q0'
    have q60 : 0 ≤ a * a * (a * a * (a * a)) := mul_nonneg q0 q40
    have q8 : a * a * (a * a * (a * a * (a * a))) ≤ b * b * (b * b * (b * b * (b * b))) := mul_le_mul q2 q6 q60 q0'
    have q80 : 0 ≤ a * a * (a * a * (a * a * (a * a))) := mul_nonneg q0 q60
    have hle : 1 + C.k1 * (a * a) + C.k2 * (a * a * (a * a)) + C.k3 * (a * a * (a * a * (a * a))) + C.k4 * (a * a * (a * a * (a * a * (a * a))))
      ≤ 1 + C.k1 * (b * b) + C.k2 * (b * b * (b * b)) + C.k3 * (b * b * (b * b * (b * b))) + C.k4 * (b * b * (b * b * (b * b * (b * b)))) := by
      have := mul_le_mul_of_nonneg_left q2 h1
      have := mul_le_mul_of_nonneg_left q4 h2
      have := mul_le_mul_of_nonneg_left q6 h3
      have := mul_le_mul_of_nonneg_left q8 h4
      linarith
    have hpos : 0 < 1 + C.k1 * (a * a) + C.k2 * (a * a * (a * a)) + C.k3 * (a * a * (a * a * (a * a))) + C.k4 * (a * a * (a * a * (a * a * (a * a)))) := by
      positivity
    exact mul_lt_mul hab hle hpos hb.le
  have hfpos : ∀ a : ℝ, 0 < a → 0 < f a := by
    intro a ha; simp only [f]; positivity
  have hfi : ∀ k : V2, 1e-8 ≤ Real.sqrt (k.x * k.x + k.y * k.y) →
      C.distortEquidist k = (f (Real.arctan (Real.sqrt (k.x * k.x + k.y * k.y))) / Real.sqrt (k.x * k.x + k.y * k.y)) • k ∧
      (C.distortEquidist k).x ^ 2 + (C.distortEquidist k).y ^ 2 = f (Real.arctan (Real.sqrt (k.x * k.x + k.y * k.y))) ^ 2 := by
    intro k hk
    have hr : 0 < Real.sqrt (k.x * k.x + k.y * k.y) := lt_of_lt_of_le (by norm_num) hk
    have e : C.distortEquidist k = (f (Real.arctan (Real.sqrt (k.x * k.x + k.y * k.y))) / Real.sqrt (k.x * k.x + k.y * k.y)) • k := by
      simp only [distortEquidist, lit1]
      rw [if_neg (not_lt.mpr hk)]
      ext <;> simp [f, mul_comm]
    refine ⟨e, ?_⟩
    have hsq := Real.mul_self_sqrt (add_nonneg (mul_self_nonneg k.x) (mul_self_nonneg k.y))
    rw [e]
    simp only [V2.smul_x, V2.smul_y]
    generalize Real.sqrt (k.x * k.x + k.y * k.y) = R at *
    generalize f (Real.arctan R) = F
    field_simp
    linear_combination -F ^ 2 * hsq
  obtain ⟨ei, ni⟩ := hfi i hi
  obtain ⟨ej, nj⟩ := hfi j hj
  have hri : 0 < Real.sqrt (i.x * i.x + i.y * i.y) := lt_of_lt_of_le (by norm_num) hi
  have hrj : 0 < Real.sqrt (j.x * j.x + j.y * j.y) := lt_of_lt_of_le (by norm_num) hj
  have hF : f (Real.arctan (Real.sqrt (i.x * i.x + i.y * i.y))) = f (Real.arctan (Real.sqrt (j.x * j.x + j.y * j.y))) := by
    have : f (Real.arctan (Real.sqrt (i.x * i.x + i.y * i.y))) ^ 2 = f (Real.arctan (Real.sqrt (j.x * j.x + j.y * j.y))) ^ 2 := by
      rw [← ni, ← nj, h]
    exact (pow_left_inj₀ (hfpos _ (Real.arctan_pos.mpr hri)).le (hfpos _ (Real.arctan_pos.mpr hrj)).le two_ne_zero).mp this
  have hth : Real.arctan (Real.sqrt (i.x * i.x + i.y * i.y)) = Real.arctan (Real.sqrt (j.x * j.x + j.y * j.y)) := by
    rcases lt_trichotomy (Real.arctan (Real.sqrt (i.x * i.x + i.y * i.y))) (Real.arctan (Real.sqrt (j.x * j.x + j.y * j.y))) with hlt | he | hgt
    · exact absurd hF (hmono _ _ (Real.arctan_pos.mpr hri) hlt).ne
    · exact he
    · exact absurd hF (hmono _ _ (Real.arctan_pos.mpr hrj) hgt).ne'
  have hR := Real.arctan_injective hth
  rw [ei, ej, hR] at h
  have hs : 0 < f (Real.arctan (Real.sqrt (j.x * j.x + j.y * j.y))) / Real.sqrt (j.x * j.x + j.y * j.y) :=
    div_pos (hfpos _ (Real.arctan_pos.mpr hrj)) hrj
  have hx := congrArg V2.x h
  have hy := congrArg V2.y h
  simp only [V2.smul_x, V2.smul_y] at hx hy
  ext
  · exact mul_left_cancel₀ hs.ne' hx
  · exact mul_left_cancel₀ hs.ne' hy

/-- C15, finding: near the centre the double-sphere factor tends to `1/(1+k1)`, not to the factor `1`
used by the special case. -/
theorem C15_finding_ds_centre_limit (C : Camera) (hk : -1 < C.k1) (u : V2) :
    Tendsto (fun r : ℝ => 1 / C.dsDen ⟨r * u.x, r * u.y⟩) (𝓝 0) (𝓝 (1 / (1 + C.k1))) := by
  have hc : Continuous (fun r : ℝ => C.dsDen ⟨r * u.x, r * u.y⟩) := by
    unfold dsDen
    fun_prop
  have h0 : C.dsDen ⟨0 * u.x, 0 * u.y⟩ = 1 + C.k1 := by
    simp only [dsDen, lit1, zero_mul, mul_zero, zero_add, Real.sqrt_one, mul_one, add_zero]
    rw [Real.sqrt_mul_self (by linarith)]
    ring
  have := (hc.tendsto 0)
  rw [h0] at this
  exact tendsto_const_nhds.div this (by linarith)

/-- C15, finding: because of that jump the double-sphere projection is not injective near the centre
(`k1 = 1, k2 = 0`): two different viewing rays have the same image point. -/
theorem C15_finding_ds_not_injective :
    ∃ (C : Camera) (i j : V2), C.type = .ds ∧ i ≠ j ∧ C.distort i = C.distort j := by
  let C : Camera := { Camera.default' with type := .ds, k1 := 1, k2 := 0 }
  let i : V2 := ⟨1.5e-8, 0⟩
  have hden : 2 ≤ C.dsDen i := by
    simp only [dsDen, lit1, C, i]
    have : (1:ℝ) ≤ Real.sqrt (1.5e-8 * 1.5e-8 + 0 * 0 + 1) := by
      rw [Real.one_le_sqrt]; norm_num
    linarith
  refine ⟨C, i, ⟨1.5e-8 / C.dsDen i, 0⟩, rfl, ?_, ?_⟩
  · intro e
    have := congrArg V2.x e
    simp only [i] at this hden
    have h2 : (1.5e-8:ℝ) / C.dsDen ⟨1.5e-8, 0⟩ ≤ 1.5e-8 / 2 :=
      div_le_div_of_nonneg_left (by norm_num) (by norm_num) hden
    rw [← this] at h2
    norm_num at h2
  · have h2 : (1.5e-8:ℝ) / C.dsDen i ≤ 1.5e-8 / 2 :=
      div_le_div_of_nonneg_left (by norm_num) (by norm_num) hden
    have h0 : 0 ≤ (1.5e-8:ℝ) / C.dsDen i := by positivity
    have hsp : (1.5e-8 / C.dsDen i) * (1.5e-8 / C.dsDen i) + 0 * 0 < (1e-16:ℝ) := by
      have := mul_le_mul h2 h2 h0 (by norm_num)
      norm_num at this ⊢
      linarith
    have hns : ¬ ((1.5e-8:ℝ) * 1.5e-8 + 0 * 0 < 1e-16) := by norm_num
    show C.distortDoubleSphere i = C.distortDoubleSphere ⟨1.5e-8 / C.dsDen i, 0⟩
    simp only [distortDoubleSphere]
    rw [if_pos hsp, if_neg hns]
    simp only [i, lit1]
    ext <;> simp
    ring

end Camera

end Rovio
