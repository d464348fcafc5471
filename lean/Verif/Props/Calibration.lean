import Verif.Model.Calibration
import Verif.Spec.Calibration
import Verif.Props.Camera
import Verif.Lemmas.Geom

/-! # C83: a loaded calibration is the camera that is used -/

namespace Rovio

open Spec Distance

variable {n nCam nPose : ℕ}

lemma sqrt_scale {z A B : ℝ} (hz : 0 < z) (h : A = B / z ^ 2) : Real.sqrt A = Real.sqrt B / z := by
  rw [h, Real.sqrt_div' _ (by positivity), Real.sqrt_sq hz.le]

/-- The nine entries of a complete camera matrix. -/
def FullMatrix (f : CalibFile) (fx s cx a fy cy b c d : ℝ) (rest : List ℝ) : Prop :=
  f.matrix = fx :: s :: cx :: a :: fy :: cy :: b :: c :: d :: rest

lemma load_radtan (o : CamObj) (f : CalibFile) {fx s cx a fy cy b c d : ℝ} {rest : List ℝ} (hm : f.model = "plumb_bob")
    (hK : FullMatrix f fx s cx a fy cy b c d rest) {k1 k2 p1 p2 k3 : ℝ} {more : List ℝ} (hc : f.coeffs = k1 :: k2 :: p1 :: p2 :: k3 :: more) :
    o.load f = some { o with type := .radtan, K := fun r s' => ![![fx, s, cx], ![a, fy, cy], ![b, c, d]] r s', k1 := k1, k2 := k2, p1 := p1, p2 := p2, k3 := k3 } := by
  unfold FullMatrix at hK
  simp [CamObj.load, hm, CamObj.loadRadtan, CamObj.loadCameraMatrix, hK, hc]

lemma load_equidist (o : CamObj) (f : CalibFile) {fx s cx a fy cy b c d : ℝ} {rest : List ℝ} (hm : f.model = "equidistant")
    (hK : FullMatrix f fx s cx a fy cy b c d rest) {k1 k2 k3 k4 : ℝ} {more : List ℝ} (hc : f.coeffs = k1 :: k2 :: k3 :: k4 :: more) :
    o.load f = some { o with type := .equidist, K := fun r s' => ![![fx, s, cx], ![a, fy, cy], ![b, c, d]] r s', k1 := k1, k2 := k2, k3 := k3, k4 := k4 } := by
  unfold FullMatrix at hK
  simp [CamObj.load, hm, CamObj.loadEquidist, CamObj.loadCameraMatrix, hK, hc]

lemma load_ds (o : CamObj) (f : CalibFile) {fx s cx a fy cy b c d : ℝ} {rest : List ℝ} (hm : f.model = "ds")
    (hK : FullMatrix f fx s cx a fy cy b c d rest) {k1 k2 : ℝ} {more : List ℝ} (hc : f.coeffs = k1 :: k2 :: more) :
    o.load f = some { o with type := .ds, K := fun r s' => ![![fx, s, cx], ![a, fy, cy], ![b, c, d]] r s', k1 := k1, k2 := k2, radius := f.radius.or o.radius } := by
  unfold FullMatrix at hK
  simp only [CamObj.load, hm, CamObj.loadDoubleSphere, CamObj.loadCameraMatrix, hK, hc]
  cases f.radius <;> simp

/-- `plumb_bob` files: whatever the object held before, the camera projects by Brown's model with the coefficients of the file
in the order `k1, k2, p1, p2, k3`. -/
theorem C83_plumb_bob (o : CamObj) (f : CalibFile) (fx s cx a fy cy b c d : ℝ) (rest : List ℝ) (hm : f.model = "plumb_bob")
    (hK : FullMatrix f fx s cx a fy cy b c d rest) (k1 k2 p1 p2 k3 : ℝ) (more : List ℝ) (hc : f.coeffs = k1 :: k2 :: p1 :: p2 :: k3 :: more)
    (v : V3) (hv : 0 < v.z) :
    ∃ o', o.load f = some o' ∧ o'.cam.bearingToPixel v = some (pinholePix fx fy cx cy (plumbBob k1 k2 p1 p2 k3 v)) := by
  refine ⟨_, load_radtan o f hm hK hc, ?_⟩
  simp only [Camera.bearingToPixel, if_neg (not_le.mpr hv), CamObj.cam, Camera.distort, Camera.distortRadtan, pinholePix, plumbBob]
  simp
  constructor <;> ring_nf <;> simp

/-- `equidistant` files: away from the optical axis the camera projects by the Kannala-Brandt model; within `1e-8` of the axis
(on the normalised plane) it is undistorted. -/
theorem C83_equidistant (o : CamObj) (f : CalibFile) (fx s cx a fy cy b c d : ℝ) (rest : List ℝ) (hm : f.model = "equidistant")
    (hK : FullMatrix f fx s cx a fy cy b c d rest) (k1 k2 k3 k4 : ℝ) (more : List ℝ) (hc : f.coeffs = k1 :: k2 :: k3 :: k4 :: more)
    (v : V3) (hv : 0 < v.z) :
    ∃ o', o.load f = some o' ∧
      (1e-8 * v.z ≤ Real.sqrt (v.x ^ 2 + v.y ^ 2) → o'.cam.bearingToPixel v = some (pinholePix fx fy cx cy (equidistant k1 k2 k3 k4 v))) ∧
      (Real.sqrt (v.x ^ 2 + v.y ^ 2) < 1e-8 * v.z → o'.cam.bearingToPixel v = some (pinholePix fx fy cx cy ⟨v.x / v.z, v.y / v.z⟩)) := by
  refine ⟨_, load_equidist o f hm hK hc, ?_⟩
  have hr : Real.sqrt (v.x / v.z * (v.x / v.z) + v.y / v.z * (v.y / v.z)) = Real.sqrt (v.x ^ 2 + v.y ^ 2) / v.z := by
    refine sqrt_scale hv ?_
    field_simp
  simp only [Camera.bearingToPixel, if_neg (not_le.mpr hv), CamObj.cam, Camera.distort, Camera.distortEquidist, pinholePix, hr]
  constructor
  · intro h
    have hρ : 0 < Real.sqrt (v.x ^ 2 + v.y ^ 2) := lt_of_lt_of_le (by positivity) h
    rw [if_neg (by rw [not_lt, le_div_iff₀ hv]; exact h)]
    have hθ : Real.arctan (Real.sqrt (v.x ^ 2 + v.y ^ 2) / v.z) = Real.arccos (v.z / v.norm) := by
      have hnorm : v.norm = Real.sqrt (v.x ^ 2 + v.y ^ 2 + v.z ^ 2) := by simp only [V3.norm, V3.normSq]
      have hn : 0 < v.norm := by rw [hnorm]; exact Real.sqrt_pos.mpr (by positivity)
      rw [Real.arctan_eq_arccos (by positivity)]
      congr 1
      have : Real.sqrt (1 + (Real.sqrt (v.x ^ 2 + v.y ^ 2) / v.z) ^ 2) = v.norm / v.z := by
        rw [hnorm, div_pow, Real.sq_sqrt (by positivity)]
        refine sqrt_scale hv ?_
        field_simp
        ring
      rw [this, inv_div]
    simp only [hθ, equidistant]
    simp
    constructor <;> left <;> field_simp <;> norm_num
  · intro h
    rw [if_pos (by rw [div_lt_iff₀ hv]; exact h)]
    simp

/-- `ds` files: away from the axis the camera projects by the double-sphere model with `ξ`, `α` from the file. -/
theorem C83_double_sphere (o : CamObj) (f : CalibFile) (fx s cx a fy cy b c d : ℝ) (rest : List ℝ) (hm : f.model = "ds")
    (hK : FullMatrix f fx s cx a fy cy b c d rest) (ξ α : ℝ) (more : List ℝ) (hc : f.coeffs = ξ :: α :: more)
    (v : V3) (hv : 0 < v.z) (haxis : 1e-8 * v.z ≤ Real.sqrt (v.x ^ 2 + v.y ^ 2)) :
    ∃ o', o.load f = some o' ∧ o'.cam.bearingToPixel v = some (pinholePix fx fy cx cy (doubleSphere ξ α v)) := by
  refine ⟨_, load_ds o f hm hK hc, ?_⟩
  have hr : ¬ (v.x / v.z * (v.x / v.z) + v.y / v.z * (v.y / v.z) < 1e-16) := by
    rw [not_lt]
    have h1 : (1e-8 * v.z) ^ 2 ≤ v.x ^ 2 + v.y ^ 2 := by
      calc (1e-8 * v.z) ^ 2 ≤ Real.sqrt (v.x ^ 2 + v.y ^ 2) ^ 2 := by gcongr
        _ = _ := Real.sq_sqrt (by positivity)
    have e : v.x / v.z * (v.x / v.z) + v.y / v.z * (v.y / v.z) = (v.x ^ 2 + v.y ^ 2) / v.z ^ 2 := by field_simp
    rw [e, le_div_iff₀ (by positivity)]
    calc (1e-16 : ℝ) * v.z ^ 2 = (1e-8 * v.z) ^ 2 := by rw [mul_pow]; norm_num
      _ ≤ _ := h1
  simp only [Camera.bearingToPixel, if_neg (not_le.mpr hv), CamObj.cam, Camera.distort, Camera.distortDoubleSphere, if_neg hr, pinholePix]
  have hd1 : Real.sqrt (v.x / v.z * (v.x / v.z) + v.y / v.z * (v.y / v.z) + 1.0) = Real.sqrt (v.x ^ 2 + v.y ^ 2 + v.z ^ 2) / v.z := by
    refine sqrt_scale hv ?_
    norm_num
    field_simp
  set D1 := Real.sqrt (v.x ^ 2 + v.y ^ 2 + v.z ^ 2) with hD1
  have hd2 : Real.sqrt (v.x / v.z * (v.x / v.z) + v.y / v.z * (v.y / v.z) + (ξ * (D1 / v.z) + 1.0) * (ξ * (D1 / v.z) + 1.0)) =
      Real.sqrt (v.x ^ 2 + v.y ^ 2 + (ξ * D1 + v.z) ^ 2) / v.z := by
    refine sqrt_scale hv ?_
    norm_num
    field_simp
  have hden : Camera.dsDen (CamObj.cam { o with type := .ds, K := fun r s' => ![![fx, s, cx], ![a, fy, cy], ![b, c, d]] r s', k1 := ξ, k2 := α, radius := f.radius.or o.radius }) ⟨v.x / v.z, v.y / v.z⟩ =
      (α * Real.sqrt (v.x ^ 2 + v.y ^ 2 + (ξ * D1 + v.z) ^ 2) + (1 - α) * (ξ * D1 + v.z)) / v.z := by
    simp only [Camera.dsDen, CamObj.cam, hd1, hd2]
    norm_num
    field_simp
  simp only [CamObj.cam] at hden
  rw [hden]
  simp only [doubleSphere, ← hD1]
  set den := α * Real.sqrt (v.x ^ 2 + v.y ^ 2 + (ξ * D1 + v.z) ^ 2) + (1 - α) * (ξ * D1 + v.z)
  have e : ∀ w : ℝ, w / v.z * (1.0 / (den / v.z)) = w / den := by
    intro w
    rcases eq_or_ne den 0 with h0 | h0
    · simp [h0]
    · norm_num; field_simp
  simp [e]

/-- Number of coefficients a file of that model must have. -/
def needed (model : String) : ℕ := if model = "plumb_bob" then 5 else if model = "equidistant" then 4 else 2

/-- The models the code knows. -/
def Known (model : String) : Prop := model = "plumb_bob" ∨ model = "equidistant" ∨ model = "ds"

lemma list9 {l : List ℝ} (h : 9 ≤ l.length) : ∃ a b c d e f g i j rest, l = a :: b :: c :: d :: e :: f :: g :: i :: j :: rest := by
  match l, h with
  | a :: b :: c :: d :: e :: f :: g :: i :: j :: rest, _ => exact ⟨a, b, c, d, e, f, g, i, j, rest, rfl⟩

lemma loadCameraMatrix_short (o : CamObj) (f : CalibFile) (h : f.matrix.length < 9) : o.loadCameraMatrix f = none := by
  unfold CamObj.loadCameraMatrix
  have h8 : f.matrix[8]? = none := List.getElem?_eq_none (by omega)
  simp only [h8, Option.bind_eq_bind, Option.bind_none, Option.bind_fun_none]

/-- A file is accepted exactly if its model is unknown (then it is ignored) or it has a full camera matrix and enough
coefficients; otherwise an exception is raised. -/
theorem C83_accepted (o : CamObj) (f : CalibFile) :
    (o.load f).isSome ↔ ¬ Known f.model ∨ (9 ≤ f.matrix.length ∧ needed f.model ≤ f.coeffs.length) := by
  by_cases hk : Known f.model
  · simp only [hk, not_true_eq_false, false_or]
    constructor
    · intro h
      by_contra hc
      have hnone : o.load f = none := by
        by_cases h9 : 9 ≤ f.matrix.length
        · have hc : f.coeffs.length < needed f.model := by
            by_contra h'; exact hc ⟨h9, by omega⟩
          rcases hk with h1 | h1 | h1 <;> simp only [h1, needed] at hc <;>
            simp only [CamObj.load, h1, CamObj.loadRadtan, CamObj.loadEquidist, CamObj.loadDoubleSphere]
          · have : f.coeffs[4]? = none := List.getElem?_eq_none (by simpa using Nat.lt_succ_iff.mp hc)
            simp [this]
          · have : f.coeffs[3]? = none := List.getElem?_eq_none (by simpa using Nat.lt_succ_iff.mp hc)
            simp [this]
          · have : f.coeffs[1]? = none := List.getElem?_eq_none (by simpa using Nat.lt_succ_iff.mp hc)
            simp [this]
        · push Not at h9
          rcases hk with h1 | h1 | h1 <;>
            simp [CamObj.load, h1, CamObj.loadRadtan, CamObj.loadEquidist, CamObj.loadDoubleSphere, loadCameraMatrix_short _ f h9]
      rw [hnone] at h; cases h
    · rintro ⟨h9, hc⟩
      obtain ⟨a, b, c, d, e, g, i, j, k, rest, hK⟩ := list9 h9
      rcases hk with h1 | h1 | h1 <;> simp only [h1, needed] at hc
      · match hl : f.coeffs, hc with
        | k1 :: k2 :: k3 :: k4 :: k5 :: more, _ => rw [load_radtan o f h1 hK hl]; rfl
      · match hl : f.coeffs, hc with
        | k1 :: k2 :: k3 :: k4 :: more, _ => rw [load_equidist o f h1 hK hl]; rfl
      · match hl : f.coeffs, hc with
        | k1 :: k2 :: more, _ => rw [load_ds o f h1 hK hl]; rfl
  · simp only [hk, not_false_eq_true, true_or, iff_true]
    unfold Known at hk
    push Not at hk
    simp [CamObj.load, hk.1, hk.2.1, hk.2.2]

/-- Loading a file of a known model forgets what the camera was before: projection, linearised projection and back-projection
depend on the file only. -/
theorem C83_history (o o2 : CamObj) (f : CalibFile) (hk : Known f.model) (x y : CamObj) (h1 : o.load f = some x) (h2 : o2.load f = some y) :
    (∀ v, x.cam.bearingToPixel v = y.cam.bearingToPixel v) ∧ (∀ v, x.cam.bearingToPixelJ v = y.cam.bearingToPixelJ v) ∧
    ∀ c, x.cam.pixelToBearing c = y.cam.pixelToBearing c := by
  have hs := (C83_accepted o f).mp (by rw [h1]; rfl)
  obtain ⟨h9, hc⟩ := hs.resolve_left (not_not.mpr hk)
  obtain ⟨a, b, c, d, e, g, i, j, k, rest, hK⟩ := list9 h9
  have main : x.cam.distort = y.cam.distort ∧ x.cam.distortJ = y.cam.distortJ ∧ x.cam.fx = y.cam.fx ∧ x.cam.fy = y.cam.fy ∧ x.cam.cx = y.cam.cx ∧ x.cam.cy = y.cam.cy := by
    rcases hk with hm | hm | hm <;> simp only [hm, needed] at hc
    · match hl : f.coeffs, hc with
      | k1 :: k2 :: k3 :: k4 :: k5 :: more, _ =>
        rw [load_radtan o f hm hK hl] at h1
        rw [load_radtan o2 f hm hK hl] at h2
        simp only [Option.some.injEq] at h1 h2
        subst h1 h2
        exact ⟨rfl, rfl, rfl, rfl, rfl, rfl⟩
    · match hl : f.coeffs, hc with
      | k1 :: k2 :: k3 :: k4 :: more, _ =>
        rw [load_equidist o f hm hK hl] at h1
        rw [load_equidist o2 f hm hK hl] at h2
        simp only [Option.some.injEq] at h1 h2
        subst h1 h2
        exact ⟨rfl, rfl, rfl, rfl, rfl, rfl⟩
    · match hl : f.coeffs, hc with
      | k1 :: k2 :: more, _ =>
        rw [load_ds o f hm hK hl] at h1
        rw [load_ds o2 f hm hK hl] at h2
        simp only [Option.some.injEq] at h1 h2
        subst h1 h2
        exact ⟨rfl, rfl, rfl, rfl, rfl, rfl⟩
  obtain ⟨m1, m2, m3, m4, m5, m6⟩ := main
  have hgn : ∀ (w : V2) (fuel : ℕ) (yb : Option V2), x.cam.gnLoop w fuel yb = y.cam.gnLoop w fuel yb := by
    intro w fuel
    induction fuel with
    | zero => intro yb; cases yb <;> rfl
    | succ m ih => intro yb; cases yb <;> simp only [Camera.gnLoop, ih, m2]
  refine ⟨fun v => ?_, fun v => ?_, fun p => ?_⟩
  · simp only [Camera.bearingToPixel, m1, m3, m4, m5, m6]
  · simp only [Camera.bearingToPixelJ, m2, m3, m4, m5, m6]
  · simp only [Camera.pixelToBearing, m3, m4, m5, m6, hgn]

/-- Finding: a file of a model the code does not know (including misspelled names) is ignored: the camera keeps what it had, at the
first load an undistorted camera with unit focal length. -/
theorem C83_finding_unknown_model (o : CamObj) (f : CalibFile) (h : ¬ Known f.model) : o.load f = some o := by
  unfold Known at h
  push Not at h
  simp [CamObj.load, h.1, h.2.1, h.2.2]

example : CamObj.init.load ⟨"radtan", [458, 0, 367, 0, 457, 248, 0, 0, 1], [-0.28, 0.07, 0, 0, 0], none⟩ = some CamObj.init :=
  C83_finding_unknown_model _ _ (by unfold Known; decide)

/-- A camera without a calibration file, or with a first file of an unknown model, is an ideal pinhole camera with unit focal
length: forward points go to the normalised image plane, pixels go back to their unit rays, and detection is not limited. -/
theorem C83_uncalibrated (o : CamObj) (h : o = CamObj.init ∨ ∃ f, ¬ Known f.model ∧ CamObj.init.load f = some o) :
    (∀ v : V3, 0 < v.z → o.cam.bearingToPixel v = some (pinholePix 1 1 0 0 ⟨v.x / v.z, v.y / v.z⟩)) ∧
    (∀ c : V2, ∃ v : V3, o.cam.pixelToBearing c = .ok v ∧ v.norm = 1 ∧ 0 < v.z ∧ v.x = c.x * v.z ∧ v.y = c.y * v.z) ∧
    o.radius = none := by
  have ho : o = CamObj.init := by
    rcases h with h | ⟨f, hk, h⟩
    · exact h
    · rw [C83_finding_unknown_model _ _ hk] at h
      exact (Option.some.inj h).symm
  subst ho
  have hu : CamObj.init.cam.Undistorted := by left; simp [CamObj.init, CamObj.cam]
  have hf : ∀ v : V3, 0 < v.z → CamObj.init.cam.bearingToPixel v = some (pinholePix 1 1 0 0 ⟨v.x / v.z, v.y / v.z⟩) := by
    intro v hv
    simp [Camera.bearingToPixel, not_le.mpr hv, CamObj.init, CamObj.cam, Camera.distort, Camera.distortRadtan, pinholePix]
  refine ⟨hf, fun c => ?_, rfl⟩
  obtain ⟨v, h1, h2, h3⟩ := Camera.C14_undistorted_roundtrip CamObj.init.cam hu (by simp [CamObj.init, CamObj.cam]) (by simp [CamObj.init, CamObj.cam]) c
  have hz : 0 < v.z := (Camera.C14_success _ _ _ h1).2.1
  rw [hf v hz] at h3
  simp only [Option.some.injEq, pinholePix, V2.ext_iff] at h3
  refine ⟨v, h1, h2, hz, ?_, ?_⟩
  · rw [← h3.1]; field_simp; ring
  · rw [← h3.2]; field_simp; ring

example : ∃ v : V3, CamObj.init.cam.pixelToBearing ⟨1, 2⟩ = .ok v ∧ v.x = 1 * v.z := by
  obtain ⟨v, h, -, -, hx, -⟩ := (C83_uncalibrated CamObj.init (Or.inl rfl)).2.1 ⟨1, 2⟩
  exact ⟨v, h, hx⟩

/-- C83: the camera of the other properties that is called the default one is the camera that was never calibrated. -/
theorem C83_default : CamObj.init.cam = Camera.default' := rfl

example : (Camera.default').bearingToPixel ⟨1, 2, 4⟩ = some (pinholePix 1 1 0 0 ⟨1 / 4, 2 / 4⟩) :=
  C83_default ▸ (C83_uncalibrated CamObj.init (Or.inl rfl)).1 ⟨1, 2, 4⟩ (by norm_num)

/-- Finding: the detection radius outlives the calibration it came from: only a `ds` file with an own radius replaces it. -/
theorem C83_finding_stale_radius (o x : CamObj) (f : CalibFile) (h : o.load f = some x) :
    x.radius = if f.model = "ds" then f.radius.or o.radius else o.radius := by
  by_cases hk : Known f.model
  · have hs := (C83_accepted o f).mp (by rw [h]; rfl)
    obtain ⟨h9, hc⟩ := hs.resolve_left (not_not.mpr hk)
    obtain ⟨a, b, c, d, e, g, i, j, k, rest, hK⟩ := list9 h9
    rcases hk with hm | hm | hm <;> simp only [hm, needed] at hc
    · match hl : f.coeffs, hc with
      | k1 :: k2 :: k3 :: k4 :: k5 :: more, _ =>
        rw [load_radtan o f hm hK hl] at h
        simp only [Option.some.injEq] at h; subst h; simp [hm]
    · match hl : f.coeffs, hc with
      | k1 :: k2 :: k3 :: k4 :: more, _ =>
        rw [load_equidist o f hm hK hl] at h
        simp only [Option.some.injEq] at h; subst h; simp [hm]
    · match hl : f.coeffs, hc with
      | k1 :: k2 :: more, _ =>
        rw [load_ds o f hm hK hl] at h
        simp only [Option.some.injEq] at h; subst h; simp [hm]
  · rw [C83_finding_unknown_model o f hk, Option.some.injEq] at h
    subst h
    unfold Known at hk
    push Not at hk
    simp [hk.2.2]

/-- Finding: the skew (and every other entry of the camera matrix except focal lengths and principal point) is read but not
used. -/
theorem C83_finding_skew (o x y : CamObj) (f f' : CalibFile) (fx s s' cx a a' fy cy b b' c c' d d' : ℝ) (rest : List ℝ)
    (hK : FullMatrix f fx s cx a fy cy b c d rest) (hK' : FullMatrix f' fx s' cx a' fy cy b' c' d' rest)
    (hmod : f'.model = f.model) (hco : f'.coeffs = f.coeffs) (h1 : o.load f = some x) (h2 : o.load f' = some y) : x.cam = y.cam := by
  by_cases hk : Known f.model
  · have hs := (C83_accepted o f).mp (by rw [h1]; rfl)
    obtain ⟨h9, hc⟩ := hs.resolve_left (not_not.mpr hk)
    rcases hk with hm | hm | hm <;> simp only [hm, needed] at hc
    · match hl : f.coeffs, hc with
      | k1 :: k2 :: k3 :: k4 :: k5 :: more, _ =>
        rw [load_radtan o f hm hK hl] at h1
        rw [load_radtan o f' (hmod.trans hm) hK' (hco.trans hl)] at h2
        simp only [Option.some.injEq] at h1 h2
        subst h1 h2; rfl
    · match hl : f.coeffs, hc with
      | k1 :: k2 :: k3 :: k4 :: more, _ =>
        rw [load_equidist o f hm hK hl] at h1
        rw [load_equidist o f' (hmod.trans hm) hK' (hco.trans hl)] at h2
        simp only [Option.some.injEq] at h1 h2
        subst h1 h2; rfl
    · match hl : f.coeffs, hc with
      | k1 :: k2 :: more, _ =>
        rw [load_ds o f hm hK hl] at h1
        rw [load_ds o f' (hmod.trans hm) hK' (hco.trans hl)] at h2
        simp only [Option.some.injEq] at h1 h2
        subst h1 h2; rfl
  · rw [C83_finding_unknown_model o f hk] at h1
    rw [C83_finding_unknown_model o f' (hmod ▸ hk)] at h2
    rw [← Option.some.inj h1, ← Option.some.inj h2]

/-- Applying the configuration: every camera with a calibration file holds that file, the others are untouched; every feature slot
uses the configured parametrisation (`1` inverse, `2` logarithmic, `3` hyperbolic, anything else regular) and keeps its
number; the direct method selects the iterated filter; nothing else of the initial state changes. -/
theorem C83_refresh (disk : String → Option CalibFile) (x y : FilterCfg n nCam nPose) (h : x.refresh disk = some y) :
    (∀ c, x.files c = "" → y.cams c = x.cams c) ∧
    (∀ c, x.files c ≠ "" → ∃ f, disk (x.files c) = some f ∧ (x.cams c).load f = some (y.cams c)) ∧
    (∀ i, (y.init.fea i).c = (x.init.fea i).c ∧ (y.init.fea i).d.p = (x.init.fea i).d.p ∧
      (y.init.fea i).d.type = if x.depthType = 1 then .inverse else if x.depthType = 2 then .log else if x.depthType = 3 then .hyperbolic else .regular) ∧
    (y.mode = .iekf ↔ x.useDirect = true) ∧ { y.init with fea := x.init.fea } = x.init ∧
    y.files = x.files ∧ y.useDirect = x.useDirect ∧ y.depthType = x.depthType := by
  unfold FilterCfg.refresh at h
  split at h
  · rename_i hs
    simp only [Option.some.injEq] at h
    subst h
    refine ⟨fun c hc => ?_, fun c hc => ?_, fun i => ⟨rfl, ?_, ?_⟩, ?_, rfl, rfl, rfl, rfl⟩
    · have : loadAll disk x.files x.cams c = some (x.cams c) := by simp [loadAll, hc]
      simp [this]
    · have h1 := hs c
      have e : loadAll disk x.files x.cams c = (disk (x.files c)).bind (x.cams c).load := by simp [loadAll, hc]
      obtain ⟨z, hz⟩ := Option.isSome_iff_exists.mp h1
      rw [e] at hz
      obtain ⟨f, hf, hl⟩ := Option.bind_eq_some_iff.mp hz
      refine ⟨f, hf, ?_⟩
      simp only [e, hz, Option.get_some, hl]
    · simp only [setTypeInt]; split_ifs <;> rfl
    · simp only [setTypeInt]
      by_cases h1 : x.depthType = 1
      · simp [h1]
      · by_cases h2 : x.depthType = 2
        · simp [h2]
        · by_cases h3 : x.depthType = 3
          · simp [h3]
          · by_cases h0 : x.depthType = 0 <;> simp [h1, h2, h3, h0]
    · cases hd : x.useDirect <;> simp
  · cases h

/-- Start of the node: a calibration path given as ROS parameter wins over the one in the info file, and the camera then projects
as if only that file had ever been loaded. -/
theorem C83_start (disk : String → Option CalibFile) (ros : Fin nCam → Option String) (x y : FilterCfg n nCam nPose) (h : x.startNode disk ros = some y)
    (c : Fin nCam) (hp : (ros c).getD (x.files c) ≠ "") :
    ∃ f, disk ((ros c).getD (x.files c)) = some f ∧ (Known f.model → ∃ o, CamObj.init.load f = some o ∧
      (∀ v, (y.cams c).cam.bearingToPixel v = o.cam.bearingToPixel v) ∧ ∀ p, (y.cams c).cam.pixelToBearing p = o.cam.pixelToBearing p) := by
  unfold FilterCfg.startNode at h
  obtain ⟨z, hz, h⟩ := Option.bind_eq_some_iff.mp h
  have hfiles := (C83_refresh disk x z hz).2.2.2.2.2.1
  obtain ⟨f, hf, hl⟩ := (C83_refresh disk _ y h).2.1 c (by simpa [hfiles] using hp)
  simp only [hfiles] at hf
  refine ⟨f, hf, fun hk => ?_⟩
  have hacc := (C83_accepted _ f).mp (by rw [hl]; rfl)
  obtain ⟨o, ho⟩ := Option.isSome_iff_exists.mp ((C83_accepted CamObj.init f).mpr hacc)
  obtain ⟨e1, -, e3⟩ := C83_history _ _ f hk _ _ hl ho
  exact ⟨o, ho, e1, e3⟩

/-! Non-vacuity: the EuRoC calibration. -/

/-- cfg/euroc_cam0.yaml. -/
noncomputable def eurocCam0 : CalibFile :=
  ⟨"plumb_bob", [458.654, 0.0, 367.215, 0.0, 457.296, 248.375, 0.0, 0.0, 1.0], [-0.28340811, 0.07395907, 0.00019359, 1.76187114e-05, 0.0], none⟩

example (o : CamObj) (v : V3) (hv : 0 < v.z) : ∃ o', o.load eurocCam0 = some o' ∧
    o'.cam.bearingToPixel v = some (pinholePix 458.654 457.296 367.215 248.375 (plumbBob (-0.28340811) 0.07395907 0.00019359 1.76187114e-05 0.0 v)) :=
  C83_plumb_bob o eurocCam0 _ _ _ _ _ _ _ _ _ [] rfl rfl _ _ _ _ _ [] rfl v hv

example : (CamObj.init.load { eurocCam0 with coeffs := [-0.28340811, 0.07395907, 0.00019359, 1.76187114e-05] }).isSome = false := by
  rw [← Bool.not_eq_true, C83_accepted]
  simp [eurocCam0, Known, needed]

example (x : FilterCfg 2 1 0) (hx : x.files 0 = "a.yaml") :
    ∃ y, x.startNode (fun p => if p = "a.yaml" ∨ p = "b.yaml" then some eurocCam0 else none) (fun _ => some "b.yaml") = some y := by
  have hs : ∀ o : CamObj, (o.load eurocCam0).isSome := fun o => (C83_accepted o _).mpr (.inr ⟨by simp [eurocCam0], by simp [eurocCam0, needed]⟩)
  set disk : String → Option CalibFile := fun p => if p = "a.yaml" ∨ p = "b.yaml" then some eurocCam0 else none with hd
  have h1 : ∀ c, (loadAll disk x.files x.cams c).isSome := by
    intro c
    fin_cases c
    simp [loadAll, hd, hx, hs]
  unfold FilterCfg.startNode FilterCfg.refresh
  rw [dif_pos h1]
  simp only [Option.bind_eq_bind, Option.bind_some]
  rw [dif_pos (by intro c; fin_cases c; simp [loadAll, hd, hs])]
  exact ⟨_, rfl⟩

end Rovio
