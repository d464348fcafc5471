import Verif.Lemmas.Patch
import Verif.Spec.Image
import Mathlib.Algebra.BigOperators.Group.Finset.Basic
import Mathlib.Tactic.FieldSimp
import Mathlib.Algebra.Order.Ring.Pow

/-! Helper lemmas for the image pyramid. -/

namespace Rovio

lemma halfPixel_eq {img : Img} {y x : ℕ} (hy : y < img.rows / 2) (hx : x < img.cols / 2) :
    halfPixel img y x = some ((img.px (2 * y) (2 * x) + img.px (2 * y) (2 * x + 1)
      + img.px (2 * y + 1) (2 * x) + img.px (2 * y + 1) (2 * x + 1)) / 4 % 256) := by
  unfold halfPixel
  rw [Img.read_some (by omega) (by omega) (by omega) (by omega),
    Img.read_some (by omega) (by omega) (by omega) (by omega),
    Img.read_some (by omega) (by omega) (by omega) (by omega),
    Img.read_some (by omega) (by omega) (by omega) (by omega)]
  have e1 : (2 * (y : ℤ)).toNat = 2 * y := by omega
  have e2 : (2 * (x : ℤ)).toNat = 2 * x := by omega
  have e3 : (2 * (y : ℤ) + 1).toNat = 2 * y + 1 := by omega
  have e4 : (2 * (x : ℤ) + 1).toNat = 2 * x + 1 := by omega
  simp only [e1, e2, e3, e4, Option.bind_eq_bind, Option.bind_some, Option.pure_def]

lemma halfSample_spec (img : Img) : ∃ out, halfSample img = some out ∧ out.rows = img.rows / 2 ∧
    out.cols = img.cols / 2 ∧ ∀ y < img.rows / 2, ∀ x < img.cols / 2,
      out.px y x = (img.px (2 * y) (2 * x) + img.px (2 * y) (2 * x + 1)
        + img.px (2 * y + 1) (2 * x) + img.px (2 * y + 1) (2 * x + 1)) / 4 % 256 := by
  obtain ⟨g, hg⟩ := fill_total (d := 0) (h := img.rows / 2) (w := img.cols / 2) (f := halfPixel img)
    (fun y hy x hx => ⟨_, halfPixel_eq hy hx⟩)
  refine ⟨⟨img.rows / 2, img.cols / 2, g⟩, by simp [halfSample, hg], rfl, rfl, ?_⟩
  intro y hy x hx
  have := fill_get hg hy hx
  rw [halfPixel_eq hy hx] at this
  exact (Option.some.inj this).symm

lemma nextLevel_total (cv : Option (Img → ℕ → ℕ → ℕ)) (i : ℕ) (a : Level) : ∃ b, nextLevel cv i a = some b := by
  unfold nextLevel
  cases cv with
  | some d => exact ⟨_, rfl⟩
  | none =>
    obtain ⟨o, ho, _⟩ := halfSample_spec a.img
    simp [ho]

lemma levelsFrom_total (cv : Option (Img → ℕ → ℕ → ℕ)) : ∀ n i a, ∃ ls, levelsFrom cv n i a = some ls
  | 0, _, _ => ⟨_, rfl⟩
  | 1, _, _ => ⟨_, rfl⟩
  | n + 2, i, a => by
    obtain ⟨b, hb⟩ := nextLevel_total cv i a
    obtain ⟨ls, hl⟩ := levelsFrom_total cv (n + 1) (i + 1) b
    exact ⟨a :: ls, by simp [levelsFrom, hb, hl]⟩

lemma levelsFrom_spec (cv : Option (Img → ℕ → ℕ → ℕ)) : ∀ (n i : ℕ) (a : Level) (ls : List Level), levelsFrom cv n i a = some ls →
    ls.length = n ∧ (0 < n → ls[0]? = some a) ∧
    ∀ j, j + 1 < n → ∃ u v, ls[j]? = some u ∧ ls[j + 1]? = some v ∧ nextLevel cv (i + j) u = some v
  | 0, i, a, ls, h => by simp [levelsFrom] at h; subst h; simp
  | 1, i, a, ls, h => by simp [levelsFrom] at h; subst h; simp
  | n + 2, i, a, ls, h => by
    obtain ⟨b, hb⟩ := nextLevel_total cv i a
    obtain ⟨ms, hm⟩ := levelsFrom_total cv (n + 1) (i + 1) b
    have := levelsFrom_spec cv (n + 1) (i + 1) b ms hm
    simp [levelsFrom, hb, hm] at h
    subst h
    obtain ⟨h1, h2, h3⟩ := this
    refine ⟨by simp [h1], by simp, ?_⟩
    intro j hj
    cases j with
    | zero => exact ⟨a, b, by simp, by simpa using h2 (by omega), by simpa using hb⟩
    | succ j =>
      obtain ⟨u, v, k1, k2, k3⟩ := h3 j (by omega)
      exact ⟨u, v, by simpa using k1, by simpa using k2, by rw [← k3]; congr 1; omega⟩

lemma half_zpow (j : ℕ) : (0.5 : ℝ) ^ (2 - ((1 + j : ℕ) : ℤ)) = 2 ^ j / 2 := by
  have h : (0.5 : ℝ) = 2⁻¹ := by norm_num
  have e : (2 - ((1 + j : ℕ) : ℤ)) = -((j : ℤ) - 1) := by push_cast; ring
  rw [h, e, zpow_neg, inv_zpow, inv_inv, zpow_sub₀ (by norm_num)]
  simp

/-- One step of the construction. -/
lemma nextLevel_size {cv : Option (Img → ℕ → ℕ → ℕ)} {i : ℕ} {a b : Level} (h : nextLevel cv i a = some b) :
    b.img.rows = a.img.rows / 2 ∧ b.img.cols = a.img.cols / 2 := by
  unfold nextLevel at h
  cases cv with
  | some d => simp at h; subst h; exact ⟨rfl, rfl⟩
  | none =>
    obtain ⟨o, ho, h1, h2, _⟩ := halfSample_spec a.img
    simp [ho] at h
    subst h
    exact ⟨h1, h2⟩

/-- The integer added on by `useCv`. -/
def cvOff (cv : Option (Img → ℕ → ℕ → ℕ)) : ℕ := if cv.isSome then 1 else 0

lemma nextLevel_center {cv : Option (Img → ℕ → ℕ → ℕ)} {j : ℕ} {a b : Level} (h : nextLevel cv (1 + j) a = some b) :
    b.center.x = a.center.x - 2 ^ j / 2 * ((a.img.rows % 2 + cvOff cv : ℕ) : ℝ) ∧
    b.center.y = a.center.y - 2 ^ j / 2 * ((a.img.cols % 2 + cvOff cv : ℕ) : ℝ) := by
  unfold nextLevel at h
  cases cv with
  | some d =>
    simp only [half_zpow, Option.some.injEq] at h
    subst h
    exact ⟨rfl, rfl⟩
  | none =>
    obtain ⟨o, ho, h1, h2, _⟩ := halfSample_spec a.img
    simp only [ho, half_zpow, Option.bind_eq_bind, Option.bind_some, Option.pure_def, Option.some.injEq] at h
    subst h
    exact ⟨rfl, rfl⟩

/-- Sizes of all levels. -/
lemma pyr_size {L : ℕ} {img : Img} {cv : Option (Img → ℕ → ℕ → ℕ)} {pyr : List Level}
    (h : computeFromImage L img cv = some pyr) :
    ∀ l, l < L → ∃ a, pyr[l]? = some a ∧ a.img.rows = img.rows / 2 ^ l ∧ a.img.cols = img.cols / 2 ^ l := by
  obtain ⟨h1, h2, h3⟩ := levelsFrom_spec cv _ _ _ _ h
  intro l
  induction l with
  | zero => intro hl; exact ⟨_, h2 hl, by simp, by simp⟩
  | succ l ih =>
    intro hl
    obtain ⟨a, ha, ha1, ha2⟩ := ih (by omega)
    obtain ⟨u, v, k1, k2, k3⟩ := h3 l hl
    rw [ha] at k1
    simp only [Option.some.injEq] at k1
    subst k1
    obtain ⟨s1, s2⟩ := nextLevel_size k3
    exact ⟨v, k2, by rw [s1, ha1, Nat.div_div_eq_div_mul, pow_succ], by rw [s2, ha2, Nat.div_div_eq_div_mul, pow_succ]⟩

lemma pyr_zero {L : ℕ} {img : Img} {cv : Option (Img → ℕ → ℕ → ℕ)} {pyr : List Level}
    (h : computeFromImage L img cv = some pyr) (hL : 0 < L) : pyr[0]? = some ⟨img, 0⟩ :=
  (levelsFrom_spec cv _ _ _ _ h).2.1 hL

lemma pyr_step {L : ℕ} {img : Img} {cv : Option (Img → ℕ → ℕ → ℕ)} {pyr : List Level}
    (h : computeFromImage L img cv = some pyr) {j : ℕ} (hj : j + 1 < L) :
    ∃ u v, pyr[j]? = some u ∧ pyr[j + 1]? = some v ∧ nextLevel cv (1 + j) u = some v :=
  (levelsFrom_spec cv _ _ _ _ h).2.2 j hj

/-- Distance of the centres of two levels when every step subtracts between `lo/2` and `hi/2` units. -/
lemma pyr_centers {L : ℕ} {img : Img} {cv : Option (Img → ℕ → ℕ → ℕ)} {pyr : List Level}
    (h : computeFromImage L img cv = some pyr) {K : ℝ}
    (hK : ∀ j a, j + 1 < L → pyr[j]? = some a →
      ((a.img.rows % 2 + cvOff cv : ℕ) : ℝ) ≤ K ∧ ((a.img.cols % 2 + cvOff cv : ℕ) : ℝ) ≤ K) :
    ∀ l i a b, i ≤ l → l < L → pyr[i]? = some a → pyr[l]? = some b →
      b.center.x ≤ a.center.x ∧ b.center.y ≤ a.center.y ∧
      -((2 : ℝ) ^ l - 2 ^ i) / 2 * K ≤ b.center.x - a.center.x ∧
      -((2 : ℝ) ^ l - 2 ^ i) / 2 * K ≤ b.center.y - a.center.y := by
  intro l
  induction l with
  | zero =>
    intro i a b hi hl ha hb
    have : i = 0 := by omega
    subst this
    rw [ha] at hb
    simp only [Option.some.injEq] at hb
    subst hb
    simp
  | succ l ih =>
    intro i a b hi hl ha hb
    rcases Nat.lt_or_ge i (l + 1) with hlt | hge
    · obtain ⟨u, v, k1, k2, k3⟩ := pyr_step h hl
      rw [hb] at k2
      simp only [Option.some.injEq] at k2
      subst k2
      obtain ⟨e1, e2, e3, e4⟩ := ih i a u (by omega) (by omega) ha k1
      obtain ⟨c1, c2⟩ := nextLevel_center k3
      obtain ⟨q1, q2⟩ := hK l u hl k1
      have p : (0 : ℝ) < 2 ^ l / 2 := by positivity
      have n1 : (0 : ℝ) ≤ ((u.img.rows % 2 + cvOff cv : ℕ) : ℝ) := Nat.cast_nonneg _
      have n2 : (0 : ℝ) ≤ ((u.img.cols % 2 + cvOff cv : ℕ) : ℝ) := Nat.cast_nonneg _
      have m1 := mul_le_mul_of_nonneg_left q1 p.le
      have m2 := mul_le_mul_of_nonneg_left q2 p.le
      have z1 := mul_nonneg p.le n1
      have z2 := mul_nonneg p.le n2
      have ep : -((2 : ℝ) ^ (l + 1) - 2 ^ i) / 2 * K = -((2 : ℝ) ^ l - 2 ^ i) / 2 * K - 2 ^ l / 2 * K := by
        rw [pow_succ]; ring
      rw [ep, c1, c2]
      refine ⟨?_, ?_, ?_, ?_⟩ <;> linarith
    · have : i = l + 1 := by omega
      subst this
      rw [ha] at hb
      simp only [Option.some.injEq] at hb
      subst hb
      simp

lemma pyr_all_even {L : ℕ} {img : Img} {cv : Option (Img → ℕ → ℕ → ℕ)} {pyr : List Level}
    (h : computeFromImage L img cv = some pyr) (hr : 2 ^ (L - 1) ∣ img.rows) (hc : 2 ^ (L - 1) ∣ img.cols) :
    ∀ j a, j + 1 < L → pyr[j]? = some a → a.img.rows % 2 = 0 ∧ a.img.cols % 2 = 0 := by
  intro j a hj ha
  obtain ⟨b, hb, h1, h2⟩ := pyr_size h j (by omega)
  rw [ha] at hb
  simp only [Option.some.injEq] at hb
  subst hb
  have key : ∀ n, 2 ^ (L - 1) ∣ n → n / 2 ^ j % 2 = 0 := by
    rintro n ⟨k, rfl⟩
    have e : 2 ^ (L - 1) = 2 ^ j * (2 * 2 ^ (L - 1 - j - 1)) := by
      rw [← pow_succ', ← pow_add]; congr 1; omega
    rw [e, mul_assoc, Nat.mul_div_cancel_left _ (by positivity), mul_assoc]
    exact Nat.mul_mod_right _ _
  rw [h1, h2]
  exact ⟨key _ hr, key _ hc⟩

/-! ### Level transforms -/

lemma half_pow (l : ℕ) : (0.5 : ℝ) ^ l = 1 / 2 ^ l := by
  have h : (0.5 : ℝ) = 1 / 2 := by norm_num
  rw [h, one_div_pow]

lemma half_zpow_sub (a b : ℕ) : (0.5 : ℝ) ^ ((b : ℤ) - (a : ℤ)) = 2 ^ a / 2 ^ b := by
  have h : (0.5 : ℝ) = 2⁻¹ := by norm_num
  rw [h, inv_zpow, ← zpow_neg, neg_sub, zpow_sub₀ (by norm_num)]
  simp

lemma levelPixel_x (c1 c2 c : V2) (l1 l2 : ℕ) :
    (levelPixel c1 c2 l1 l2 c).x = (c1.x - c2.x + 2 ^ l1 * c.x) / 2 ^ l2 := by
  simp only [levelPixel, half_pow, half_zpow_sub, V2.add_x, V2.smul_x, V2.sub_x]; ring

lemma levelPixel_y (c1 c2 c : V2) (l1 l2 : ℕ) :
    (levelPixel c1 c2 l1 l2 c).y = (c1.y - c2.y + 2 ^ l1 * c.y) / 2 ^ l2 := by
  simp only [levelPixel, half_pow, half_zpow_sub, V2.add_y, V2.smul_y, V2.sub_y]; ring

lemma levelPixel_comp (c1 c2 c3 c : V2) (l1 l2 l3 : ℕ) :
    levelPixel c2 c3 l2 l3 (levelPixel c1 c2 l1 l2 c) = levelPixel c1 c3 l1 l3 c := by
  have h2 : (2 : ℝ) ^ l2 ≠ 0 := by positivity
  ext
  · rw [levelPixel_x, levelPixel_x, levelPixel_x, mul_div_cancel₀ _ h2]; ring
  · rw [levelPixel_y, levelPixel_y, levelPixel_y, mul_div_cancel₀ _ h2]; ring

lemma levelPixel_self (c1 c : V2) (l : ℕ) : levelPixel c1 c1 l l c = c := by
  have h2 : (2 : ℝ) ^ l ≠ 0 := by positivity
  ext
  · rw [levelPixel_x]; field_simp; ring
  · rw [levelPixel_y]; field_simp; ring

/-- The object returned by `levelTranformCoordinates` from a settled input. -/
lemma levelTransform_settled {junk c : FC} {pyr : List Level} {l1 l2 : ℕ} {a b : Level}
    (ha : pyr[l1]? = some a) (hb : pyr[l2]? = some b) (hs : c.Settled) :
    ∃ o, levelTransform junk pyr c l1 l2 = some (c, o) ∧ o.Settled ∧ o.isInFront = true ∧
      o.c = levelPixel a.center b.center l1 l2 c.c ∧
      o.warpC = (if c.cam.isSome then c.warpC else M2.one) ∧ o.isWarpIdentity = !c.cam.isSome := by
  unfold levelTransform
  simp only [ha, hb, hs.getC, Option.bind_eq_bind, Option.bind_some, Option.pure_def]
  cases hcam : c.cam with
  | none =>
    refine ⟨_, rfl, ⟨?_, ?_⟩, ?_, ?_, ?_, ?_⟩ <;>
      simp [FC.setC, FC.construct, FC.resetCoordinates, FC.setWarpIdentity, FC.comC, FC.isInFront]
  | some cam =>
    simp only [FC.comWarpC_valid hs.warp, FC.getWarpC_valid hs.warp, Option.bind_some, if_true]
    refine ⟨_, rfl, ⟨?_, ?_⟩, ?_, ?_, ?_, ?_⟩ <;>
      simp [FC.setC, FC.setWarpC, FC.construct, FC.resetCoordinates, FC.setWarpIdentity, FC.comC, FC.isInFront]

/-- The transform leaves the input settled once its warp is known. -/
lemma levelTransform_inv {junk c c' o : FC} {pyr : List Level} {l1 l2 : ℕ} (hv : c.validWarpC = true)
    (h : levelTransform junk pyr c l1 l2 = some (c', o)) :
    c'.Settled ∧ levelTransform junk pyr c' l1 l2 = some (c', o) ∧
      ∃ a b, pyr[l1]? = some a ∧ pyr[l2]? = some b := by
  unfold levelTransform at h
  cases ha : pyr[l1]? with
  | none => simp [ha] at h
  | some a =>
  cases hb : pyr[l2]? with
  | none => simp [ha, hb] at h
  | some b =>
  cases hg : c.getC with
  | none => simp [ha, hb, hg] at h
  | some r =>
    obtain ⟨c1, q⟩ := r
    obtain ⟨e1, e2, e3, e4, e5, e6⟩ := FC.settled_of_getC hv hg
    simp only [ha, hb, hg, Option.bind_eq_bind, Option.bind_some, Option.pure_def] at h
    have hc' : c' = c1 := by
      cases hcam : c1.cam with
      | none => simp only [hcam, Option.some.injEq, Prod.mk.injEq] at h; exact h.1.symm
      | some cam =>
        simp only [hcam, FC.comWarpC_valid e1.warp, FC.getWarpC_valid e1.warp, Option.bind_some, if_true,
          Option.some.injEq, Prod.mk.injEq] at h
        exact h.1.symm
    subst hc'
    refine ⟨e1, ?_, a, b, rfl, rfl⟩
    unfold levelTransform
    simp only [ha, hb, e1.getC, Option.bind_eq_bind, Option.bind_some, Option.pure_def]
    rw [e2] at h
    exact h

lemma levelTransform_getC {junk c c' o : FC} {pyr : List Level} {l1 l2 : ℕ} (hv : c.validWarpC = true)
    (h : levelTransform junk pyr c l1 l2 = some (c', o)) : ∃ q, c.getC = some (c', q) := by
  unfold levelTransform at h
  cases ha : pyr[l1]? with
  | none => simp [ha] at h
  | some a =>
  cases hb : pyr[l2]? with
  | none => simp [ha, hb] at h
  | some b =>
  cases hg : c.getC with
  | none => simp [ha, hb, hg] at h
  | some r =>
    obtain ⟨c1, q⟩ := r
    obtain ⟨e1, _⟩ := FC.settled_of_getC hv hg
    simp only [ha, hb, hg, Option.bind_eq_bind, Option.bind_some, Option.pure_def] at h
    refine ⟨q, ?_⟩
    cases hcam : c1.cam with
    | none => simp only [hcam, Option.some.injEq, Prod.mk.injEq] at h; rw [h.1]
    | some cam =>
      simp only [hcam, FC.comWarpC_valid e1.warp, FC.getWarpC_valid e1.warp, Option.bind_some, if_true,
        Option.some.injEq, Prod.mk.injEq] at h
      rw [h.1]

/-! ### A finer level contains the patch -/

/-- Plain test: from level `l` to level `i ≤ l`. `n` = size on level `l`, `m` = size on level `i`. -/
lemma plain_mono {h q qi n m k : ℝ} (hh : 1 ≤ h) (hk : 1 ≤ k) (hlo : k * (q - 1) + 1 ≤ qi) (hhi : qi ≤ k * q)
    (hm : k * n ≤ m) (h1 : h ≤ q) (h2 : q ≤ n - h) : h ≤ qi ∧ qi ≤ m - h := by
  constructor
  · nlinarith [mul_le_mul_of_nonneg_right hk (by linarith : (0 : ℝ) ≤ q - 1)]
  · nlinarith [mul_le_mul_of_nonneg_left h2 (by linarith : (0 : ℝ) ≤ k),
      mul_le_mul_of_nonneg_right hk (by linarith : (0 : ℝ) ≤ h)]

/-- Warped test: `w` and `-w` are the displacements of two opposite corners. -/
lemma warp_mono {w q qi n m k : ℝ} (hk : 1 ≤ k) (hlo : k * (q - 1 / 2) + 1 / 2 ≤ qi) (hhi : qi ≤ k * q)
    (hm : k * n ≤ m) (h1 : 0 ≤ q + w - 1 / 2) (h1' : 0 ≤ q + -w - 1 / 2)
    (h2 : q + w - 1 / 2 < n - 1) (h2' : q + -w - 1 / 2 < n - 1) :
    0 ≤ qi + w - 1 / 2 ∧ qi + w - 1 / 2 < m - 1 := by
  have hq : 0 ≤ q - 1 / 2 := by linarith
  have hn : 0 ≤ n - q := by linarith
  have a := mul_le_mul_of_nonneg_right hk hq
  have b := mul_le_mul_of_nonneg_right hk hn
  constructor
  · linarith
  · nlinarith

end Rovio

namespace Rovio

lemma levelTransform_pixel {junk c c1 c' o : FC} {q : V2} {pyr : List Level} {l1 l2 : ℕ} (hg : c.getC = some (c1, q))
    (h : levelTransform junk pyr c l1 l2 = some (c', o)) :
    ∃ a b, pyr[l1]? = some a ∧ pyr[l2]? = some b ∧ o.c = levelPixel a.center b.center l1 l2 q ∧ o.validC = true ∧
      o.cam = none ∧ o.validWarpC = true := by
  unfold levelTransform at h
  cases ha : pyr[l1]? with
  | none => simp [ha] at h
  | some a =>
  cases hb : pyr[l2]? with
  | none => simp [ha, hb] at h
  | some b =>
    simp only [ha, hb, hg, Option.bind_eq_bind, Option.bind_some, Option.pure_def] at h
    refine ⟨a, b, rfl, rfl, ?_⟩
    cases hcam : c1.cam with
    | none =>
      simp only [hcam, Option.some.injEq, Prod.mk.injEq] at h
      rw [← h.2]
      simp [FC.setC, FC.construct, FC.resetCoordinates, FC.setWarpIdentity]
    | some cam =>
      simp only [hcam] at h
      cases hw : c1.comWarpC with
      | none => simp [hw] at h
      | some r =>
        obtain ⟨c2, bb⟩ := r
        simp only [hw, Option.bind_some] at h
        cases bb with
        | false =>
          simp only [Bool.false_eq_true, if_false, Option.some.injEq, Prod.mk.injEq] at h
          rw [← h.2]
          simp [FC.setC, FC.construct, FC.resetCoordinates, FC.setWarpIdentity]
        | true =>
          have hv : c2.validWarpC = true := (FC.comWarpC_spec hw).2.2.2.2.1
          simp only [if_true, FC.getWarpC_valid hv, Option.bind_some, Option.some.injEq, Prod.mk.injEq] at h
          rw [← h.2]
          simp [FC.setC, FC.setWarpC, FC.construct, FC.resetCoordinates, FC.setWarpIdentity]

lemma levelTransform_total {junk c : FC} {pyr : List Level} {l1 l2 : ℕ} (hc : c.validC = true)
    (h1 : l1 < pyr.length) (h2 : l2 < pyr.length) : ∃ r, levelTransform junk pyr c l1 l2 = some r := by
  have hg : c.getC = some (c, c.c) := by simp [FC.getC, FC.comC, hc]
  unfold levelTransform
  simp only [List.getElem?_eq_getElem h1, List.getElem?_eq_getElem h2, hg, Option.bind_eq_bind, Option.bind_some, Option.pure_def]
  cases hcam : c.cam with
  | none => exact ⟨_, rfl⟩
  | some cam =>
    obtain ⟨⟨c2, b⟩, hb⟩ := FC.comWarpC_total hcam
    simp only [hb, Option.bind_some]
    cases b with
    | false => exact ⟨_, rfl⟩
    | true =>
      have hv : c2.validWarpC = true := (FC.comWarpC_spec hb).2.2.2.2.1
      simp [FC.getWarpC_valid hv]

/-- In frame on the coarsest level implies in frame on every finer one. -/
lemma inP_finer {p : ℕ} {wb : Bool} (hp : 2 ≤ p) {L : ℕ} {img : Img} {cv : Option (Img → ℕ → ℕ → ℕ)} {pyr : List Level}
    (h : computeFromImage L img cv = some pyr) {l i : ℕ} (hil : i ≤ l) (hl : l < L) {z a b : Level}
    (hz : pyr[0]? = some z) (ha : pyr[i]? = some a) (hb : pyr[l]? = some b) (c : V2) {ol oi : FC}
    (hol : ol.c = levelPixel z.center b.center 0 l c) (hoi : oi.c = levelPixel z.center a.center 0 i c)
    (hW : oi.warpC = ol.warpC) (hI : oi.isWarpIdentity = ol.isWarpIdentity)
    (hcv : cv = none ∨ (2 ^ (L - 1) ∣ img.rows ∧ 2 ^ (L - 1) ∣ img.cols) ∨ ol.nearB = true)
    (hin : Patch.InP p b.img ol wb) : Patch.InP p a.img oi wb := by
  have hnear : oi.nearB = ol.nearB := by unfold FC.nearB; rw [hW, hI]
  obtain ⟨a', ha', ar, ac⟩ := pyr_size h i (by omega)
  rw [ha] at ha'; simp only [Option.some.injEq] at ha'; subst ha'
  obtain ⟨b', hb', br, bc⟩ := pyr_size h l hl
  rw [hb] at hb'; simp only [Option.some.injEq] at hb'; subst hb'
  have hz' := pyr_zero h (by omega)
  rw [hz] at hz'; simp only [Option.some.injEq] at hz'; subst hz'
  set k : ℝ := 2 ^ (l - i) with hkdef
  have hk1 : (1 : ℝ) ≤ k := one_le_pow₀ (by norm_num)
  have hpi : (0 : ℝ) < 2 ^ i := by positivity
  have hkl : (2 : ℝ) ^ l = k * 2 ^ i := by rw [hkdef, ← pow_add]; congr 1; omega
  have hsz : ∀ n : ℕ, k * ((n / 2 ^ l : ℕ) : ℝ) ≤ ((n / 2 ^ i : ℕ) : ℝ) := by
    intro n
    have : 2 ^ (l - i) * (n / 2 ^ l) ≤ n / 2 ^ i := by
      have e : 2 ^ l = 2 ^ i * 2 ^ (l - i) := by rw [← pow_add]; congr 1; omega
      rw [e, ← Nat.div_div_eq_div_mul]
      exact Nat.mul_div_le _ _
    have h' : ((2 ^ (l - i) * (n / 2 ^ l) : ℕ) : ℝ) ≤ ((n / 2 ^ i : ℕ) : ℝ) := by exact_mod_cast this
    rw [Nat.cast_mul, Nat.cast_pow] at h'
    exact h'
  have hcols : k * (b.img.cols : ℝ) ≤ (a.img.cols : ℝ) := by rw [ac, bc]; exact hsz _
  have hrows : k * (b.img.rows : ℝ) ≤ (a.img.rows : ℝ) := by rw [ar, br]; exact hsz _
  have ex : oi.c.x = k * ol.c.x + (b.center.x - a.center.x) / 2 ^ i := by
    rw [hol, hoi, levelPixel_x, levelPixel_x, hkl]; field_simp; simp; ring
  have ey : oi.c.y = k * ol.c.y + (b.center.y - a.center.y) / 2 ^ i := by
    rw [hol, hoi, levelPixel_y, levelPixel_y, hkl]; field_simp; simp; ring
  -- bounds on the offset
  have bound : ∀ K : ℝ, (∀ j a, j + 1 < L → pyr[j]? = some a →
      ((a.img.rows % 2 + cvOff cv : ℕ) : ℝ) ≤ K ∧ ((a.img.cols % 2 + cvOff cv : ℕ) : ℝ) ≤ K) →
      oi.c.x ≤ k * ol.c.x ∧ oi.c.y ≤ k * ol.c.y ∧ k * ol.c.x - (k - 1) / 2 * K ≤ oi.c.x ∧ k * ol.c.y - (k - 1) / 2 * K ≤ oi.c.y := by
    intro K hK
    obtain ⟨d1, d2, d3, d4⟩ := pyr_centers h hK l i a b hil hl ha hb
    have key : ∀ d : ℝ, d ≤ 0 → -((2 : ℝ) ^ l - 2 ^ i) / 2 * K ≤ d → d / 2 ^ i ≤ 0 ∧ -((k - 1) / 2 * K) ≤ d / 2 ^ i := by
      intro d h0 h1
      refine ⟨div_nonpos_of_nonpos_of_nonneg h0 hpi.le, ?_⟩
      rw [le_div_iff₀ hpi]
      rw [hkl] at h1
      have : -((k - 1) / 2 * K) * 2 ^ i = -(k * 2 ^ i - 2 ^ i) / 2 * K := by ring
      rw [this]; exact h1
    obtain ⟨x1, x2⟩ := key _ (by linarith) d3
    obtain ⟨y1, y2⟩ := key _ (by linarith) d4
    rw [ex, ey]
    refine ⟨?_, ?_, ?_, ?_⟩ <;> linarith
  have hmod : ∀ n : ℕ, ((n % 2 + cvOff cv : ℕ) : ℝ) ≤ 2 := by
    intro n
    have : n % 2 + cvOff cv ≤ 2 := by unfold cvOff; split <;> omega
    exact_mod_cast this
  unfold Patch.InP at hin ⊢
  rw [hnear]
  have hh : (1 : ℝ) ≤ (halfPatch p wb : ℝ) := by exact_mod_cast Patch.halfPatch_pos hp wb
  by_cases hn : ol.nearB = true
  · rw [if_pos hn] at hin ⊢
    obtain ⟨i1, i2, i3, i4⟩ := hin
    obtain ⟨b1, b2, b3, b4⟩ := bound 2 (fun j a _ _ => ⟨hmod _, hmod _⟩)
    obtain ⟨x1, x2⟩ := plain_mono hh hk1 (by linarith) b1 hcols i1 i3
    obtain ⟨y1, y2⟩ := plain_mono hh hk1 (by linarith) b2 hrows i2 i4
    exact ⟨x1, y1, x2, y2⟩
  · rw [if_neg hn] at hin ⊢
    have hK : ∀ j a, j + 1 < L → pyr[j]? = some a →
        ((a.img.rows % 2 + cvOff cv : ℕ) : ℝ) ≤ 1 ∧ ((a.img.cols % 2 + cvOff cv : ℕ) : ℝ) ≤ 1 := by
      intro j a hj hja
      rcases hcv with rfl | ⟨d1, d2⟩ | hx
      · have e : ∀ n : ℕ, ((n % 2 + cvOff none : ℕ) : ℝ) ≤ 1 := by
          intro n
          have : n % 2 + cvOff none ≤ 1 := by unfold cvOff; simp; omega
          exact_mod_cast this
        exact ⟨e _, e _⟩
      · obtain ⟨z1, z2⟩ := pyr_all_even h d1 d2 j a hj hja
        rw [z1, z2]
        have : (0 + cvOff cv) ≤ 1 := by unfold cvOff; split <;> omega
        exact ⟨by exact_mod_cast this, by exact_mod_cast this⟩
      · exact absurd hx hn
    obtain ⟨b1, b2, b3, b4⟩ := bound 1 hK
    intro dx dy hdx hdy
    have hneg : ∀ {A d : ℝ}, (d = A ∨ d = -A) → (-d = A ∨ -d = -A) := by
      rintro A d (rfl | rfl)
      · exact Or.inr rfl
      · exact Or.inl (neg_neg _)
    obtain ⟨u1, u2, u3, u4⟩ := hin dx dy hdx hdy
    obtain ⟨v1, v2, v3, v4⟩ := hin (-dx) (-dy) (hneg hdx) (hneg hdy)
    have ewx : ol.warpC.a * -dx + ol.warpC.b * -dy = -(ol.warpC.a * dx + ol.warpC.b * dy) := by ring
    have ewy : ol.warpC.c * -dx + ol.warpC.d * -dy = -(ol.warpC.c * dx + ol.warpC.d * dy) := by ring
    rw [ewx] at v1 v2
    rw [ewy] at v3 v4
    obtain ⟨x1, x2⟩ := warp_mono hk1 (by linarith) b1 hcols u1 v1 u2 v2
    obtain ⟨y1, y2⟩ := warp_mono hk1 (by linarith) b2 hrows u3 v3 u4 v4
    rw [hW]
    exact ⟨x1, x2, y1, y2⟩


/-! ### Blocks -/

open Finset in
lemma blockSum_succ (f : ℕ → ℕ → ℕ) (l y x : ℕ) :
    Spec.blockSum f (l + 1) y x = Spec.blockSum f l (2 * y) (2 * x) + Spec.blockSum f l (2 * y) (2 * x + 1)
      + Spec.blockSum f l (2 * y + 1) (2 * x) + Spec.blockSum f l (2 * y + 1) (2 * x + 1) := by
  unfold Spec.blockSum
  have e : 2 ^ (l + 1) = 2 ^ l + 2 ^ l := by rw [pow_succ]; ring
  have a1 : ∀ z j, 2 ^ (l + 1) * z + j = 2 ^ l * (2 * z) + j := by intro z j; rw [pow_succ]; ring
  have a2 : ∀ z j, 2 ^ (l + 1) * z + (2 ^ l + j) = 2 ^ l * (2 * z + 1) + j := by intro z j; rw [pow_succ]; ring
  have inner : ∀ r : ℕ, ∑ k ∈ range (2 ^ (l + 1)), f r (2 ^ (l + 1) * x + k) =
      ∑ k ∈ range (2 ^ l), f r (2 ^ l * (2 * x) + k) + ∑ k ∈ range (2 ^ l), f r (2 ^ l * (2 * x + 1) + k) := by
    intro r
    conv_lhs => rw [e, sum_range_add]
    congr 1
    · exact sum_congr rfl fun k _ => by rw [← e, a1]
    · exact sum_congr rfl fun k _ => by rw [← e, a2]
  simp only [inner, sum_add_distrib]
  rw [e, sum_range_add, sum_range_add]
  simp only [← e, a1]
  ring_nf

end Rovio
