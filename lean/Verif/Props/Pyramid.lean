import Verif.Lemmas.Pyramid

/-!
# Properties of the image pyramid (C21, C22, C23, C64)
-/

namespace Rovio

/-- Grey values fit in 8 bits (what `uint8_t` guarantees for a `cv::Mat`). -/
def Img.Grey (img : Img) : Prop := ∀ y < img.rows, ∀ x < img.cols, img.px y x ≤ 255

/-- Concrete 5 × 4 image used in the examples. -/
def sampleImg : Img := ⟨5, 4, fun y x => 10 * y + x⟩

/-! ## C21 -/

/-- C21: building a pyramid never reads outside an image (it is always defined), and it has exactly
the requested number of levels. -/
theorem C21_defined (n : ℕ) (img : Img) : ∃ pyr, computeFromImage n img none = some pyr ∧ pyr.length = n := by
  obtain ⟨p, hp⟩ := levelsFrom_total none n 1 ⟨img, 0⟩
  exact ⟨p, hp, (levelsFrom_spec none _ _ _ _ hp).1⟩

lemma pyr_half {n : ℕ} {img : Img} {pyr : List Level} (h : computeFromImage n img none = some pyr)
    {l : ℕ} {a b : Level} (ha : pyr[l]? = some a) (hb : pyr[l + 1]? = some b) : halfSample a.img = some b.img := by
  have hlen := (levelsFrom_spec none _ _ _ _ h).1
  have hl : l + 1 < n := by
    rw [← hlen]
    exact (List.getElem?_eq_some_iff.mp hb).1
  obtain ⟨u, v, k1, k2, k3⟩ := pyr_step h hl
  rw [ha] at k1; rw [hb] at k2
  simp only [Option.some.injEq] at k1 k2
  subst k1; subst k2
  unfold nextLevel at k3
  obtain ⟨o, ho, _⟩ := halfSample_spec a.img
  simp only [ho, Option.bind_eq_bind, Option.bind_some, Option.pure_def, Option.some.injEq] at k3
  rw [ho, ← k3]

/-- C21: grey values stay in the 8 bit range on every level. -/
theorem C21_range {n : ℕ} {img : Img} {pyr : List Level} (h : computeFromImage n img none = some pyr)
    (hg : img.Grey) : ∀ (l : ℕ) (a : Level), pyr[l]? = some a → a.img.Grey := by
  have hlen := (levelsFrom_spec none _ _ _ _ h).1
  intro l
  induction l with
  | zero =>
    intro a ha
    have hn : 0 < n := by rw [← hlen]; exact (List.getElem?_eq_some_iff.mp ha).1
    rw [pyr_zero h hn] at ha
    simp only [Option.some.injEq] at ha
    subst ha
    exact hg
  | succ l ih =>
    intro b hb
    have hl : l + 1 < n := by rw [← hlen]; exact (List.getElem?_eq_some_iff.mp hb).1
    obtain ⟨a, v, k1, k2, k3⟩ := pyr_step h hl
    have hh := pyr_half h k1 hb
    obtain ⟨o, ho, r, c, px⟩ := halfSample_spec a.img
    rw [ho] at hh
    simp only [Option.some.injEq] at hh
    intro y hy x hx
    rw [← hh] at hy hx ⊢
    rw [px y (by omega) x (by omega)]
    omega

/-- C21: every level has half the size (rounded down) of the previous one and each of its pixels is
the floored mean of the corresponding 2x2 block: no value is lost to the 8 bit conversion. -/
theorem C21_halving {n : ℕ} {img : Img} {pyr : List Level} (h : computeFromImage n img none = some pyr)
    (hg : img.Grey) {l : ℕ} {a b : Level} (ha : pyr[l]? = some a) (hb : pyr[l + 1]? = some b) :
    b.img.rows = a.img.rows / 2 ∧ b.img.cols = a.img.cols / 2 ∧
    ∀ y < b.img.rows, ∀ x < b.img.cols,
      (b.img.px y x : ℤ) = ⌊((a.img.px (2 * y) (2 * x) : ℝ) + a.img.px (2 * y) (2 * x + 1)
        + a.img.px (2 * y + 1) (2 * x) + a.img.px (2 * y + 1) (2 * x + 1)) / 4⌋ := by
  have hG := C21_range h hg l a ha
  have hh := pyr_half h ha hb
  obtain ⟨o, ho, r, c, px⟩ := halfSample_spec a.img
  rw [ho] at hh
  simp only [Option.some.injEq] at hh
  rw [← hh]
  refine ⟨r, c, ?_⟩
  intro y hy x hx
  rw [px y (by omega) x (by omega)]
  have g1 := hG (2 * y) (by omega) (2 * x) (by omega)
  have g2 := hG (2 * y) (by omega) (2 * x + 1) (by omega)
  have g3 := hG (2 * y + 1) (by omega) (2 * x) (by omega)
  have g4 := hG (2 * y + 1) (by omega) (2 * x + 1) (by omega)
  rw [Nat.mod_eq_of_lt (by omega)]
  generalize a.img.px (2 * y) (2 * x) = p1 at *
  generalize a.img.px (2 * y) (2 * x + 1) = p2 at *
  generalize a.img.px (2 * y + 1) (2 * x) = p3 at *
  generalize a.img.px (2 * y + 1) (2 * x + 1) = p4 at *
  symm
  rw [Int.floor_eq_iff]
  have d1 : 4 * ((p1 + p2 + p3 + p4) / 4) ≤ p1 + p2 + p3 + p4 := Nat.mul_div_le _ _
  have d2 : p1 + p2 + p3 + p4 < 4 * ((p1 + p2 + p3 + p4) / 4) + 4 := by omega
  have d1' : 4 * (((p1 + p2 + p3 + p4) / 4 : ℕ) : ℝ) ≤ (p1 : ℝ) + p2 + p3 + p4 := by exact_mod_cast d1
  have d2' : (p1 : ℝ) + p2 + p3 + p4 < 4 * (((p1 + p2 + p3 + p4) / 4 : ℕ) : ℝ) + 4 := by exact_mod_cast d2
  rw [Int.cast_natCast]
  constructor <;> linarith

/-- C21: the size of level `l` is the original size divided by `2^l`, rounded down. -/
theorem C21_size {n : ℕ} {img : Img} {pyr : List Level} (h : computeFromImage n img none = some pyr)
    {l : ℕ} (hl : l < n) : ∃ a, pyr[l]? = some a ∧ a.img.rows = img.rows / 2 ^ l ∧ a.img.cols = img.cols / 2 ^ l :=
  pyr_size h l hl

/-- C21: a brighter image (pixel by pixel, same size) has a brighter pyramid on every level. -/
theorem C21_monotone {n : ℕ} {img img' : Img} {pyr pyr' : List Level}
    (h : computeFromImage n img none = some pyr) (h' : computeFromImage n img' none = some pyr')
    (hg : img.Grey) (hg' : img'.Grey) (hr : img.rows = img'.rows) (hc : img.cols = img'.cols)
    (hle : ∀ y < img.rows, ∀ x < img.cols, img.px y x ≤ img'.px y x) :
    ∀ (l : ℕ) (a a' : Level), pyr[l]? = some a → pyr'[l]? = some a' →
      ∀ y < a.img.rows, ∀ x < a.img.cols, a.img.px y x ≤ a'.img.px y x := by
  have hlen := (levelsFrom_spec none _ _ _ _ h).1
  intro l
  induction l with
  | zero =>
    intro a a' ha ha'
    have hn : 0 < n := by rw [← hlen]; exact (List.getElem?_eq_some_iff.mp ha).1
    rw [pyr_zero h hn] at ha
    rw [pyr_zero h' hn] at ha'
    simp only [Option.some.injEq] at ha ha'
    subst ha; subst ha'
    exact hle
  | succ l ih =>
    intro b b' hb hb'
    have hl : l + 1 < n := by rw [← hlen]; exact (List.getElem?_eq_some_iff.mp hb).1
    obtain ⟨a, v, k1, k2, k3⟩ := pyr_step h hl
    obtain ⟨a', v', k1', k2', k3'⟩ := pyr_step h' hl
    have IH := ih a a' k1 k1'
    have G := C21_range h hg l a k1
    have G' := C21_range h' hg' l a' k1'
    obtain ⟨o, ho, r, c, px⟩ := halfSample_spec a.img
    obtain ⟨o', ho', r', c', px'⟩ := halfSample_spec a'.img
    have hh := pyr_half h k1 hb
    have hh' := pyr_half h' k1' hb'
    rw [ho] at hh; rw [ho'] at hh'
    simp only [Option.some.injEq] at hh hh'
    obtain ⟨s, hs, sr, sc⟩ := pyr_size h l (by omega)
    obtain ⟨s', hs', sr', sc'⟩ := pyr_size h' l (by omega)
    rw [k1] at hs; rw [k1'] at hs'
    simp only [Option.some.injEq] at hs hs'
    subst hs; subst hs'
    have er : a.img.rows = a'.img.rows := by rw [sr, sr', hr]
    have ec : a.img.cols = a'.img.cols := by rw [sc, sc', hc]
    intro y hy x hx
    rw [← hh] at hy hx ⊢
    rw [← hh', px y (by omega) x (by omega), px' y (by omega) x (by omega)]
    have g1 := G' (2 * y) (by omega) (2 * x) (by omega)
    have g2 := G' (2 * y) (by omega) (2 * x + 1) (by omega)
    have g3 := G' (2 * y + 1) (by omega) (2 * x) (by omega)
    have g4 := G' (2 * y + 1) (by omega) (2 * x + 1) (by omega)
    have i1 := IH (2 * y) (by omega) (2 * x) (by omega)
    have i2 := IH (2 * y) (by omega) (2 * x + 1) (by omega)
    have i3 := IH (2 * y + 1) (by omega) (2 * x) (by omega)
    have i4 := IH (2 * y + 1) (by omega) (2 * x + 1) (by omega)
    omega

/-- C21: a constant image gives constant levels of the same grey value. -/
theorem C21_constant {n : ℕ} {img : Img} {pyr : List Level} (h : computeFromImage n img none = some pyr)
    {v : ℕ} (hv : v ≤ 255) (hconst : ∀ y < img.rows, ∀ x < img.cols, img.px y x = v) :
    ∀ (l : ℕ) (a : Level), pyr[l]? = some a → ∀ y < a.img.rows, ∀ x < a.img.cols, a.img.px y x = v := by
  have hlen := (levelsFrom_spec none _ _ _ _ h).1
  intro l
  induction l with
  | zero =>
    intro a ha
    have hn : 0 < n := by rw [← hlen]; exact (List.getElem?_eq_some_iff.mp ha).1
    rw [pyr_zero h hn] at ha
    simp only [Option.some.injEq] at ha
    subst ha
    exact hconst
  | succ l ih =>
    intro b hb
    have hl : l + 1 < n := by rw [← hlen]; exact (List.getElem?_eq_some_iff.mp hb).1
    obtain ⟨a, w, k1, k2, k3⟩ := pyr_step h hl
    have IH := ih a k1
    obtain ⟨o, ho, r, c, px⟩ := halfSample_spec a.img
    have hh := pyr_half h k1 hb
    rw [ho] at hh
    simp only [Option.some.injEq] at hh
    intro y hy x hx
    rw [← hh] at hy hx ⊢
    rw [px y (by omega) x (by omega), IH (2 * y) (by omega) (2 * x) (by omega), IH (2 * y) (by omega) (2 * x + 1) (by omega),
      IH (2 * y + 1) (by omega) (2 * x) (by omega), IH (2 * y + 1) (by omega) (2 * x + 1) (by omega)]
    omega

/-- The sample image is a grey image, so the theorems above apply to it. -/
example : sampleImg.Grey := by
  intro y hy x hx
  simp only [sampleImg] at *
  omega

/-- A concrete half-sampled pixel: block (20, 21, 30, 31) averages to 25.5, stored as 25. -/
example : ∃ out, halfSample sampleImg = some out ∧ out.rows = 2 ∧ out.cols = 2 ∧ out.px 1 0 = 25 := by
  obtain ⟨o, h, r, c, px⟩ := halfSample_spec sampleImg
  refine ⟨o, h, r, c, ?_⟩
  rw [px 1 (by decide) 0 (by decide)]
  rfl

/-! ## C22 -/

/-- C22: transforming from level `a` to `b` and on to `d` gives the same pixel as transforming from
`a` to `d` directly, for every image size, both pyramid variants and every coordinates object with a
known pixel. -/
theorem C22_compose {n : ℕ} {img : Img} {cv : Option (Img → ℕ → ℕ → ℕ)} {pyr : List Level}
    (_h : computeFromImage n img cv = some pyr) {junk c c1 o1 c2 o2 c3 o3 : FC} {a b d : ℕ} (hc : c.validC = true)
    (h1 : levelTransform junk pyr c a b = some (c1, o1))
    (h2 : levelTransform junk pyr o1 b d = some (c2, o2))
    (h3 : levelTransform junk pyr c a d = some (c3, o3)) : o2.c = o3.c := by
  have hg : c.getC = some (c, c.c) := by simp [FC.getC, FC.comC, hc]
  obtain ⟨A, B, e1, e2, e3, e4, _⟩ := levelTransform_pixel hg h1
  have hg1 : o1.getC = some (o1, o1.c) := by simp [FC.getC, FC.comC, e4]
  obtain ⟨B', D, f1, f2, f3, _⟩ := levelTransform_pixel hg1 h2
  obtain ⟨A', D', g1, g2, g3, _⟩ := levelTransform_pixel hg h3
  rw [e2] at f1; rw [e1] at g1; rw [f2] at g2
  simp only [Option.some.injEq] at f1 g1 g2
  subst f1; subst g1; subst g2
  rw [f3, e3, g3, levelPixel_comp]

/-- C22: going to another level and back is the identity on pixels. -/
theorem C22_roundtrip {n : ℕ} {img : Img} {cv : Option (Img → ℕ → ℕ → ℕ)} {pyr : List Level}
    (_h : computeFromImage n img cv = some pyr) {junk c c1 o1 c2 o2 : FC} {a b : ℕ} (hc : c.validC = true)
    (h1 : levelTransform junk pyr c a b = some (c1, o1))
    (h2 : levelTransform junk pyr o1 b a = some (c2, o2)) : o2.c = c.c := by
  have hg : c.getC = some (c, c.c) := by simp [FC.getC, FC.comC, hc]
  obtain ⟨A, B, e1, e2, e3, e4, _⟩ := levelTransform_pixel hg h1
  have hg1 : o1.getC = some (o1, o1.c) := by simp [FC.getC, FC.comC, e4]
  obtain ⟨B', A', f1, f2, f3, _⟩ := levelTransform_pixel hg1 h2
  rw [e2] at f1; rw [e1] at f2
  simp only [Option.some.injEq] at f1 f2
  subst f1; subst f2
  rw [f3, e3, levelPixel_comp, levelPixel_self]

/-- C22: the transforms used above are defined for all existing levels. -/
theorem C22_defined {n : ℕ} {img : Img} {cv : Option (Img → ℕ → ℕ → ℕ)} {pyr : List Level}
    (h : computeFromImage n img cv = some pyr) {junk c : FC} {a b : ℕ} (hc : c.validC = true) (ha : a < n) (hb : b < n) :
    ∃ r, levelTransform junk pyr c a b = some r := by
  have hlen := (levelsFrom_spec cv _ _ _ _ h).1
  exact levelTransform_total hc (by omega) (by omega)

/-- C22 (finding): only the pixel composes.  The returned object has no camera, so a second transform
silently replaces the warp by the identity although the first one carried it over. -/
theorem C22_finding_warp_lost {n : ℕ} {img : Img} {cv : Option (Img → ℕ → ℕ → ℕ)} {pyr : List Level}
    (h : computeFromImage n img cv = some pyr) (junk : FC) {c : FC} {cam : CamI} {a b d : ℕ} (ha : a < n) (hb : b < n) (hd : d < n)
    (hc : c.validC = true) (hw : c.validWarpC = true) (hcam : c.cam = some cam) :
    ∃ o1 o2 o3, levelTransform junk pyr c a b = some (c, o1) ∧ levelTransform junk pyr o1 b d = some (o1, o2) ∧
      levelTransform junk pyr c a d = some (c, o3) ∧ o1.warpC = c.warpC ∧ o3.warpC = c.warpC ∧ o2.warpC = M2.one := by
  have hlen := (levelsFrom_spec cv _ _ _ _ h).1
  have hs : c.Settled := ⟨hw, by simp [FC.comC, hc]⟩
  obtain ⟨A, hA, _⟩ := pyr_size h a ha
  obtain ⟨B, hB, _⟩ := pyr_size h b hb
  obtain ⟨D, hD, _⟩ := pyr_size h d hd
  obtain ⟨o1, h1, s1, _, _, w1, _⟩ := levelTransform_settled (junk := junk) hA hB hs
  obtain ⟨o2, h2, s2, _, _, w2, _⟩ := levelTransform_settled (junk := junk) hB hD s1
  obtain ⟨o3, h3, s3, _, _, w3, _⟩ := levelTransform_settled (junk := junk) hA hD hs
  have hg : c.getC = some (c, c.c) := hs.getC
  obtain ⟨_, _, _, _, _, _, hnone, _⟩ := levelTransform_pixel hg h1
  refine ⟨o1, o2, o3, h1, h2, h3, ?_, ?_, ?_⟩
  · rw [w1, hcam]; rfl
  · rw [w3, hcam]; rfl
  · rw [w2, hnone]; rfl

/-- A pixel-only coordinates object meets the hypotheses of C22. -/
example (junk : FC) : (FC.constructPixel junk ⟨3, 4⟩).validC = true := rfl

/-! ## C23 -/

/-- C23: each pixel of level `l` is, up to the accumulated rounding down of at most `3/4` per level, the
mean of the `2^l × 2^l` block of the original image with the same block indices — for every image
size. -/
theorem C23_block_mean {n : ℕ} {img : Img} {pyr : List Level} (h : computeFromImage n img none = some pyr)
    (hg : img.Grey) : ∀ (l : ℕ) (a : Level), pyr[l]? = some a → ∀ y < a.img.rows, ∀ x < a.img.cols,
      Spec.blockMean img.px l y x - 3 / 4 * l ≤ a.img.px y x ∧ (a.img.px y x : ℝ) ≤ Spec.blockMean img.px l y x := by
  have hlen := (levelsFrom_spec none _ _ _ _ h).1
  intro l
  induction l with
  | zero =>
    intro a ha
    have hn : 0 < n := by rw [← hlen]; exact (List.getElem?_eq_some_iff.mp ha).1
    rw [pyr_zero h hn] at ha
    simp only [Option.some.injEq] at ha
    subst ha
    intro y hy x hx
    simp [Spec.blockMean, Spec.blockSum]
  | succ l ih =>
    intro b hb
    have hl : l + 1 < n := by rw [← hlen]; exact (List.getElem?_eq_some_iff.mp hb).1
    obtain ⟨a, w, k1, k2, k3⟩ := pyr_step h hl
    have IH := ih a k1
    have G := C21_range h hg l a k1
    obtain ⟨o, ho, r, c, px⟩ := halfSample_spec a.img
    have hh := pyr_half h k1 hb
    rw [ho] at hh
    simp only [Option.some.injEq] at hh
    intro y hy x hx
    rw [← hh] at hy hx ⊢
    rw [px y (by omega) x (by omega)]
    have g1 := G (2 * y) (by omega) (2 * x) (by omega)
    have g2 := G (2 * y) (by omega) (2 * x + 1) (by omega)
    have g3 := G (2 * y + 1) (by omega) (2 * x) (by omega)
    have g4 := G (2 * y + 1) (by omega) (2 * x + 1) (by omega)
    rw [Nat.mod_eq_of_lt (by omega)]
    obtain ⟨a1, b1⟩ := IH (2 * y) (by omega) (2 * x) (by omega)
    obtain ⟨a2, b2⟩ := IH (2 * y) (by omega) (2 * x + 1) (by omega)
    obtain ⟨a3, b3⟩ := IH (2 * y + 1) (by omega) (2 * x) (by omega)
    obtain ⟨a4, b4⟩ := IH (2 * y + 1) (by omega) (2 * x + 1) (by omega)
    have em : Spec.blockMean img.px (l + 1) y x = (Spec.blockMean img.px l (2 * y) (2 * x) + Spec.blockMean img.px l (2 * y) (2 * x + 1)
        + Spec.blockMean img.px l (2 * y + 1) (2 * x) + Spec.blockMean img.px l (2 * y + 1) (2 * x + 1)) / 4 := by
      unfold Spec.blockMean
      rw [blockSum_succ]
      push_cast
      rw [pow_succ]
      ring
    generalize a.img.px (2 * y) (2 * x) = p1 at *
    generalize a.img.px (2 * y) (2 * x + 1) = p2 at *
    generalize a.img.px (2 * y + 1) (2 * x) = p3 at *
    generalize a.img.px (2 * y + 1) (2 * x + 1) = p4 at *
    have d1 : 4 * ((p1 + p2 + p3 + p4) / 4) ≤ p1 + p2 + p3 + p4 := Nat.mul_div_le _ _
    have d2 : p1 + p2 + p3 + p4 ≤ 4 * ((p1 + p2 + p3 + p4) / 4) + 3 := by omega
    have d1' : 4 * (((p1 + p2 + p3 + p4) / 4 : ℕ) : ℝ) ≤ (p1 : ℝ) + p2 + p3 + p4 := by exact_mod_cast d1
    have d2' : (p1 : ℝ) + p2 + p3 + p4 ≤ 4 * (((p1 + p2 + p3 + p4) / 4 : ℕ) : ℝ) + 3 := by exact_mod_cast d2
    rw [em]
    push_cast
    constructor <;> linarith

/-- C23: if the sides are divisible by `2^(levels-1)`, the centre `(x+1/2, y+1/2)` of pixel `(x,y)` on
level `l` is transformed to the centre of the `2^l × 2^l` block of level 0 that it averages (C23_block_mean). -/
theorem C23_block_centre {n : ℕ} {img : Img} {pyr : List Level} (h : computeFromImage n img none = some pyr)
    (hr : 2 ^ (n - 1) ∣ img.rows) (hc : 2 ^ (n - 1) ∣ img.cols) {l : ℕ} (hl : l < n) {junk c c' o : FC} (x y : ℕ)
    (hv : c.validC = true) (hx : c.c = ⟨(x : ℝ) + 1 / 2, (y : ℝ) + 1 / 2⟩)
    (ht : levelTransform junk pyr c l 0 = some (c', o)) :
    o.c.x = ((2 ^ l * x : ℕ) + (2 ^ l * (x + 1) : ℕ) : ℝ) / 2 ∧ o.c.y = ((2 ^ l * y : ℕ) + (2 ^ l * (y + 1) : ℕ) : ℝ) / 2 := by
  have hg : c.getC = some (c, c.c) := by simp [FC.getC, FC.comC, hv]
  obtain ⟨A, Z, e1, e2, e3, _⟩ := levelTransform_pixel hg ht
  obtain ⟨d1, d2, d3, d4⟩ := pyr_centers h (K := 0) (fun j a hj ha => by
    obtain ⟨z1, z2⟩ := pyr_all_even h hr hc j a hj ha
    simp [z1, z2, cvOff]) l 0 Z A (by omega) hl e2 e1
  have ex : A.center.x - Z.center.x = 0 := by linarith
  have ey : A.center.y - Z.center.y = 0 := by linarith
  rw [e3, levelPixel_x, levelPixel_y, ex, ey, hx]
  push_cast
  constructor <;> simp <;> ring

/-- C23 (finding): for odd sizes the transform misses the block centre, and the horizontal error comes
from the number of *rows* (the vertical one from the columns).  The averaged block of pixel `(x,y)` on
level 1 has centre `(2x+1, 2y+1)` whatever the size; the transform gives `(2x+1 - (rows mod 2)/2, …)`. -/
theorem C23_finding_odd_sizes {n : ℕ} {img : Img} {pyr : List Level} (h : computeFromImage n img none = some pyr)
    (hn : 1 < n) {junk c c' o : FC} (x y : ℕ)
    (hv : c.validC = true) (hx : c.c = ⟨(x : ℝ) + 1 / 2, (y : ℝ) + 1 / 2⟩)
    (ht : levelTransform junk pyr c 1 0 = some (c', o)) :
    o.c.x = 2 * x + 1 - ((img.rows % 2 : ℕ) : ℝ) / 2 ∧ o.c.y = 2 * y + 1 - ((img.cols % 2 : ℕ) : ℝ) / 2 := by
  have hg : c.getC = some (c, c.c) := by simp [FC.getC, FC.comC, hv]
  obtain ⟨A, Z, e1, e2, e3, _⟩ := levelTransform_pixel hg ht
  obtain ⟨u, v, k1, k2, k3⟩ := pyr_step h (j := 0) hn
  have hz := pyr_zero h (by omega)
  simp only [Nat.zero_add] at k2
  rw [e1] at k2; rw [hz] at k1; rw [hz] at e2
  simp only [Option.some.injEq] at k1 k2 e2
  subst k1; subst k2; subst e2
  obtain ⟨c1, c2⟩ := nextLevel_center k3
  rw [e3, levelPixel_x, levelPixel_y, hx, c1, c2]
  simp [cvOff]
  constructor <;> ring

/-- The finding is not hypothetical: for a 5 × 4 image the horizontal coordinate is half a pixel off,
although the width is even, while the vertical one is right, although the height is odd. -/
example (junk : FC) : ∃ pyr c' o, computeFromImage 2 sampleImg none = some pyr ∧
    levelTransform junk pyr (FC.constructPixel junk ⟨(1 : ℕ) + 1 / 2, (1 : ℕ) + 1 / 2⟩) 1 0 = some (c', o) ∧ o.c.x = 5 / 2 ∧ o.c.y = 3 := by
  obtain ⟨pyr, hp, hl⟩ := C21_defined 2 sampleImg
  obtain ⟨⟨c', o⟩, ht⟩ := C22_defined hp (junk := junk) (c := FC.constructPixel junk ⟨(1 : ℕ) + 1 / 2, (1 : ℕ) + 1 / 2⟩) (a := 1) (b := 0) rfl (by omega) (by omega)
  obtain ⟨h1, h2⟩ := C23_finding_odd_sizes hp (by omega) 1 1 rfl rfl ht
  refine ⟨pyr, c', o, hp, ht, ?_, ?_⟩
  · rw [h1]; norm_num [sampleImg]
  · rw [h2]; norm_num [sampleImg]

/-- C23, OpenCV variant (the one the node uses): pixel `(x,y)` of level `l` is `cv::pyrDown` centred at
level-0 pixel `(2^l x, 2^l y)`; for sides divisible by `2^(levels-1)` the transform maps the centre of
the former to the centre of the latter. -/
theorem C23_opencv_centre {n : ℕ} {img : Img} {down : Img → ℕ → ℕ → ℕ} {pyr : List Level}
    (h : computeFromImage n img (some down) = some pyr)
    (hr : 2 ^ (n - 1) ∣ img.rows) (hc : 2 ^ (n - 1) ∣ img.cols) {l : ℕ} (hl : l < n) {junk c c' o : FC} (x y : ℕ)
    (hv : c.validC = true) (hx : c.c = ⟨(x : ℝ) + 1 / 2, (y : ℝ) + 1 / 2⟩)
    (ht : levelTransform junk pyr c l 0 = some (c', o)) :
    o.c = ⟨((2 ^ l * x : ℕ) : ℝ) + 1 / 2, ((2 ^ l * y : ℕ) : ℝ) + 1 / 2⟩ := by
  have hg : c.getC = some (c, c.c) := by simp [FC.getC, FC.comC, hv]
  obtain ⟨A, Z, e1, e2, e3, _⟩ := levelTransform_pixel hg ht
  have hz := pyr_zero h (by omega)
  rw [hz] at e2
  simp only [Option.some.injEq] at e2
  subst e2
  have key : ∀ (l : ℕ) (a : Level), l < n → pyr[l]? = some a → a.center.x = -((2 : ℝ) ^ l - 1) / 2 ∧ a.center.y = -((2 : ℝ) ^ l - 1) / 2 := by
    intro l
    induction l with
    | zero => intro a _ ha; rw [hz] at ha; simp only [Option.some.injEq] at ha; subst ha; simp
    | succ l ih =>
      intro a hla ha
      obtain ⟨u, v, k1, k2, k3⟩ := pyr_step h hla
      rw [ha] at k2; simp only [Option.some.injEq] at k2; subst k2
      obtain ⟨i1, i2⟩ := ih u (by omega) k1
      obtain ⟨c1, c2⟩ := nextLevel_center k3
      obtain ⟨z1, z2⟩ := pyr_all_even h hr hc l u hla k1
      rw [c1, c2, i1, i2, z1, z2]
      simp [cvOff, pow_succ]
      ring
  obtain ⟨k1, k2⟩ := key l A hl e1
  rw [e3]
  ext
  · rw [levelPixel_x, k1, hx]; push_cast; simp; ring
  · rw [levelPixel_y, k2, hx]; push_cast; simp; ring

/-- C23 (finding), OpenCV variant: with odd sizes the transform is half a level-0 pixel off (rows and
columns swapped again): `cv::pyrDown` samples at `2x` whatever the size. -/
theorem C23_finding_opencv_odd {n : ℕ} {img : Img} {down : Img → ℕ → ℕ → ℕ} {pyr : List Level}
    (h : computeFromImage n img (some down) = some pyr)
    (hn : 1 < n) {junk c c' o : FC} (x y : ℕ)
    (hv : c.validC = true) (hx : c.c = ⟨(x : ℝ) + 1 / 2, (y : ℝ) + 1 / 2⟩)
    (ht : levelTransform junk pyr c 1 0 = some (c', o)) :
    o.c = ⟨2 * x + 1 / 2 - ((img.rows % 2 : ℕ) : ℝ) / 2, 2 * y + 1 / 2 - ((img.cols % 2 : ℕ) : ℝ) / 2⟩ := by
  have hg : c.getC = some (c, c.c) := by simp [FC.getC, FC.comC, hv]
  obtain ⟨A, Z, e1, e2, e3, _⟩ := levelTransform_pixel hg ht
  obtain ⟨u, v, k1, k2, k3⟩ := pyr_step h (j := 0) hn
  have hz := pyr_zero h (by omega)
  simp only [Nat.zero_add] at k2
  rw [e1] at k2; rw [hz] at k1; rw [hz] at e2
  simp only [Option.some.injEq] at k1 k2 e2
  subst k1; subst k2; subst e2
  obtain ⟨c1, c2⟩ := nextLevel_center k3
  rw [e3]
  ext
  · rw [levelPixel_x, hx, c1]; simp [cvOff]; ring
  · rw [levelPixel_y, hx, c2]; simp [cvOff]; ring

/-! ## C64: corner candidates -/

/-- C64: `detectFastCorners` appends, in order, one level-0 candidate per detected corner that lies
within the given radius of the image centre; going back to the detection level gives exactly the
detected corner. -/
theorem C64_corners {n : ℕ} {img : Img} {cv : Option (Img → ℕ → ℕ → ℕ)} {pyr : List Level}
    (h : computeFromImage n img cv = some pyr) {l : ℕ} (hl : l < n) (junk : FC) (cands : List FC)
    (keypoints : List V2) (radius : ℝ) :
    ∃ a new, pyr[l]? = some a ∧ detectFastCorners junk pyr cands l keypoints radius = some (cands ++ new) ∧
      List.Forall₂ (fun (pt : V2) (o : FC) => ∃ o' back, levelTransform junk pyr o 0 l = some (o', back) ∧ back.c = pt)
        (keypoints.filter (fun pt =>
          decide ((pt.x - (a.img.cols : ℝ) / 2) ^ 2 + (pt.y - (a.img.rows : ℝ) / 2) ^ 2 ≤ (radius * min (a.img.cols : ℝ) a.img.rows) ^ 2))) new := by
  obtain ⟨a, ha, _⟩ := pyr_size h l hl
  have hlen := (levelsFrom_spec cv _ _ _ _ h).1
  have hf : (fun pt : V2 => inValidRadius a.img radius pt) = (fun pt => decide ((pt.x - (a.img.cols : ℝ) / 2) ^ 2 + (pt.y - (a.img.rows : ℝ) / 2) ^ 2 ≤ (radius * min (a.img.cols : ℝ) a.img.rows) ^ 2)) := by
    funext pt
    unfold inValidRadius
    simp only [gt_iff_lt, Nat.cast_min, ← decide_not, not_lt, pow_two]
  generalize hks : keypoints.filter (fun pt =>
          decide ((pt.x - (a.img.cols : ℝ) / 2) ^ 2 + (pt.y - (a.img.rows : ℝ) / 2) ^ 2 ≤ (radius * min (a.img.cols : ℝ) a.img.rows) ^ 2)) = ks
  have main : ∀ ks : List V2, ∃ new, ks.mapM (fun pt => do
      let (_, cOut) ← levelTransform junk pyr (FC.constructPixel junk pt) l 0
      return cOut) = some new ∧
      List.Forall₂ (fun (pt : V2) (o : FC) => ∃ o' back, levelTransform junk pyr o 0 l = some (o', back) ∧ back.c = pt) ks new := by
    intro ks
    induction ks with
    | nil => exact ⟨[], by simp, List.Forall₂.nil⟩
    | cons pt ks ih =>
      obtain ⟨new, h1, h2⟩ := ih
      obtain ⟨⟨c', o⟩, ht⟩ := levelTransform_total (junk := junk) (c := FC.constructPixel junk pt) (pyr := pyr) (l1 := l) (l2 := 0) rfl (by omega) (by omega)
      have hg : (FC.constructPixel junk pt).getC = some (FC.constructPixel junk pt, pt) := rfl
      obtain ⟨_, _, _, _, _, ov, _⟩ := levelTransform_pixel hg ht
      obtain ⟨⟨o', back⟩, hb⟩ := levelTransform_total (junk := junk) (c := o) (pyr := pyr) (l1 := 0) (l2 := l) ov (by omega) (by omega)
      refine ⟨o :: new, ?_, List.Forall₂.cons ⟨o', back, hb, C22_roundtrip h rfl ht hb⟩ h2⟩
      rw [List.mapM_cons, h1, ht]
      rfl
  obtain ⟨new, h1, h2⟩ := main ks
  refine ⟨a, new, ha, ?_, by rw [hks]; exact h2⟩
  unfold detectFastCorners
  have hk' : keypoints.filter (inValidRadius a.img radius) = ks := by rw [← hks]; exact congrArg (fun f => List.filter f keypoints) hf
  simp only [ha, Option.bind_eq_bind, Option.bind_some]
  rw [hk']
  simp only [Option.bind_eq_bind] at h1
  rw [h1]
  rfl

end Rovio
