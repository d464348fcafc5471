import Verif.Model.Outline
import Verif.Model.Pyramid
import Verif.Spec.Outline
import Verif.Lemmas.RovioScene
import Verif.Props.FeatureCoordinates
import Verif.Props.Camera

/-!
# C114: the outline drawn around a feature
-/

namespace Rovio.Outline

open Rovio.Spec Rovio.RovioScene Rovio.RovioScene.Spec

/-! ### Lemmas -/

lemma getPatchCorner_known {c : FC} {cam : CamI} {nor : Nor} {W : M2} (hcam : c.cam = some cam) (hn : c.validNor = true) (h : Tells c nor true W)
    (junk : FC) (x y : ℝ) :
    ∃ c' k, c.getPatchCorner junk x y = some (c', k) ∧ c'.cam = some cam ∧ c'.validNor = true ∧ c'.nor = c.nor ∧ c'.validWarpNor = true ∧ c'.warpNor = W ∧
      Tells c' nor true W ∧ k.cam = some cam ∧ k.validNor = true ∧ k.validC = false ∧ k.c = junk.c ∧ k.nor = nor.boxPlus (W.mulVec ⟨x, y⟩) := by
  obtain ⟨c1, c2, e1, e2, -, e4, e5, e6, e7, e8⟩ := tells_steps (by rw [hcam]; rfl) h
  rw [getNor_valid hn] at e1
  simp only [Option.some.injEq, Prod.mk.injEq] at e1
  obtain ⟨rfl, e1⟩ := e1
  obtain ⟨e8, e9⟩ := e8 rfl
  refine ⟨c2, { (FC.construct junk none).setNor (c2.nor.boxPlus (c2.warpNor.mulVec ⟨x, y⟩)) true with cam := c2.cam, camID := c2.camID }, ?_, e4.trans hcam, e6, e7.trans e1.symm, e8, e9, e5, ?_⟩
  · unfold FC.getPatchCorner FC.getWarpNor
    simp only [e2, getNor_valid e6, Option.bind_eq_bind, Option.bind_some, Option.pure_def]
  · refine ⟨by simp [e4, hcam], ?_, ?_, ?_, ?_⟩ <;>
      simp [FC.setNor, FC.construct, FC.resetCoordinates, FC.setWarpIdentity, e7, e9]

lemma cornerPixel_known {c : FC} {cam : CamI} {nor : Nor} {W : M2} (hcam : c.cam = some cam) (hn : c.validNor = true) (h : Tells c nor true W)
    (junk : FC) {x y : ℝ} {q : V2} (hq : cam.b2p (nor.boxPlus (W.mulVec ⟨x, y⟩)) = some q) :
    ∃ c', cornerPixel junk c x y = some (c', q) ∧ c'.cam = some cam ∧ c'.validNor = true ∧ Tells c' nor true W := by
  obtain ⟨c', k, h1, h2, h3, -, -, -, h7, k1, k2, k3, -, k5⟩ := getPatchCorner_known hcam hn h junk x y
  refine ⟨c', ?_, h2, h3, h7⟩
  unfold cornerPixel
  simp [h1, FC.getC, FC.comC, k1, k2, k3, k5, hq]

lemma comWarpC_known {c : FC} {cam : CamI} (hwf : cam.WF) {nor : Nor} {W : M2} (hcam : c.cam = some cam) (hn : c.validNor = true) (h : Tells c nor true W)
    (hf : 0 < c.nor.vec.z) :
    ∃ c', c.comWarpC = some (c', true) ∧ c'.cam = some cam ∧ c'.validNor = true ∧ Tells c' nor true W ∧
      (c.validWarpC = true ∧ c' = c ∨ c.validWarpC = false ∧ c.validWarpNor = true ∧ c.warpNor = W ∧ c'.warpC = (cam.J nor).mul W) := by
  have hnor : c.nor = nor := by
    have := h.2.1
    rw [getNor_valid hn] at this
    simpa using this
  by_cases hv : c.validWarpC = true
  · exact ⟨c, by unfold FC.comWarpC; simp [hv], hcam, hn, h, Or.inl ⟨hv, rfl⟩⟩
  · have hw : c.validWarpNor = true := by
      by_contra hw
      have := h.2.2.1
      unfold FC.comWarpNor at this
      simp [hv, hw] at this
    have hW : c.warpNor = W := by
      have := h.2.2.2 rfl
      unfold FC.getWarpNor at this
      rw [comWarpNor_valid hw] at this
      simpa using this
    obtain ⟨⟨c1, b1⟩, h1⟩ := FC.comC_total hcam
    obtain ⟨s1, s2, s3, s4, s5⟩ := FC.comC_spec h1
    have hb1 : b1 = true := by
      obtain ⟨q, hq⟩ := Option.isSome_iff_exists.mp ((hwf.front c.nor).mpr hf)
      unfold FC.comC at h1
      by_cases hvc : c.validC = true
      · simp [hvc] at h1; exact h1.2
      · simp [hvc, hcam, hn, hq] at h1; exact h1.2
    subst hb1
    have hn1 : c1.validNor = true := s3.trans hn
    obtain ⟨⟨c2, J⟩, h2⟩ := FC.getJ_total (s1.cam.trans hcam)
    obtain ⟨cam', c1', b, g1, g2, g3⟩ := FC.getJ_full h2
    rw [comNor_valid hn1] at g2
    simp only [Option.some.injEq, Prod.mk.injEq] at g2
    obtain ⟨rfl, rfl⟩ := g2
    have hcc : cam' = cam := by rw [s1.cam, hcam] at g1; simpa using g1.symm
    subst hcc
    have hc2 : c2.cam = some cam' ∧ c2.validNor = true ∧ c2.nor = nor ∧ c2.validWarpNor = true ∧ c2.warpNor = W ∧ J = cam'.J nor := by
      rcases g3 with ⟨px, e, rfl⟩ | ⟨e, rfl, rfl⟩
      · exact ⟨s1.cam.trans hcam, hn1, s2.trans hnor, s1.validWarpNor.trans hw, s1.warpNor.trans hW, by rw [← hnor, ← s2, CamI.J, e]⟩
      · exact ⟨s1.cam.trans hcam, hn1, s2.trans hnor, s1.validWarpNor.trans hw, s1.warpNor.trans hW, by rw [← hnor, ← s2, CamI.J, e]⟩
    obtain ⟨k1, k2, k3, k4, k5, k6⟩ := hc2
    refine ⟨{ c2 with warpC := J.mul c2.warpNor, validWarpC := true }, ?_, k1, k2, ⟨?_, ?_, ?_, fun _ => ?_⟩, Or.inr ⟨by simpa using hv, hw, hW, by simp [k5, k6]⟩⟩
    · unfold FC.comWarpC
      simp [hv, hw, h1, comNor_valid hn1, h2]
    · rw [comNor_valid (by exact k2)]; rfl
    · rw [getNor_valid (by exact k2)]; simp [k3]
    · rw [comWarpNor_valid (by exact k4)]; rfl
    · unfold FC.getWarpNor; rw [comWarpNor_valid (by exact k4)]; simp [k5]

lemma half_eq (p : ℕ) {L : ℕ} (hL : 0 < L) : 1 * (2 : ℝ) ^ ((L : ℤ) - 1) * p / 2 = halfSideOf p L := by
  obtain ⟨l, rfl⟩ : ∃ l, L = l + 1 := ⟨L - 1, by omega⟩
  unfold halfSideOf
  push_cast
  rw [add_sub_cancel_right, zpow_natCast]
  ring

lemma cornerPixel_unseen {c : FC} {cam : CamI} {nor : Nor} {W : M2} (hcam : c.cam = some cam) (hn : c.validNor = true) (h : Tells c nor true W)
    (junk : FC) {x y : ℝ} (hq : cam.b2p (nor.boxPlus (W.mulVec ⟨x, y⟩)) = none) :
    ∃ c', cornerPixel junk c x y = some (c', junk.c) ∧ c'.cam = some cam ∧ c'.validNor = true ∧ Tells c' nor true W := by
  obtain ⟨c', k, h1, h2, h3, -, -, -, h7, k1, k2, k3, k4, k5⟩ := getPatchCorner_known hcam hn h junk x y
  refine ⟨c', ?_, h2, h3, h7⟩
  unfold cornerPixel
  simp [h1, FC.getC, FC.comC, k1, k2, k3, k4, k5, hq]

/-! ### The outline -/

/-- C114: around a feature in front of the camera whose deformation is available, a closed outline of four segments is drawn; its corners are the pixels of
the bearings to which the deformation moves the corners of the square that the patch takes on the coarsest level. -/
theorem C114_outline (p L : ℕ) (hL : 0 < L) (junk : ℕ → FC) (c : FC) (cam : CamI) (hwf : cam.WF) (hcam : c.cam = some cam) (hn : c.validNor = true)
    (hf : 0 < c.nor.vec.z) (W : M2) (h : Tells c c.nor true W) (q : Fin 4 → V2)
    (hq : ∀ k, cam.b2p (c.nor.boxPlus (W.mulVec (squareCorner (halfSideOf p L) k))) = some (q k)) :
    ∃ c', drawMultilevelPatchBorder p L junk c 1 = some (c', [(q 0, q 1), (q 1, q 2), (q 2, q 3), (q 3, q 0)]) ∧ Tells c' c.nor true W := by
  have hh := half_eq p hL
  have hfr : c.isInFront = true := by unfold FC.isInFront; simp [hn, hf]
  obtain ⟨c0, e0, a0, b0, t0, -⟩ := comWarpC_known hwf hcam hn h hf
  obtain ⟨c1, e1, a1, b1, t1⟩ := cornerPixel_known a0 b0 t0 (junk 0) (hq 0)
  obtain ⟨c2, e2, a2, b2, t2⟩ := cornerPixel_known a1 b1 t1 (junk 1) (hq 1)
  obtain ⟨c3, e3, a3, b3, t3⟩ := cornerPixel_known a2 b2 t2 (junk 2) (hq 2)
  obtain ⟨c4, e4, a4, b4, t4⟩ := cornerPixel_known a3 b3 t3 (junk 3) (hq 3)
  obtain ⟨c5, e5, a5, b5, t5⟩ := cornerPixel_known a4 b4 t4 (junk 4) (hq 0)
  refine ⟨c5, ?_, t5⟩
  unfold drawMultilevelPatchBorder drawPatchBorder
  simp only [hh, hfr, if_true, e0, e1, e2, e3, e4, e5, Option.bind_eq_bind, Option.bind_some, Option.pure_def]

/-- C114: nothing is drawn for a feature behind the camera or without a deformation. -/
theorem C114_nothing (p L : ℕ) (junk : ℕ → FC) (c : FC) (s : ℝ)
    (h : c.isInFront = false ∨ c.comWarpC.map Prod.snd = some false) : (drawMultilevelPatchBorder p L junk c s).map Prod.snd = some [] := by
  unfold drawMultilevelPatchBorder drawPatchBorder
  by_cases hf : c.isInFront = true
  · rcases h with h | h
    · rw [hf] at h; simp at h
    · simp only [hf, if_true]
      obtain ⟨⟨c1, b⟩, h1, h2⟩ := Option.map_eq_some_iff.mp h
      simp only at h2
      subst h2
      simp [h1]
  · simp [hf]

/-- C114: seen from the feature, the corners are to first order where the pixel deformation puts them: shrinking the square, the corner's pixel leaves the
feature's pixel with the velocity the pixel deformation gives. -/
theorem C114_first_order (C : Camera) (sfv : V3 → Nor) (gb : V2 → Nor) (junk c : FC) (hcam : c.cam = some (C.toI sfv gb))
    (hn : c.validNor = true) (hu : c.nor.q.IsUnit) (hf : 0 < c.nor.vec.z) (hreg : C.RegularAt ⟨c.nor.vec.x / c.nor.vec.z, c.nor.vec.y / c.nor.vec.z⟩)
    (W Wc : M2) (h : Tells c c.nor true W) (hWc : c.getWarpC.map Prod.snd = some Wc)
    (hboth : c.validWarpC = true → c.validWarpNor = true → c.warpC = ((C.toI sfv gb).J c.nor).mul c.warpNor) (d : V2) :
    ∃ pix : ℝ → V2, (∀ᶠ t in nhds (0:ℝ), (cornerPixel junk c (t * d.x) (t * d.y)).map Prod.snd = some (pix t)) ∧
      C.bearingToPixelN c.nor = some (pix 0) ∧ HasDerivV2 pix (Wc.mulVec d) 0 := by
  have hwf : (C.toI sfv gb).WF := C09_camera_is_wf C sfv gb
  obtain ⟨px, J, hJ⟩ : ∃ px J, C.bearingToPixelNJ c.nor = some (px, J) := by
    have h1 := hwf.same c.nor
    obtain ⟨q, hq⟩ := Option.isSome_iff_exists.mp ((hwf.front c.nor).mpr hf)
    rw [hq] at h1
    obtain ⟨⟨a, b⟩, e, -⟩ := Option.map_eq_some_iff.mp h1
    exact ⟨a, b, e⟩
  have hJ' : (C.toI sfv gb).J c.nor = J := by
    have : (C.toI sfv gb).b2pJ c.nor = some (px, J) := hJ
    rw [CamI.J, this]
  obtain ⟨pix, h1, h2, h3⟩ := Camera.C13_bearing_increment C c.nor hu (W.mulVec d) px J hJ hreg
  refine ⟨pix, h1.mono fun t ht => ?_, ?_, ?_⟩
  · have e : W.mulVec ⟨t * d.x, t * d.y⟩ = t • W.mulVec d := by ext <;> simp [M2.mulVec] <;> ring
    obtain ⟨c', hc', -⟩ := cornerPixel_known hcam hn h junk (x := t * d.x) (y := t * d.y) (q := pix t) (by rw [e]; exact ht)
    rw [hc']; rfl
  · have e := h1.self_of_nhds
    rw [show (0:ℝ) • W.mulVec d = (0 : V2) by ext <;> simp] at e
    rw [← e]
    unfold Camera.bearingToPixelN
    congr 1
    simp only [Nor.boxPlus, Nor.vec, Nor.N]
    rw [show (0:V2).x • c.nor.perp1 + (0:V2).y • c.nor.perp2 = (0 : V3) by ext <;> simp]
    simp
  · have hW : Wc = J.mul W := by
      obtain ⟨c', e1, -, -, -, e5⟩ := comWarpC_known hwf hcam hn h hf
      have e6 : Wc = c'.warpC := by
        unfold FC.getWarpC at hWc
        simp only [e1, Option.bind_eq_bind, Option.bind_some, Option.pure_def, Option.map_some, Option.some.injEq] at hWc
        exact hWc.symm
      rw [e6]
      rcases e5 with ⟨hv, rfl⟩ | ⟨-, -, -, e⟩
      · obtain ⟨⟨c2, b⟩, g1⟩ := FC.comWarpNor_total hcam
        have hb : b = true := by
          have := h.2.2.1
          rw [g1] at this
          simpa using this
        subst hb
        have hW2 : c2.warpNor = W := by
          have := h.2.2.2 rfl
          unfold FC.getWarpNor at this
          rw [g1] at this
          simpa using this
        obtain ⟨k1, -, -, -, k5, k6⟩ := FC.comWarpNor_spec g1
        rcases k6 with k | ⟨-, -, -, -, m5, -, cam, m7, m8, m9⟩
        · rw [hboth hv (k.validWarpNor.symm.trans k5), hJ', ← k.warpNor, hW2]
        · obtain rfl : cam = C.toI sfv gb := by rw [hcam] at m7; simpa using m7.symm
          rw [(k1 hn).1, hJ'] at m8 m9
          rw [← hW2, m9, m5]
          ext <;> simp only [M2.mul, M2.inv] <;> field_simp <;> simp only [M2.det] <;> ring
      · rw [e, hJ']
    rw [hW]
    refine h3.congr_deriv ?_
    ext <;> simp [M2.mulVec, M2.mul] <;> ring

/-- C114: the parallelogram that the outline is to first order has every pixel of the patch, on every level, strictly inside: the position at which pixel
`(x, y)` of the patch on level `l` is read, taken back to the camera image, is within it.  `z l` is the offset of level `l` of the pyramid. -/
theorem C114_covers (p L l x y : ℕ) (hl : l < L) (hx : x < p) (hy : y < p) (z : ℕ → V2) (c : V2) (W : M2) :
    Within (levelPixel (z l) (z 0) l 0 (levelPixel (z 0) (z l) 0 l c + W.mulVec (patchPixel p x y)))
      (fun k => c + W.mulVec (squareCorner (halfSideOf p L) k)) := by
  have hp : (0:ℝ) < p := by exact_mod_cast (by omega : 0 < p)
  have hx' : ((x:ℝ)) + 1 ≤ p := by exact_mod_cast hx
  have hy' : ((y:ℝ)) + 1 ≤ p := by exact_mod_cast hy
  have hx0 : (0:ℝ) ≤ x := by positivity
  have hy0 : (0:ℝ) ≤ y := by positivity
  have h2 : (2:ℝ) ^ l ≤ 2 ^ (L - 1) := pow_le_pow_right₀ (by norm_num) (by omega)
  have h2p : (0:ℝ) < 2 ^ l := by positivity
  obtain ⟨h, hh⟩ : ∃ h, h = halfSideOf p L := ⟨_, rfl⟩
  have hpos : 0 < h := by rw [hh]; unfold halfSideOf; positivity
  have bound : ∀ a : ℝ, |a| < p / 2 → |2 ^ l * a / h| < 1 := by
    intro a ha
    rw [abs_div, abs_mul, abs_of_pos hpos, abs_of_pos h2p, div_lt_one hpos, hh]
    unfold halfSideOf
    calc 2 ^ l * |a| < 2 ^ l * ((p:ℝ) / 2) := by gcongr
      _ ≤ _ := by gcongr
  obtain ⟨a, ha⟩ : ∃ a : ℝ, a = (x:ℝ) + 0.5 - p / 2 := ⟨_, rfl⟩
  obtain ⟨b, hb⟩ : ∃ b : ℝ, b = (y:ℝ) + 0.5 - p / 2 := ⟨_, rfl⟩
  have ua := abs_lt.mp (bound a (by rw [ha, abs_lt]; constructor <;> linarith))
  have ub := abs_lt.mp (bound b (by rw [hb, abs_lt]; constructor <;> linarith))
  obtain ⟨u, hu⟩ : ∃ u, u = 2 ^ l * a / h := ⟨_, rfl⟩
  obtain ⟨v, hv⟩ : ∃ v, v = 2 ^ l * b / h := ⟨_, rfl⟩
  rw [← hu] at ua
  rw [← hv] at ub
  have hua : 2 ^ l * a = u * h := by rw [hu]; field_simp
  have hvb : 2 ^ l * b = v * h := by rw [hv]; field_simp
  have key : levelPixel (z l) (z 0) l 0 (levelPixel (z 0) (z l) 0 l c + W.mulVec (patchPixel p x y)) = c + (2 ^ l : ℝ) • W.mulVec ⟨a, b⟩ := by
    have e1 : ((0.5:ℝ)) ^ (((0:ℕ):ℤ) - (l:ℤ)) = 2 ^ l := by
      rw [Nat.cast_zero, zero_sub, zpow_neg, zpow_natCast, ← inv_pow]; norm_num
    have e2 : ((0.5:ℝ)) ^ ((l:ℤ) - ((0:ℕ):ℤ)) = (0.5:ℝ) ^ l := by
      rw [Nat.cast_zero, sub_zero, zpow_natCast]
    have e3 : (2:ℝ) ^ l * (0.5:ℝ) ^ l = 1 := by rw [← mul_pow]; norm_num
    unfold levelPixel patchPixel
    rw [e1, e2, ← ha, ← hb]
    ext
    · simp only [V2.add_x, V2.smul_x, V2.sub_x, pow_zero]
      linear_combination ((z 0).x - (z l).x + c.x) * e3
    · simp only [V2.add_y, V2.smul_y, V2.sub_y, pow_zero]
      linear_combination ((z 0).y - (z l).y + c.y) * e3
  rw [key, ← hh]
  refine ⟨![(1 + u) * (1 + v) / 4, (1 + u) * (1 - v) / 4, (1 - u) * (1 - v) / 4, (1 - u) * (1 + v) / 4], ?_, ?_, ?_⟩
  · intro k
    have := ua.1; have := ua.2; have := ub.1; have := ub.2
    fin_cases k <;> simp <;> apply mul_pos <;> linarith
  · simp; ring
  · ext
    · simp [squareCorner, M2.mulVec]
      linear_combination W.a * hua + W.b * hvb
    · simp [squareCorner, M2.mulVec]
      linear_combination W.c * hua + W.d * hvb

lemma one_boxPlus_z (d : V2) : ((⟨Quat.one⟩ : Nor).boxPlus d).vec.z = Real.cos d.norm := by
  have hN : (⟨Quat.one⟩ : Nor).N d = ⟨d.x, d.y, 0⟩ := by ext <;> simp [Nor.N, Nor.perp1, Nor.perp2, V3.ex, V3.ey]
  have hn : (⟨d.x, d.y, 0⟩ : V3).norm = d.norm := by simp [V3.norm, V3.normSq, V2.norm]
  have hsq : d.norm ^ 2 = d.x ^ 2 + d.y ^ 2 := Real.sq_sqrt (by positivity)
  have hs : (Real.sinc (d.norm / 2) / 2 * d.x) ^ 2 + (Real.sinc (d.norm / 2) / 2 * d.y) ^ 2 = Real.sin (d.norm / 2) ^ 2 := by
    have : Real.sin (d.norm / 2) = Real.sinc (d.norm / 2) * (d.norm / 2) := by
      by_cases h : d.norm / 2 = 0
      · simp [h]
      · rw [Real.sinc_of_ne_zero h, div_mul_cancel₀ _ h]
    rw [this]
    linear_combination (-(Real.sinc (d.norm / 2) ^ 2 / 4)) * hsq
  simp only [Nor.boxPlus, hN, Quat.mul_one', Quat.exp, hn, Nor.vec]
  simp only [Quat.rotate, V3.ez]
  have hc : Real.cos d.norm = Real.cos (d.norm / 2) ^ 2 - Real.sin (d.norm / 2) ^ 2 := by
    rw [← Real.cos_two_mul']; ring_nf
  rw [hc, ← hs]
  simp
  ring

/-- A feature on the optical axis with the deformation `W`. -/
noncomputable def onAxis (junk : FC) (W : M2) : FC :=
  { FC.constructNor junk ⟨Quat.one⟩ with cam := some FC.pinhole, warpNor := W, validWarpNor := true, validWarpC := false }

lemma onAxis_tells (junk : FC) (W : M2) : Tells (onAxis junk W) (onAxis junk W).nor true W :=
  ⟨by rw [comNor_valid (by rfl)]; rfl, by rw [getNor_valid (by rfl)]; rfl, by rw [comWarpNor_valid (by rfl)]; rfl,
    fun _ => by unfold FC.getWarpNor; rw [comWarpNor_valid (by rfl)]; rfl⟩

lemma onAxis_front (junk : FC) (W : M2) : 0 < (onAxis junk W).nor.vec.z := by
  simp [onAxis, FC.constructNor, Nor.vec, V3.ez]

/-- C114 (finding): a corner that the camera does not see is drawn at whatever place the memory of a temporary object happens to hold: there are visible
features with a regular deformation whose outline consists of such places only and is not even closed. -/
theorem C114_finding_behind (p L : ℕ) (hp : 0 < p) (hL : 0 < L) (junk' : FC) :
    ∃ (c : FC) (cam : CamI) (W : M2), cam.WF ∧ c.cam = some cam ∧ c.validNor = true ∧ 0 < c.nor.vec.z ∧ W.det ≠ 0 ∧ Tells c c.nor true W ∧
      ∀ junk : ℕ → FC, (drawMultilevelPatchBorder p L junk c 1).map Prod.snd =
        some [((junk 0).c, (junk 1).c), ((junk 1).c, (junk 2).c), ((junk 2).c, (junk 3).c), ((junk 3).c, (junk 4).c)] := by
  have hpos : 0 < halfSideOf p L := by
    have : (0:ℝ) < p := by exact_mod_cast hp
    unfold halfSideOf; positivity
  have hh := half_eq p hL
  obtain ⟨h, he⟩ : ∃ h, h = halfSideOf p L := ⟨_, rfl⟩
  rw [← he] at hh hpos
  have hwf : FC.pinhole.WF := C09_camera_is_wf _ _ _
  obtain ⟨W, hW⟩ : ∃ W : M2, W = ⟨Real.pi / (2 * h), Real.pi / (2 * h), Real.pi / (2 * h), -(Real.pi / (2 * h))⟩ := ⟨_, rfl⟩
  have hpi := Real.pi_pos
  have hs : h * (Real.pi / (2 * h)) = Real.pi / 2 := by field_simp
  have unseen : ∀ k, FC.pinhole.b2p ((onAxis junk' W).nor.boxPlus (W.mulVec (squareCorner h k))) = none := by
    intro k
    have hv : (W.mulVec (squareCorner h k)).x ^ 2 + (W.mulVec (squareCorner h k)).y ^ 2 = Real.pi ^ 2 := by
      rw [hW]
      have hs2 : (Real.pi / (2 * h)) ^ 2 * h ^ 2 = Real.pi ^ 2 / 4 := by
        rw [← mul_pow, mul_comm, hs]; ring
      fin_cases k <;> simp [squareCorner, M2.mulVec] <;> linear_combination 4 * hs2
    have hn : (W.mulVec (squareCorner h k)).norm = Real.pi := by
      unfold V2.norm
      rw [hv, Real.sqrt_sq hpi.le]
    have hz : ((onAxis junk' W).nor.boxPlus (W.mulVec (squareCorner h k))).vec.z = -1 := by
      rw [show (onAxis junk' W).nor = ⟨Quat.one⟩ from rfl, one_boxPlus_z, hn, Real.cos_pi]
    cases hb : FC.pinhole.b2p ((onAxis junk' W).nor.boxPlus (W.mulVec (squareCorner h k))) with
    | none => rfl
    | some q =>
      have := (hwf.front _).mp (by rw [hb]; rfl)
      rw [hz] at this
      linarith
  have hdet : W.det ≠ 0 := by
    rw [hW]
    have : (0:ℝ) < Real.pi / (2 * h) := by positivity
    simp only [M2.det]
    nlinarith
  refine ⟨onAxis junk' W, FC.pinhole, W, hwf, rfl, rfl, onAxis_front junk' W, hdet, onAxis_tells junk' W, fun junk => ?_⟩
  have hfr : (onAxis junk' W).isInFront = true := by
    unfold FC.isInFront
    simp [onAxis_front junk' W, show (onAxis junk' W).validNor = true from rfl]
  obtain ⟨c0, e0, a0, b0, t0, -⟩ := comWarpC_known hwf (c := onAxis junk' W) rfl rfl (onAxis_tells junk' W) (onAxis_front junk' W)
  obtain ⟨c1, e1, a1, b1, t1⟩ := cornerPixel_unseen a0 b0 t0 (junk 0) (unseen 0)
  obtain ⟨c2, e2, a2, b2, t2⟩ := cornerPixel_unseen a1 b1 t1 (junk 1) (unseen 1)
  obtain ⟨c3, e3, a3, b3, t3⟩ := cornerPixel_unseen a2 b2 t2 (junk 2) (unseen 2)
  obtain ⟨c4, e4, a4, b4, t4⟩ := cornerPixel_unseen a3 b3 t3 (junk 3) (unseen 3)
  obtain ⟨c5, e5, a5, b5, t5⟩ := cornerPixel_unseen a4 b4 t4 (junk 4) (unseen 0)
  unfold drawMultilevelPatchBorder drawPatchBorder
  simp only [hh, hfr, if_true, e0, e1, e2, e3, e4, e5, Option.bind_eq_bind, Option.bind_some, Option.pure_def, Option.map_some]

/-! ### Non-vacuity -/

/-- A small deformation of two by two pixels on two levels: all four corners are seen, and the outline is closed. -/
example (junk' : FC) (junk : ℕ → FC) : ∃ (q : Fin 4 → V2) (c' : FC),
    drawMultilevelPatchBorder 2 2 junk (onAxis junk' ⟨0.1, 0, 0, 0.1⟩) 1 = some (c', [(q 0, q 1), (q 1, q 2), (q 2, q 3), (q 3, q 0)]) := by
  have hwf : FC.pinhole.WF := C09_camera_is_wf _ _ _
  have key : ∀ k, ∃ q, FC.pinhole.b2p ((onAxis junk' ⟨0.1, 0, 0, 0.1⟩).nor.boxPlus ((⟨0.1, 0, 0, 0.1⟩ : M2).mulVec (squareCorner (halfSideOf 2 2) k))) = some q := by
    intro k
    refine Option.isSome_iff_exists.mp ((hwf.front _).mpr ?_)
    rw [show (onAxis junk' ⟨0.1, 0, 0, 0.1⟩).nor = ⟨Quat.one⟩ from rfl, one_boxPlus_z]
    have hn : ((⟨0.1, 0, 0, 0.1⟩ : M2).mulVec (squareCorner (halfSideOf 2 2) k)).norm ≤ 1 := by
      unfold V2.norm
      rw [Real.sqrt_le_one]
      fin_cases k <;> simp [squareCorner, M2.mulVec, halfSideOf] <;> norm_num
    have hn0 : 0 ≤ ((⟨0.1, 0, 0, 0.1⟩ : M2).mulVec (squareCorner (halfSideOf 2 2) k)).norm := Real.sqrt_nonneg _
    exact Real.cos_pos_of_mem_Ioo ⟨by linarith [Real.pi_gt_three], by linarith [Real.pi_gt_three]⟩
  choose q hq using key
  obtain ⟨c', hc', -⟩ := C114_outline 2 2 (by norm_num) junk (onAxis junk' ⟨0.1, 0, 0, 0.1⟩) FC.pinhole hwf rfl rfl (onAxis_front junk' _) _
    (onAxis_tells junk' _) q hq
  exact ⟨q, c', hc'⟩

/-- The hypotheses about the first order hold for the same feature, and the deformation of its pixel is not zero. -/
example (junk junk' : FC) (d : V2) : ∃ (pix : ℝ → V2) (Wc : M2), (onAxis junk' ⟨0.1, 0, 0, 0.1⟩).getWarpC.map Prod.snd = some Wc ∧ Wc = ⟨0, 0.1, -0.1, 0⟩ ∧
    HasDerivV2 pix (Wc.mulVec d) 0 := by
  have hwf : FC.pinhole.WF := C09_camera_is_wf _ _ _
  have hJ0 : FC.pinhole.b2pJ ⟨Quat.one⟩ = some (⟨0, 0⟩, ⟨0, 1, -1, 0⟩) := by
    simp [FC.pinhole, Camera.toI, Camera.bearingToPixelNJ, Camera.bearingToPixelJ, Nor.vec, V3.ez, Camera.default',
      Camera.distortJ, Camera.distortRadtanJ, Camera.M23.mulVec, Nor.M, Nor.perp1, Nor.perp2, V3.ex, V3.ey, V3.dot]
    norm_num
  obtain ⟨c', e1, -, -, -, e5⟩ := comWarpC_known hwf (c := onAxis junk' ⟨0.1, 0, 0, 0.1⟩) rfl rfl (onAxis_tells junk' _) (onAxis_front junk' _)
  have hWc : (onAxis junk' ⟨0.1, 0, 0, 0.1⟩).getWarpC.map Prod.snd = some ⟨0, 0.1, -0.1, 0⟩ := by
    rcases e5 with ⟨h, -⟩ | ⟨-, -, -, e⟩
    · exact absurd h (by simp [onAxis])
    · unfold FC.getWarpC
      rw [e1]
      simp only [Option.bind_eq_bind, Option.bind_some, Option.pure_def, Option.map_some, Option.some.injEq, e]
      rw [CamI.J, show (onAxis junk' ⟨0.1, 0, 0, 0.1⟩).nor = ⟨Quat.one⟩ from rfl, hJ0]
      ext <;> simp [M2.mul]
  obtain ⟨pix, -, -, h3⟩ := C114_first_order Camera.default' (fun _ => ⟨Quat.one⟩) (fun _ => ⟨Quat.one⟩) junk (onAxis junk' ⟨0.1, 0, 0, 0.1⟩) rfl rfl
    Quat.isUnit_one (onAxis_front junk' _) (by simp [Camera.RegularAt, Camera.default']) _ _ (onAxis_tells junk' _) hWc
    (by intro h; exact absurd h (by simp [onAxis])) d
  exact ⟨pix, _, hWc, rfl, h3⟩

/-- Nothing is drawn for a fresh object. -/
example (junk : ℕ → FC) (j : FC) : (drawMultilevelPatchBorder 8 4 junk (FC.construct j none) 1).map Prod.snd = some [] :=
  C114_nothing 8 4 junk _ 1 (Or.inl (by simp [FC.isInFront, FC.construct, FC.resetCoordinates, FC.setWarpIdentity]))

/-- A pixel of the finest level of a patch of eight by eight pixels on four levels. -/
example : Within (levelPixel ⟨0, 0⟩ ⟨0, 0⟩ 0 0 (levelPixel ⟨0, 0⟩ ⟨0, 0⟩ 0 0 ⟨100, 80⟩ + M2.one.mulVec (patchPixel 8 7 0)))
    (fun k => ⟨100, 80⟩ + M2.one.mulVec (squareCorner (halfSideOf 8 4) k)) :=
  C114_covers 8 4 0 7 0 (by norm_num) (by norm_num) (by norm_num) (fun _ => ⟨0, 0⟩) ⟨100, 80⟩ M2.one

end Rovio.Outline
