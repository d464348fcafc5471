import Verif.Model.ImgPixel
import Verif.Spec.ImgPixel
import Verif.Lemmas.Tracker

/-!
# Helper lemmas for the image accesses of the image update
-/

namespace Rovio.ImgPixel

open Align Spec

/-! ### The in-frame test is defined -/

lemma floorInt_abs {x : ℝ} (h : |x| < 2147483648) : ∃ n, floorInt x = some n := by
  obtain ⟨h1, h2⟩ := abs_lt.mp h
  exact ⟨_, floorInt_total (by linarith) h2⟩

lemma abs_half {z : ℕ} {hs : ℕ} (hz : z = 0 ∨ z = 2 * hs - 1) (h1 : 1 ≤ hs) : |((z : ℝ) - hs + 0.5)| ≤ (hs : ℝ) - 1 / 2 := by
  have h5 : (0.5 : ℝ) = 1 / 2 := by norm_num
  have hc : ((2 * hs - 1 : ℕ) : ℝ) = 2 * (hs : ℝ) - 1 := by rw [Nat.cast_sub (by omega)]; push_cast; ring
  have h1' : (1 : ℝ) ≤ hs := by exact_mod_cast h1
  rcases hz with rfl | rfl
  · rw [h5, Nat.cast_zero, abs_le]; constructor <;> linarith
  · rw [h5, hc, abs_le]; constructor <;> linarith

lemma cornerOk_total {img : Img} {q : V2} {W : M2} {hs p : ℕ} {B R : ℝ} {y x : ℕ} (hy : y = 0 ∨ y = 2 * hs - 1) (hx : x = 0 ∨ x = 2 * hs - 1) (h1 : 1 ≤ hs)
    (hp : (hs : ℝ) - 1 / 2 ≤ (p + 1) / 2) (hq : Small B q) (hW : Reach p R W) (hB : B + R + 1 ≤ 2147483648) : ∃ b, Patch.cornerOk img q W hs (y, x) = some b := by
  have dx := abs_half hx h1
  have dy := abs_half hy h1
  have key : ∀ a b u v : ℝ, |u| ≤ (hs : ℝ) - 1 / 2 → |v| ≤ (hs : ℝ) - 1 / 2 → (|a| + |b|) * ((p + 1) / 2) ≤ R → |a * u + b * v| ≤ R := by
    intro a b u v hu hv hab
    have e1 : |a * u| ≤ |a| * ((p + 1) / 2) := by rw [abs_mul]; exact mul_le_mul_of_nonneg_left (hu.trans hp) (abs_nonneg _)
    have e2 : |b * v| ≤ |b| * ((p + 1) / 2) := by rw [abs_mul]; exact mul_le_mul_of_nonneg_left (hv.trans hp) (abs_nonneg _)
    calc |a * u + b * v| ≤ |a * u| + |b * v| := abs_add_le _ _
      _ ≤ _ := by linarith
  have kx := key _ _ _ _ dx dy hW.1
  have ky := key _ _ _ _ dx dy hW.2
  obtain ⟨qx, qy⟩ := hq
  have h5 : (0.5 : ℝ) = 1 / 2 := by norm_num
  have fin : ∀ a b : ℝ, |a| ≤ B → |b| ≤ R → |a + b - 0.5| < 2147483648 := by
    intro a b ha hb
    rw [abs_le] at ha hb
    rw [h5, abs_lt]
    constructor <;> linarith
  unfold Patch.cornerOk
  obtain ⟨u, hu⟩ := floorInt_abs (fin _ _ qx kx)
  obtain ⟨v, hv⟩ := floorInt_abs (fin _ _ qy ky)
  simp only [hu, hv, Option.bind_eq_bind, Option.bind_some, Option.pure_def]
  exact ⟨_, rfl⟩

lemma halfPatch_reach {p : ℕ} (wb : Bool) : (halfPatch p wb : ℝ) - 1 / 2 ≤ (p + 1) / 2 := by
  have : 2 * halfPatch p wb ≤ p + 2 := by unfold halfPatch; split <;> omega
  have : (2 : ℝ) * (halfPatch p wb : ℝ) ≤ p + 2 := by exact_mod_cast this
  linarith

lemma cornersOk_total {p : ℕ} (hp : 2 ≤ p) {img : Img} {q : V2} {W : M2} {wb : Bool} {B R : ℝ} (hq : Small B q) (hW : Reach p R W) (hB : B + R + 1 ≤ 2147483648) :
    ∃ b, Patch.cornersOk img q W (halfPatch p wb) = some b := by
  have h1 := Patch.halfPatch_pos hp wb
  have hh := halfPatch_reach (p := p) wb
  generalize halfPatch p wb = hs at *
  obtain ⟨b1, e1⟩ := cornerOk_total (img := img) (y := 0) (x := 0) (Or.inl rfl) (Or.inl rfl) h1 hh hq hW hB
  obtain ⟨b2, e2⟩ := cornerOk_total (img := img) (y := 0) (x := 2 * hs - 1) (Or.inl rfl) (Or.inr rfl) h1 hh hq hW hB
  obtain ⟨b3, e3⟩ := cornerOk_total (img := img) (y := 2 * hs - 1) (x := 0) (Or.inr rfl) (Or.inl rfl) h1 hh hq hW hB
  obtain ⟨b4, e4⟩ := cornerOk_total (img := img) (y := 2 * hs - 1) (x := 2 * hs - 1) (Or.inr rfl) (Or.inr rfl) h1 hh hq hW hB
  unfold Patch.cornersOk
  simp only [List.allM, e1, e2, e3, e4, Option.bind_eq_bind, Option.bind_some, Option.pure_def]
  cases b1 <;> cases b2 <;> cases b3 <;> cases b4 <;> exact ⟨_, rfl⟩

lemma isPatchInFrame_total {p : ℕ} (hp : 2 ≤ p) {img : Img} {c : FC} (hs : c.Settled) {wb : Bool}
    (h : c.nearB = true ∨ ∃ B R, Small B c.c ∧ Reach p R c.warpC ∧ B + R + 1 ≤ 2147483648) : ∃ b, Patch.isPatchInFrame p img c wb = some (c, b) := by
  unfold Patch.isPatchInFrame
  simp only [FC.comWarpC_valid hs.warp, FC.isNear_valid hs.warp, FC.getWarpC_valid hs.warp, hs.getC, Option.bind_eq_bind, Option.bind_some, if_true, Option.pure_def]
  by_cases hf : c.isInFront = true
  · rw [if_pos hf]
    by_cases hn : c.nearB = true
    · rw [if_pos hn]; exact ⟨_, rfl⟩
    · rw [if_neg hn]
      obtain ⟨B, R, h1, h2, h3⟩ := h.resolve_left hn
      obtain ⟨b, hb⟩ := cornersOk_total (img := img) (wb := wb) hp h1 h2 h3
      rw [hb]; exact ⟨_, rfl⟩
  · rw [if_neg hf]; exact ⟨_, rfl⟩

/-- The pixel on a level is hardly larger than the pixel on level 0. -/
lemma levelPixel_small {n : ℕ} {img : Img} {cv : Option (Img → ℕ → ℕ → ℕ)} {pyr : List Level} (h : computeFromImage n img cv = some pyr)
    {l : ℕ} {a b : Level} (ha : pyr[0]? = some a) (hb : pyr[l]? = some b) {B : ℝ} {q : V2} (hq : Small B q) : Small (B + 1) (levelPixel a.center b.center 0 l q) := by
  have hl : l < n := by
    rw [← (levelsFrom_spec cv _ _ _ _ h).1]
    exact (List.getElem?_eq_some_iff.mp hb).1
  have hmod : ∀ k : ℕ, ((k % 2 + cvOff cv : ℕ) : ℝ) ≤ 2 := by
    intro k
    have : k % 2 + cvOff cv ≤ 2 := by unfold cvOff; split <;> omega
    exact_mod_cast this
  obtain ⟨h1, h2, h3, h4⟩ := pyr_centers h (K := 2) (fun _ _ _ _ => ⟨hmod _, hmod _⟩) l 0 a b (by omega) hl ha hb
  have hp : (1 : ℝ) ≤ 2 ^ l := one_le_pow₀ (by norm_num)
  have key : ∀ d q : ℝ, d ≤ 0 → -((2 : ℝ) ^ l - 2 ^ 0) / 2 * 2 ≤ d → |q| ≤ B → |(-d + 2 ^ 0 * q) / 2 ^ l| ≤ B + 1 := by
    intro d q d1 d2 hq
    have hp0 : (0 : ℝ) < 2 ^ l := by positivity
    rw [abs_div, abs_of_pos hp0, div_le_iff₀ hp0]
    have hB : 0 ≤ B := (abs_nonneg q).trans hq
    have : |(-d + 2 ^ 0 * q)| ≤ (2 ^ l - 1) + B := by
      rw [abs_le] at hq ⊢
      constructor <;> linarith [hq.1, hq.2]
    nlinarith
  constructor
  · rw [levelPixel_x]
    have := key (b.center.x - a.center.x) q.x (by linarith) h3 hq.1
    rwa [show -(b.center.x - a.center.x) = a.center.x - b.center.x by ring] at this
  · rw [levelPixel_y]
    have := key (b.center.y - a.center.y) q.y (by linarith) h4 hq.2
    rwa [show -(b.center.y - a.center.y) = a.center.y - b.center.y by ring] at this

/-- A level of the alignment, or of the in-frame test, at settled coordinates. -/
lemma level_total {p : ℕ} (hp : 2 ≤ p) {n : ℕ} {img : Img} {cv : Option (Img → ℕ → ℕ → ℕ)} {pyr : List Level} (h : computeFromImage n img cv = some pyr) {junk c : FC} (hs : c.Settled)
    {l : ℕ} (hl : l < n) {B R : ℝ} (hf : Fit p B R c.c c.warpC) (hB : B + R + 2 ≤ 2147483648) (wb : Bool) :
    ∃ lvl cl b, pyr[l]? = some lvl ∧ levelTransform junk pyr c 0 l = some (c, cl) ∧ Patch.isPatchInFrame p lvl.img cl wb = some (cl, b) := by
  obtain ⟨a, ha, _⟩ := pyr_size h 0 (by omega)
  obtain ⟨lvl, hb, _⟩ := pyr_size h l hl
  obtain ⟨o, ho, hos, hof, hoc, how, hoi⟩ := levelTransform_settled (junk := junk) ha hb hs
  have hcase : o.nearB = true ∨ ∃ B R, Small B o.c ∧ Reach p R o.warpC ∧ B + R + 1 ≤ 2147483648 := by
    cases hcam : c.cam with
    | none => left; simp [FC.nearB, hoi, hcam]
    | some cam =>
      rw [hcam] at how
      simp only [Option.isSome_some, if_true] at how
      rcases hf with hn | ⟨h1, h2⟩
      · left; unfold FC.nearB; rw [how]; simp [hn]
      · right
        refine ⟨B + 1, R, ?_, by rw [how]; exact h2, by linarith⟩
        rw [hoc]
        exact levelPixel_small h ha hb h1
  obtain ⟨b, hbf⟩ := isPatchInFrame_total (img := lvl.img) hp hos (wb := wb) hcase
  exact ⟨lvl, o, b, hb, ho, hbf⟩

/-- The state in which an image access leaves the coordinates. -/
lemma used_total {c : FC} {cam : CamI} (hcam : c.cam = some cam) : ∃ c1 b, c.comWarpC = some (c1, b) ∧ c1.cam = some cam ∧ c1.validWarpC = b ∧
    (b = true → ∃ c2, c1.getC = some (c2, c2.c) ∧ c2.Settled ∧ c2.cam = some cam ∧ c2.warpC = c1.warpC ∧ Used c c2.c c2.warpC) := by
  obtain ⟨⟨c1, b⟩, hw⟩ := FC.comWarpC_total hcam
  obtain ⟨_, k2, _, _, k5, _⟩ := FC.comWarpC_spec hw
  refine ⟨c1, b, hw, k2.trans hcam, k5, ?_⟩
  rintro rfl
  obtain ⟨⟨c2, b2⟩, hc⟩ := FC.comC_total (k2.trans hcam)
  have hg : c1.getC = some (c2, c2.c) := by simp [FC.getC, hc]
  obtain ⟨e1, _, e3, _, e5, _⟩ := FC.settled_of_getC k5 hg
  exact ⟨c2, hg, e1, e5.trans (k2.trans hcam), e3, c1, c2, hw, hg, e3⟩

lemma levelTransform_of_getC {junk c1 c2 : FC} {pyr : List Level} {l1 l2 : ℕ} (hw : c1.validWarpC = true) (hg : c1.getC = some (c2, c2.c)) :
    levelTransform junk pyr c1 l1 l2 = levelTransform junk pyr c2 l1 l2 := by
  obtain ⟨e1, _⟩ := FC.settled_of_getC hw hg
  unfold levelTransform
  rw [hg, e1.getC]

/-- The in-frame test is defined if the pixel and the warp it uses are of moderate size. -/
lemma inFrame_total {env : Env} (hp : 2 ≤ env.p) {n : ℕ} {img : Img} {cv : Option (Img → ℕ → ℕ → ℕ)} {pyr : List Level} (h : computeFromImage n img cv = some pyr)
    (hl : env.start < n) {c : FC} {cam : CamI} (hcam : c.cam = some cam) {B R : ℝ} (hf : ∀ q W, Used c q W → Fit env.p B R q W) (hB : B + R + 2 ≤ 2147483648) (wb : Bool) :
    ∃ c' b, inFrame env pyr c wb = some (c', b) ∧ (b = true → c'.Settled ∧ c'.cam = some cam ∧ Used c c'.c c'.warpC ∧ Accessed c c') := by
  unfold inFrame MLP.isMultilevelPatchInFrame
  by_cases hfr : c.isInFront = true
  · obtain ⟨c1, b, hw, hcam1, hv, hrest⟩ := used_total hcam
    simp only [hfr, hw, Bool.not_true, Bool.false_eq_true, if_false, Option.bind_eq_bind, Option.bind_some, Option.pure_def]
    cases b with
    | false => exact ⟨c1, false, by simp, by simp⟩
    | true =>
      obtain ⟨c2, hg, hs, hcam2, hW, hu⟩ := hrest rfl
      obtain ⟨lvl, cl, r, h1, h2, h3⟩ := level_total hp h (junk := env.junk) hs hl (hf _ _ hu) hB wb
      simp only [Bool.not_true, Bool.false_eq_true, if_false, levelTransform_of_getC hv hg, h2, h1, h3, Option.bind_some]
      exact ⟨c2, r, rfl, fun _ => ⟨hs, hcam2, hu, c1, c2.c, hw, hg⟩⟩
  · simp only [hfr, Bool.not_false, if_true]
    exact ⟨c, false, rfl, by simp⟩

/-! ### Coordinates with a new pixel -/

lemma used_settled {c : FC} (hs : c.Settled) {q : V2} {W : M2} (h : Used c q W) : q = c.c ∧ W = c.warpC := by
  obtain ⟨c1, c2, h1, h2, rfl⟩ := h
  rw [FC.comWarpC_valid hs.warp] at h1
  simp only [Option.some.injEq, Prod.mk.injEq, and_true] at h1
  subst h1
  rw [hs.getC] at h2
  simp only [Option.some.injEq, Prod.mk.injEq] at h2
  exact ⟨h2.2.symm, rfl⟩

lemma used_setC_valid {c : FC} (hw : c.validWarpC = true) {q0 q : V2} {W : M2} (h : Used (c.setC q0 false) q W) : q = q0 ∧ W = c.warpC := by
  obtain ⟨h1, h2⟩ := used_settled (setC_settled hw q0).1 h
  exact ⟨by rw [h1]; simp [FC.setC], by rw [h2]; simp [FC.setC]⟩

/-- The pixel and warp used after setting a pixel depend only on the camera and the bearing warp (if the pixel warp is not known). -/
lemma comWarpC_setC {c : FC} (hw : c.validWarpC = false) {cam : CamI} (hcam : c.cam = some cam) (q0 : V2) :
    (c.setC q0 false).comWarpC = if c.validWarpNor then
      (if (cam.p2b q0).2 then
        match cam.b2pJ (cam.p2b q0).1 with
        | some (q, J) => some ({ c with c := q, validC := true, nor := (cam.p2b q0).1, validNor := true, warpC := J.mul c.warpNor, validWarpC := true }, true)
        | none => some ({ c with c := q0, validC := true, nor := (cam.p2b q0).1, validNor := true, warpC := M2.zero.mul c.warpNor, validWarpC := true }, true)
       else some ({ c with c := q0, validC := true, nor := (cam.p2b q0).1, validNor := false }, false))
      else some (c.setC q0 false, false) := by
  unfold FC.comWarpC
  cases hn : c.validWarpNor with
  | false => simp [FC.setC, hw, hn]
  | true =>
    cases hb : (cam.p2b q0).2 with
    | false => simp [FC.setC, hw, hn, FC.comC, FC.comNor, hcam, hb]
    | true =>
      cases hj : cam.b2pJ (cam.p2b q0).1 with
      | none => simp [FC.setC, hw, hn, FC.comC, FC.comNor, FC.getJ, FC.getNor, hcam, hb, hj]
      | some r =>
        obtain ⟨q, J⟩ := r
        simp [FC.setC, hw, hn, FC.comC, FC.comNor, FC.getJ, FC.getNor, hcam, hb, hj]

lemma used_setC_congr {c c' : FC} (hw : c.validWarpC = false) (hw' : c'.validWarpC = false) {cam : CamI} (hcam : c.cam = some cam) (hcam' : c'.cam = some cam)
    (hn : c'.validWarpNor = c.validWarpNor) (hN : c'.warpNor = c.warpNor) {q0 q : V2} {W : M2} (h : Used (c'.setC q0 false) q W) : Used (c.setC q0 false) q W := by
  obtain ⟨c1, c2, h1, h2, rfl⟩ := h
  rw [comWarpC_setC hw' hcam', hn, hN] at h1
  unfold Used
  rw [comWarpC_setC hw hcam]
  cases hv : c.validWarpNor with
  | false => simp [hv] at h1
  | true =>
    simp only [hv, if_true] at h1 ⊢
    cases hb : (cam.p2b q0).2 with
    | false => simp [hb] at h1
    | true =>
      simp only [hb, if_true] at h1 ⊢
      cases hj : cam.b2pJ (cam.p2b q0).1 with
      | none =>
        simp only [hj, Option.some.injEq, Prod.mk.injEq, and_true] at h1
        subst h1
        simp only [FC.getC, FC.comC, if_true, Option.bind_eq_bind, Option.bind_some, Option.pure_def, Option.some.injEq, Prod.mk.injEq] at h2
        obtain ⟨-, rfl⟩ := h2
        exact ⟨_, _, rfl, rfl, rfl⟩
      | some r =>
        obtain ⟨q', J⟩ := r
        simp only [hj, Option.some.injEq, Prod.mk.injEq, and_true] at h1
        subst h1
        simp only [FC.getC, FC.comC, if_true, Option.bind_eq_bind, Option.bind_some, Option.pure_def, Option.some.injEq, Prod.mk.injEq] at h2
        obtain ⟨-, rfl⟩ := h2
        exact ⟨_, _, rfl, rfl, rfl⟩

/-- What stays of the coordinates while seeds are tried: the camera, and either a known pixel warp of moderate size or the bearing warp. -/
def Kept (p : ℕ) (R : ℝ) (c0 c : FC) : Prop :=
  c.cam = c0.cam ∧ ((c.validWarpC = true ∧ Moderate p R c.warpC) ∨
    (c.validWarpC = false ∧ c0.validWarpC = false ∧ c.validWarpNor = c0.validWarpNor ∧ c.warpNor = c0.warpNor))

lemma Kept.trans {p : ℕ} {R : ℝ} {a b c : FC} (h1 : Kept p R a b) (h2 : Kept p R b c) : Kept p R a c := by
  refine ⟨h2.1.trans h1.1, ?_⟩
  rcases h2.2 with h | ⟨h, h', h3, h4⟩
  · exact Or.inl h
  · rcases h1.2 with k | ⟨_, k', k3, k4⟩
    · rw [h'] at k; simp at k
    · exact Or.inr ⟨h, k', h3.trans k3, h4.trans k4⟩

lemma Fit.moderate {p : ℕ} {B R : ℝ} {q : V2} {W : M2} (h : Fit p B R q W) : Moderate p R W := h.imp id And.right

lemma Fit.mono {p : ℕ} {B B' R : ℝ} {q : V2} {W : M2} (h : Fit p B R q W) (hB : B ≤ B') : Fit p B' R q W :=
  h.imp id fun ⟨h1, h2⟩ => ⟨⟨h1.1.trans hB, h1.2.trans hB⟩, h2⟩

lemma Moderate.fit {p : ℕ} {B R : ℝ} {q : V2} {W : M2} (h : Moderate p R W) (hq : Small B q) : Fit p B R q W := h.imp id fun h => ⟨hq, h⟩

lemma Small.add {A B : ℝ} {q u : V2} (h : Small A q) (h' : Small B u) : Small (A + B) (q + u) :=
  ⟨by rw [V2.add_x]; exact (abs_add_le _ _).trans (add_le_add h.1 h'.1), by rw [V2.add_y]; exact (abs_add_le _ _).trans (add_le_add h.2 h'.2)⟩

lemma kept_comWarpC {p : ℕ} {R : ℝ} {c c1 : FC} {b : Bool} (h : c.comWarpC = some (c1, b)) (hm : c1.validWarpC = true → Moderate p R c1.warpC) : Kept p R c c1 := by
  obtain ⟨_, k2, _, _, k5, k6⟩ := FC.comWarpC_spec h
  refine ⟨k2, ?_⟩
  cases hv : c1.validWarpC with
  | true => exact Or.inl ⟨rfl, hm hv⟩
  | false =>
    rcases k6 with hs | ⟨_, _, k, _⟩
    · exact Or.inr ⟨rfl, by rw [← hs.validWarpC]; exact hv, hs.validWarpNor, hs.warpNor⟩
    · rw [hv] at k; simp at k

lemma kept_comC {p : ℕ} {R : ℝ} {c c1 : FC} {b : Bool} (h : c.comC = some (c1, b)) (hm : c.validWarpC = true → Moderate p R c.warpC) : Kept p R c c1 := by
  have hs := (FC.comC_spec h).1
  refine ⟨hs.cam, ?_⟩
  cases hv : c.validWarpC with
  | true => exact Or.inl ⟨hs.validWarpC.trans hv, by rw [hs.warpC]; exact hm hv⟩
  | false => exact Or.inr ⟨hs.validWarpC.trans hv, rfl, hs.validWarpNor, hs.warpNor⟩

lemma kept_setC {p : ℕ} {R : ℝ} {c0 c : FC} (h : Kept p R c0 c) (q : V2) : Kept p R c0 (c.setC q false) := by
  unfold Kept at h ⊢
  simpa [FC.setC] using h

/-- Asking for the warp keeps a known pixel known. -/
lemma comWarpC_pixel {c c1 : FC} {b : Bool} (hv : c.validC = true) (h : c.comWarpC = some (c1, b)) : c1.validC = true := by
  refine FC.query_pres (P := fun s => s.validC = true) ?_ ?_ ?_ ?_ c .comWarpC c1 rfl hv (by simp [FC.step, h])
  · intro s s' b hP h
    rw [(FC.comC_spec h).2.2.2.2 hP]; exact hP
  · intro s s' b hP h
    rw [(FC.comNor_spec h).2.2.1]; exact hP
  · intro s s' J hP h
    rw [(FC.getJ_spec h).2.1]; exact hP
  · intro s s' hP _ _ h _ _
    rw [h]; exact hP

/-- Pixel after warp is the same as warp after pixel. -/
lemma comC_comWarpC {c c1 c2 : FC} {b b' : Bool} (h1 : c.comC = some (c1, b)) (h2 : c1.comWarpC = some (c2, b')) :
    ∃ c3, c.comWarpC = some (c3, b') ∧ c3.getC = some (c2, c2.c) := by
  have hs := (FC.comC_spec h1).1
  by_cases hw : c.validWarpC = true
  · have : c1.validWarpC = true := hs.validWarpC.trans hw
    rw [FC.comWarpC_valid this] at h2
    simp only [Option.some.injEq, Prod.mk.injEq] at h2
    obtain ⟨rfl, rfl⟩ := h2
    exact ⟨c, FC.comWarpC_valid hw, by simp [FC.getC, h1]⟩
  · have hw' : ¬ c1.validWarpC = true := by rw [hs.validWarpC]; exact hw
    have hi := FC.comC_idem h1
    have hb : c1.validC = b := (FC.comC_spec h1).2.2.2.1
    rw [hb] at hi
    by_cases hn : c.validWarpNor = true
    · have hn' : c1.validWarpNor = true := hs.validWarpNor.trans hn
      have he : c.comWarpC = c1.comWarpC := by
        unfold FC.comWarpC
        simp only [if_neg hw, if_neg hw', hn, hn', if_true, h1, hi]
      refine ⟨c2, he.trans h2, ?_⟩
      cases b with
      | false =>
        unfold FC.comWarpC at h2
        simp only [if_neg hw', hn', if_true, hi, Option.bind_eq_bind, Option.bind_some, Option.pure_def, Bool.not_false, Option.some.injEq, Prod.mk.injEq] at h2
        obtain ⟨rfl, _⟩ := h2
        simp [FC.getC, hi]
      | true => simp [FC.getC, FC.comC, comWarpC_pixel hb h2]
    · have hn' : ¬ c1.validWarpNor = true := by rw [hs.validWarpNor]; exact hn
      unfold FC.comWarpC at h2 ⊢
      simp only [if_neg hw', if_neg hn', Option.some.injEq, Prod.mk.injEq] at h2
      obtain ⟨rfl, rfl⟩ := h2
      simp only [if_neg hw, if_neg hn]
      exact ⟨c, rfl, by simp [FC.getC, h1]⟩

/-! ### Alignment -/

lemma pyr_length {n : ℕ} {img : Img} {cv : Option (Img → ℕ → ℕ → ℕ)} {pyr : List Level} (h : computeFromImage n img cv = some pyr) : pyr.length = n :=
  (levelsFrom_spec cv _ _ _ _ h).1

lemma pyr_small {n : ℕ} {img : Img} {cv : Option (Img → ℕ → ℕ → ℕ)} {pyr : List Level} (h : computeFromImage n img cv = some pyr)
    (hc : img.cols ≤ 2147483647) (hr : img.rows ≤ 2147483647) : ∀ lvl ∈ pyr, lvl.img.cols ≤ 2147483647 ∧ lvl.img.rows ≤ 2147483647 := by
  intro lvl hm
  obtain ⟨i, hi, rfl⟩ := List.getElem_of_mem hm
  obtain ⟨a, ha, h1, h2⟩ := pyr_size h i (by rw [← pyr_length h]; exact hi)
  rw [List.getElem?_eq_getElem hi, Option.some.injEq] at ha
  rw [ha, h1, h2]
  exact ⟨(Nat.div_le_self _ _).trans hc, (Nat.div_le_self _ _).trans hr⟩

/-- The alignment equations are defined if the pixel and the warp used are of moderate size; if there are equations, the coordinates are
then settled. -/
lemma equations_total {p : ℕ} (hp : 2 ≤ p) {n : ℕ} {img : Img} {cv : Option (Img → ℕ → ℕ → ℕ)} {pyr : List Level} (h : computeFromImage n img cv = some pyr)
    (hc : img.cols ≤ 2147483647) (hr : img.rows ≤ 2147483647) {cfg : AlignCfg} {junk : FC} {ex : ℕ → Patch} {mp : MLP} {l1 l2 : ℕ} (hl : l2 < n)
    {c : FC} {cam : CamI} (hcam : c.cam = some cam) {B R : ℝ} (hf : ∀ q W, Used c q W → Fit p B R q W) (hB : B + R + 2 ≤ 2147483648) :
    ∃ c' r, equations p cfg junk ex pyr mp c l1 l2 = some (c', r) ∧ Kept p R c c' ∧ (r ≠ .fail → c'.Settled ∧ c'.validC = true ∧ Used c c'.c c'.warpC) := by
  have hm : c.validWarpC = true → Moderate p R c.warpC := by
    intro hv
    obtain ⟨c1, b, hw, _, _, hrest⟩ := used_total hcam
    rw [FC.comWarpC_valid hv] at hw
    simp only [Option.some.injEq, Prod.mk.injEq] at hw
    obtain ⟨rfl, rfl⟩ := hw
    obtain ⟨c2, _, _, _, hW, hu⟩ := hrest rfl
    rw [← hW]
    exact Fit.moderate (hf _ _ hu)
  obtain ⟨⟨c1, b⟩, h1⟩ := FC.comC_total hcam
  have hs1 := (FC.comC_spec h1).1
  have v1 := (FC.comC_spec h1).2.2.2.1
  cases b with
  | false =>
    refine ⟨c1, .fail, ?_, kept_comC h1 hm, by simp⟩
    unfold equations
    simp [h1]
  | true =>
    obtain ⟨⟨c2, b2⟩, h2⟩ := FC.comWarpC_total (hs1.cam.trans hcam)
    obtain ⟨c3, h3, h3'⟩ := comC_comWarpC h1 h2
    obtain ⟨_, k2, _, _, k5, _⟩ := FC.comWarpC_spec h2
    have hW3 : b2 = true → c3.warpC = c2.warpC := fun hb => (FC.settled_of_getC ((FC.comWarpC_spec h3).2.2.2.2.1.trans hb) h3').2.2.1.symm
    have hu : b2 = true → Used c c2.c c2.warpC := fun hb => ⟨c3, c2, by rw [h3, hb], h3', (hW3 hb).symm⟩
    have hk : Kept p R c c2 := (kept_comC h1 hm).trans (kept_comWarpC h2 fun hv => Fit.moderate (hf _ _ (hu (k5.symm.trans hv))))
    cases b2 with
    | false =>
      refine ⟨c2, .fail, ?_, hk, by simp⟩
      unfold equations
      simp [h1, h2]
    | true =>
      have v2 : c2.validC = true := comWarpC_pixel v1 h2
      have hs2 : c2.Settled := ⟨k5, by simp [FC.comC, v2]⟩
      have he : equations p cfg junk ex pyr mp c l1 l2 = equations p cfg junk ex pyr mp c2 l1 l2 := by
        have hcc : c2.comC = some (c2, true) := by simp [FC.comC, v2]
        unfold equations
        simp only [h1, h2, hcc, FC.comWarpC_valid k5, Option.bind_eq_bind, Option.bind_some, Bool.not_true, Bool.false_eq_true, if_false]
      obtain ⟨res, hres⟩ := C67_equations_defined (cfg := cfg) (junk := junk) (ex := ex) (mp := mp) (l1 := l1) hp v2 k5 (by rw [pyr_length h]; exact hl) (pyr_small h hc hr) (by
        intro l lvl cl hl1 hl2 hb ht
        obtain ⟨lvl', cl', r, e1, e2, e3⟩ := level_total hp h (junk := junk) hs2 (l := l) (by omega) (hf _ _ (hu rfl)) hB false
        rw [hb, Option.some.injEq] at e1
        rw [ht, Option.some.injEq, Prod.mk.injEq] at e2
        rw [e1, e2.2, e3]
        simp)
      exact ⟨c2, res, he.trans hres, hk, fun _ => ⟨hs2, v2, hu rfl⟩⟩

/-- The iteration of the alignment is defined as long as the pixel stays of moderate size; successful results are settled. -/
lemma loop_total {p : ℕ} {solve : Option (List Row) → SolveRes} {eqs : FC → Option (FC × EqRes)} {tol : ℝ} {S M R : ℝ} (hS : 0 ≤ S)
    (hsolve : ∀ rows u, solve rows = .ok u → Small S u)
    (heqs : ∀ c cam, c.cam = some cam → (∀ q W, Used c q W → Fit p M R q W) →
      ∃ c' r, eqs c = some (c', r) ∧ Kept p R c c' ∧ (r ≠ .fail → c'.Settled ∧ c'.validC = true ∧ Used c c'.c c'.warpC)) :
    ∀ (fuel : ℕ) (c : FC) (cam : CamI) (K : ℝ), c.cam = some cam → K + fuel * S ≤ M → (∀ q W, Used c q W → Fit p K R q W) →
      ∃ o, loop solve eqs tol fuel c = some o ∧ Kept p R c o.c ∧ (o.ok = true → o.c.Settled ∧ Fit p M R o.c.c o.c.warpC)
  | 0, c, cam, K, hcam, hK, hf => by
    refine ⟨⟨c, false, false⟩, rfl, ⟨rfl, ?_⟩, by simp⟩
    cases hv : c.validWarpC with
    | false => exact Or.inr ⟨rfl, rfl, rfl, rfl⟩
    | true =>
      obtain ⟨c1, b, hw, _, _, hrest⟩ := used_total hcam
      rw [FC.comWarpC_valid hv] at hw
      simp only [Option.some.injEq, Prod.mk.injEq] at hw
      obtain ⟨rfl, rfl⟩ := hw
      obtain ⟨c2, _, _, _, hW, hu⟩ := hrest rfl
      exact Or.inl ⟨rfl, by rw [← hW]; exact Fit.moderate (hf _ _ hu)⟩
  | fuel + 1, c, cam, K, hcam, hK, hf => by
    have hfS : (0 : ℝ) ≤ fuel * S := mul_nonneg (Nat.cast_nonneg _) hS
    have hK' : K + S + fuel * S ≤ M := by push_cast at hK; linarith
    have hm : c.validWarpC = true → Moderate p R c.warpC := by
      intro hv
      obtain ⟨c1, b, hw, _, _, hrest⟩ := used_total hcam
      rw [FC.comWarpC_valid hv] at hw
      simp only [Option.some.injEq, Prod.mk.injEq] at hw
      obtain ⟨rfl, rfl⟩ := hw
      obtain ⟨c2, _, _, _, hW, hu⟩ := hrest rfl
      rw [← hW]
      exact Fit.moderate (hf _ _ hu)
    obtain ⟨⟨c1, b⟩, h1⟩ := FC.comC_total hcam
    have hs1 := (FC.comC_spec h1).1
    have hg : c.getC = some (c1, c1.c) := by simp [FC.getC, h1]
    have hu1 : ∀ q W, Used c1 q W → Used c q W := by
      rintro q W ⟨d1, d2, e1, e2, rfl⟩
      obtain ⟨d3, e3, e3'⟩ := comC_comWarpC h1 e1
      have hd : d3.validWarpC = true := (FC.comWarpC_spec e3).2.2.2.2.1
      obtain ⟨t1, _, t3, _⟩ := FC.settled_of_getC hd e3'
      rw [t1.getC] at e2
      simp only [Option.some.injEq, Prod.mk.injEq] at e2
      obtain ⟨rfl, rfl⟩ := e2
      exact ⟨d3, d1, e3, e3', t3⟩
    have hcam1 : c1.cam = some cam := hs1.cam.trans hcam
    obtain ⟨c2, r, h2, hk2, hr2⟩ := heqs c1 cam hcam1 (fun q W h => Fit.mono (hf q W (hu1 q W h)) (by linarith))
    have hkc : Kept p R c c2 := (kept_comC h1 hm).trans hk2
    unfold loop
    simp only [hg, h2, Option.bind_eq_bind, Option.bind_some]
    have hans : answer solve r ≠ none → r ≠ .fail := by rintro h rfl; exact h rfl
    cases ha : answer solve r with
    | none => exact ⟨_, rfl, hkc, by simp⟩
    | some a =>
      obtain ⟨hs2, v2, hu2⟩ := hr2 (hans (by rw [ha]; simp))
      cases a with
      | lowRank => exact ⟨_, rfl, hkc, by simp⟩
      | nonfinite => exact ⟨_, rfl, kept_setC hkc _, by simp⟩
      | ok u =>
        have hu : Small S u := by
          unfold answer at ha
          cases r with
          | fail => simp at ha
          | nonfinite => simp only [Option.some.injEq] at ha; exact hsolve _ _ ha
          | ok rows => simp only [Option.some.injEq] at ha; exact hsolve _ _ ha
        have hfit2 : Fit p K R c2.c c2.warpC := hf _ _ (hu1 _ _ hu2)
        have hfit3 : Fit p (K + S) R (c2.c + u) c2.warpC := hfit2.imp id fun h => ⟨Small.add h.1 hu, h.2⟩
        simp only [hs2.getC, Option.bind_some]
        split_ifs
        · refine ⟨_, rfl, kept_setC hkc _, fun _ => ⟨(setC_settled hs2.warp _).1, ?_⟩⟩
          have e1 : (c2.setC (c2.c + u) false).c = c2.c + u := by simp [FC.setC]
          have e2 : (c2.setC (c2.c + u) false).warpC = c2.warpC := by simp [FC.setC]
          rw [e1, e2]
          exact Fit.mono hfit3 (by linarith)
        · obtain ⟨o, ho, hko, hfo⟩ := loop_total hS hsolve heqs fuel (c2.setC (c2.c + u) false) cam (K + S) (by rw [FC.setC_cam]; exact hkc.1.trans hcam) hK' (by
            intro q W h
            obtain ⟨rfl, rfl⟩ := used_setC_valid hs2.warp h
            exact hfit3)
          exact ⟨o, ho, (kept_setC hkc _).trans hko, hfo⟩

lemma extract_total {env : Env} (hp : 2 ≤ env.p) {pyr : List Level} (I : Images env.start pyr) {c c' : FC} {wb : Bool} (h : inFrame env pyr c wb = some (c', true)) (m : MLP) :
    ∃ m', extract env m pyr c' wb = some (c', m') := by
  obtain ⟨⟨m', hm, _⟩, _⟩ := C25_coarsest_decides hp I.built I.cols I.rows h (I.exact.imp id Or.inl) m
  exact ⟨m', hm⟩

/-- In-frame test and comparison at settled coordinates. -/
lemma evalAt_total {env : Env} (hp : 2 ≤ env.p) {pyr : List Level} (I : Images env.start pyr) {mp : MLP} {c : FC} {cam : CamI} (hcam : c.cam = some cam) (hs : c.Settled) {B R : ℝ}
    (hf : Fit env.p B R c.c c.warpC) (hB : B + R + 2 ≤ 2147483648) (tmp : MLP) : ∃ e, evalAt env.p env.junk tmp pyr mp env.start env.stop c = some (c, e) := by
  obtain ⟨c', b, h1, h2⟩ := inFrame_total hp I.built I.levels hcam (fun q W h => by
    obtain ⟨rfl, rfl⟩ := used_settled hs h; exact hf) hB false
  have hsame : c' = c := inFrame_same hs h1
  subst hsame
  unfold evalAt
  have h1' := h1
  unfold inFrame at h1
  simp only [h1, Option.bind_eq_bind, Option.bind_some, Option.pure_def]
  cases b with
  | false => exact ⟨none, by simp⟩
  | true =>
    obtain ⟨m, hm⟩ := extract_total hp I h1' tmp
    unfold extract at hm
    simp [hm]

lemma adaptive_fold {env : Env} (hp : 2 ≤ env.p) {pyr : List Level} (I : Images env.start pyr) {mp : MLP} {c0 : FC} {cam : CamI} (hcam : c0.cam = some cam) {B R : ℝ} (hB0 : 0 ≤ B)
    (hB : 13 * B + R + 2 ≤ 2147483648) (hsolve : ∀ rows u, env.solve rows = .ok u → Small B u) (hst : Start env.p B R c0) {q dir : V2} {step : ℝ} (hq : Small B q) :
    ∀ (is : List ℤ), (∀ i ∈ is, Small B (((i : ℝ) * step) • dir)) → ∀ st : Ad, Kept env.p R c0 st.c → (∀ c e, st.best = some (c, e) → c.cam = some cam ∧ c.Settled ∧ Fit env.p (13 * B) R c.c c.warpC) →
      ∃ st', is.foldlM (adStep (fun c => align2D env.p env.acfg env.junk env.ex env.solve pyr mp c env.stop env.start) (evalAt env.p env.junk env.tmp pyr mp env.start env.stop) q dir step) st = some st' ∧
        Kept env.p R c0 st'.c ∧ (∀ c e, st'.best = some (c, e) → c.cam = some cam ∧ c.Settled ∧ Fit env.p (13 * B) R c.c c.warpC)
  | [], _, st, hk, hb => ⟨st, rfl, hk, hb⟩
  | i :: is, hi, st, hk, hb => by
    have hq2 : Small (2 * B) (q + ((i : ℝ) * step) • dir) := by
      have := Small.add hq (hi i (by simp))
      rwa [show B + B = 2 * B by ring] at this
    have hfit : ∀ q' W, Used (st.c.setC (q + ((i : ℝ) * step) • dir) false) q' W → Fit env.p (3 * B) R q' W := by
      intro q' W h
      rcases hk.2 with ⟨hv, hm⟩ | ⟨hv, hv0, h1, h2⟩
      · obtain ⟨rfl, rfl⟩ := used_setC_valid hv h
        exact Fit.mono (Moderate.fit hm hq2) (by linarith)
      · exact hst.moved _ hq2 _ _ (used_setC_congr hv0 hv hcam (hk.1.trans hcam) h1 h2 h)
    obtain ⟨o, ho, hko, hfo⟩ := loop_total (p := env.p) (tol := 0.03) (M := 13 * B) (R := R) hB0 hsolve (fun c cam hc hf => equations_total hp I.built I.cols I.rows (cfg := env.acfg) (junk := env.junk)
      (ex := env.ex) (mp := mp) (l1 := env.stop) I.levels hc hf hB) 10 (st.c.setC (q + ((i : ℝ) * step) • dir) false) cam (3 * B) (by rw [FC.setC_cam]; exact hk.1.trans hcam) (by norm_num; linarith) hfit
    have hko' : Kept env.p R c0 o.c := (kept_setC hk _).trans hko
    rw [List.foldlM_cons]
    have hal : align2D env.p env.acfg env.junk env.ex env.solve pyr mp (st.c.setC (q + ((i : ℝ) * step) • dir) false) env.stop env.start = some o := ho
    have hstep : ∃ st1, adStep (fun c => align2D env.p env.acfg env.junk env.ex env.solve pyr mp c env.stop env.start) (evalAt env.p env.junk env.tmp pyr mp env.start env.stop) q dir step st i = some st1 ∧
        Kept env.p R c0 st1.c ∧ (∀ c e, st1.best = some (c, e) → c.cam = some cam ∧ c.Settled ∧ Fit env.p (13 * B) R c.c c.warpC) := by
      unfold adStep
      simp only [hal, Option.bind_eq_bind, Option.bind_some, Option.pure_def]
      cases hok : o.ok with
      | false => exact ⟨_, rfl, hko', hb⟩
      | true =>
        obtain ⟨os, of⟩ := hfo hok
        have ocam : o.c.cam = some cam := hko'.1.trans hcam
        obtain ⟨e, he⟩ := evalAt_total hp I (mp := mp) ocam os of hB env.tmp
        simp only [if_true, he, Option.bind_some]
        cases e with
        | none => exact ⟨_, rfl, hko', hb⟩
        | some err =>
          cases hbest : st.best with
          | none => exact ⟨_, rfl, hko', by rintro c e ⟨rfl, rfl⟩; exact ⟨ocam, os, of⟩⟩
          | some be =>
            obtain ⟨cb, eb⟩ := be
            simp only
            split_ifs
            · exact ⟨_, rfl, hko', by rintro c e ⟨rfl, rfl⟩; exact ⟨ocam, os, of⟩⟩
            · exact ⟨_, rfl, hko', by rw [hbest] at hb; exact hb⟩
    obtain ⟨st1, h1, h2, h3⟩ := hstep
    rw [h1]
    exact adaptive_fold hp I hcam hB0 hB hsolve hst hq is (fun j hj => hi j (by simp [hj])) st1 h2 h3

lemma seedCount_total {env : Env} {B : ℝ} {cov : FC.PixelCov} (h : Seeds env.range env.coverage env.maxUni env.start B cov) :
    ∃ n, seedCount cov.sigma1 env.coverage env.range env.start env.maxUni = some n ∧ n ≤ env.maxUni := by
  have h2 : (2.0 : ℝ) = 2 := by norm_num
  have h5 : (0.5 : ℝ) = 1 / 2 := by norm_num
  obtain ⟨h0, h1⟩ := abs_le.mp h.count
  unfold seedCount seedStep
  rw [h2, h5]
  generalize cov.sigma1 * env.coverage / (env.range * 2 ^ (env.start + 1)) = x at *
  have l1 : -2147483648 ≤ ⌈x - 1 / 2⌉ := by
    have : (-2147483649 : ℤ) < ⌈x - 1 / 2⌉ := Int.lt_ceil.mpr (by push_cast; linarith)
    omega
  have l2 : ⌈x - 1 / 2⌉ ≤ 2147483647 := Int.ceil_le.mpr (by push_cast; linarith)
  have ht : truncZ ((⌈x - 1 / 2⌉ : ℤ) : ℝ) = ⌈x - 1 / 2⌉ := by unfold truncZ; split <;> simp
  unfold cInt
  rw [ht, if_pos ⟨l1, l2⟩]
  exact ⟨_, rfl, min_le_right _ _⟩

lemma seeds_small {env : Env} {B : ℝ} {cov : FC.PixelCov} (h : Seeds env.range env.coverage env.maxUni env.start B cov) {n : ℤ} (hn : n ≤ env.maxUni) :
    ∀ i ∈ seeds n, Small B (((i : ℝ) * seedStep env.range env.start) • cov.eigenVector1) := by
  intro i hi
  unfold seeds at hi
  obtain ⟨k, hk, rfl⟩ := List.mem_map.mp hi
  rw [List.mem_range] at hk
  have h2 : (2.0 : ℝ) = 2 := by norm_num
  have hs : 0 ≤ env.range * 2 ^ (env.start + 1) := mul_nonneg h.rangePos.le (by positivity)
  have ha : |(((k : ℤ) - n : ℤ) : ℝ)| ≤ env.maxUni := by
    have : |((k : ℤ) - n : ℤ)| ≤ env.maxUni := by rw [abs_le]; omega
    exact_mod_cast this
  have key : ∀ d : ℝ, |d| ≤ 1 → |(((k : ℤ) - n : ℤ) : ℝ) * seedStep env.range env.start * d| ≤ B := by
    intro d hd
    unfold seedStep
    rw [h2, abs_mul, abs_mul, abs_of_nonneg hs]
    calc |(((k : ℤ) - n : ℤ) : ℝ)| * (env.range * 2 ^ (env.start + 1)) * |d| ≤ |(((k : ℤ) - n : ℤ) : ℝ)| * (env.range * 2 ^ (env.start + 1)) * 1 :=
          mul_le_mul_of_nonneg_left hd (mul_nonneg (abs_nonneg _) hs)
      _ ≤ env.maxUni * (env.range * 2 ^ (env.start + 1)) := by rw [mul_one]; exact mul_le_mul_of_nonneg_right ha hs
      _ ≤ B := h.span
  exact ⟨by rw [V2.smul_x]; exact key _ h.unit.1, by rw [V2.smul_y]; exact key _ h.unit.2⟩

/-- The adaptive alignment is defined; successful results are settled and of moderate size. -/
lemma align_total {env : Env} (hp : 2 ≤ env.p) {pyr : List Level} (I : Images env.start pyr) {mp : MLP} {c0 : FC} {B R : ℝ} (hB0 : 0 ≤ B)
    (hB : 13 * B + R + 2 ≤ 2147483648) (hsolve : ∀ rows u, env.solve rows = .ok u → Small B u) (hst : Start env.p B R c0) {cov : FC.PixelCov} (hcov : Seeds env.range env.coverage env.maxUni env.start B cov) :
    ∃ o, align env pyr mp c0 cov = some o ∧ (o.ok = true → o.c.cam = c0.cam ∧ o.c.Settled ∧ Fit env.p (13 * B) R o.c.c o.c.warpC) := by
  obtain ⟨cam, hcam⟩ := Option.ne_none_iff_exists'.mp hst.cam
  obtain ⟨n, hn, hn'⟩ := seedCount_total hcov
  unfold align align2DAdaptive
  simp only [hn, Option.bind_eq_bind, Option.bind_some]
  split_ifs with h0 h1
  · obtain ⟨o, ho, hko, hfo⟩ := loop_total (p := env.p) (tol := 0.03) (M := 13 * B) (R := R) hB0 hsolve (fun c cam hc hf => equations_total hp I.built I.cols I.rows (cfg := env.acfg) (junk := env.junk)
      (ex := env.ex) (mp := mp) (l1 := env.stop) I.levels hc hf hB) 10 c0 cam (3 * B) hcam (by norm_num; linarith) hst.here
    exact ⟨o, ho, fun hok => ⟨hko.1, hfo hok⟩⟩
  · exact ⟨_, rfl, by simp⟩
  · obtain ⟨⟨c1, b⟩, hc⟩ := FC.comC_total hcam
    have hg : c0.getC = some (c1, c1.c) := by simp [FC.getC, hc]
    have hk0 : Kept env.p R c0 c0 := by
      refine ⟨rfl, ?_⟩
      cases hv : c0.validWarpC with
      | false => exact Or.inr ⟨rfl, rfl, rfl, rfl⟩
      | true =>
        obtain ⟨c1, b, hw, _, _, hrest⟩ := used_total hcam
        rw [FC.comWarpC_valid hv] at hw
        simp only [Option.some.injEq, Prod.mk.injEq] at hw
        obtain ⟨rfl, rfl⟩ := hw
        obtain ⟨c2, _, _, _, hW, hu⟩ := hrest rfl
        exact Or.inl ⟨rfl, by rw [← hW]; exact Fit.moderate (hst.here _ _ hu)⟩
    obtain ⟨st, hfold, hk, hb⟩ := adaptive_fold hp I (mp := mp) hcam hB0 hB hsolve hst (dir := cov.eigenVector1) (step := seedStep env.range env.start) (hst.pixel _ _ hg) (seeds n) (seeds_small hcov hn')
      ⟨c0, none⟩ hk0 (by simp)
    simp only [hg, hfold, Option.bind_some]
    cases hbest : st.best with
    | none => exact ⟨_, rfl, by simp⟩
    | some r =>
      obtain ⟨c, e⟩ := r
      obtain ⟨k1, k2, k3⟩ := hb c e hbest
      exact ⟨_, rfl, fun _ => ⟨k1.trans hcam.symm, k2, k3⟩⟩

lemma accept_total {env : Env} (hp : 2 ≤ env.p) {pyr : List Level} (I : Images env.start pyr) (mp : MLP) {c : FC} {cam : CamI} (hcam : c.cam = some cam) (hs : c.Settled) {B R : ℝ}
    (hf : Fit env.p B R c.c c.warpC) (hB : B + R + 2 ≤ 2147483648) : ∃ b, accept env pyr mp c = some (c, b) := by
  obtain ⟨c', b, h1, h2⟩ := inFrame_total hp I.built I.levels hcam (fun q W h => by
    obtain ⟨rfl, rfl⟩ := used_settled hs h; exact hf) hB false
  have hsame : c' = c := inFrame_same hs h1
  subst hsame
  unfold accept
  simp only [h1, Option.bind_eq_bind, Option.bind_some, Option.pure_def]
  cases b with
  | false => exact ⟨false, by simp⟩
  | true =>
    obtain ⟨m, hm⟩ := extract_total hp I h1 env.tmp1
    simp only [if_true, hm, Option.bind_some]
    split_ifs <;> exact ⟨_, rfl⟩

/-- The whole acceptance test: accepted coordinates are in frame. -/
lemma accept_true {env : Env} {pyr : List Level} {mp : MLP} {c c' : FC} (hs : c.Settled) (h : accept env pyr mp c = some (c', true)) :
    c' = c ∧ inFrame env pyr c false = some (c, true) := by
  unfold accept at h
  cases h1 : inFrame env pyr c false with
  | none => simp [h1] at h
  | some r =>
    obtain ⟨c1, b⟩ := r
    have hsame : c1 = c := inFrame_same hs h1
    subst hsame
    simp only [h1, Option.bind_eq_bind, Option.bind_some, Option.pure_def] at h
    cases b with
    | false => simp at h
    | true =>
      simp only [if_true] at h
      split_ifs at h with h2
      · cases h3 : extract env env.tmp1 pyr c1 false with
        | none => simp [h3] at h
        | some r =>
          obtain ⟨c2, m⟩ := r
          have : c2 = c1 := extractMP_same hs _ _ _ _ h3
          subst this
          simp only [h3, Option.bind_some, Option.some.injEq, Prod.mk.injEq] at h
          exact ⟨h.1.symm, rfl⟩
      · simp only [Option.some.injEq, Prod.mk.injEq] at h
        exact ⟨h.1.symm, rfl⟩

lemma placed_fit {p : ℕ} {B R : ℝ} {c : FC} (h : Placed p B R c) : ∀ q W, Used c q W → Fit p B R q W :=
  fun q W hu => Moderate.fit (h.here q W hu).2 (h.here q W hu).1

/-- Coordinates found in frame can be searched from. -/
lemma placed_start {p : ℕ} {B R : ℝ} (hB0 : 0 ≤ B) {c c' : FC} (h : Placed p B R c) (hs : c'.Settled) (hcam : c'.cam ≠ none) (hu : Used c c'.c c'.warpC) : Start p B R c' := by
  obtain ⟨h1, h2⟩ := h.here _ _ hu
  refine ⟨hcam, ?_, ?_, ?_⟩
  · intro c2 q hg
    rw [hs.getC] at hg
    simp only [Option.some.injEq, Prod.mk.injEq] at hg
    rw [← hg.2]; exact h1
  · intro q W hq
    obtain ⟨rfl, rfl⟩ := used_settled hs hq
    exact Fit.mono (Moderate.fit h2 h1) (by linarith)
  · intro q0 hq0 q W hq
    obtain ⟨rfl, rfl⟩ := used_setC_valid hs.warp hq
    exact Fit.mono (Moderate.fit h2 hq0) (by linarith)

/-! ### Two images of the same size -/

lemma same_levels {start : ℕ} {pyr pyr' : List Level} (I : Images start pyr) (J : Images start pyr') (h : SameFormat I J) :
    ∀ l, l < I.n → l < J.n → ∃ a b, pyr[l]? = some a ∧ pyr'[l]? = some b ∧ a.center = b.center ∧ a.img.rows = b.img.rows ∧ a.img.cols = b.img.cols := by
  have hcv : cvOff I.cv = cvOff J.cv := by unfold cvOff; rw [h.2.2]
  intro l
  induction l with
  | zero =>
    intro h1 h2
    exact ⟨_, _, pyr_zero I.built h1, pyr_zero J.built h2, rfl, h.1, h.2.1⟩
  | succ l ih =>
    intro h1 h2
    obtain ⟨a, b, ha, hb, e1, e2, e3⟩ := ih (by omega) (by omega)
    obtain ⟨u, v, k1, k2, k3⟩ := pyr_step I.built h1
    obtain ⟨u', v', k1', k2', k3'⟩ := pyr_step J.built h2
    rw [ha, Option.some.injEq] at k1
    rw [hb, Option.some.injEq] at k1'
    subst k1 k1'
    obtain ⟨c1, c2⟩ := nextLevel_center k3
    obtain ⟨c1', c2'⟩ := nextLevel_center k3'
    obtain ⟨v0, hv0, r1, r2⟩ := pyr_size I.built (l + 1) h1
    obtain ⟨v0', hv0', r1', r2'⟩ := pyr_size J.built (l + 1) h2
    rw [k2, Option.some.injEq] at hv0
    rw [k2', Option.some.injEq] at hv0'
    subst hv0 hv0'
    refine ⟨v, v', k2, k2', ?_, by rw [r1, r1', h.1], by rw [r2, r2', h.2.1]⟩
    ext
    · rw [c1, c1', e1, e2, hcv]
    · rw [c2, c2', e1, e3, hcv]

lemma isPatchInFrame_sizes {p : ℕ} {img img' : Img} (hr : img.rows = img'.rows) (hc : img.cols = img'.cols) (c : FC) (wb : Bool) :
    Patch.isPatchInFrame p img c wb = Patch.isPatchInFrame p img' c wb := by
  have : ∀ q W hs, Patch.cornersOk img q W hs = Patch.cornersOk img' q W hs := by
    intro q W hs
    have : Patch.cornerOk img q W hs = Patch.cornerOk img' q W hs := by
      funext yx
      unfold Patch.cornerOk
      rw [hr, hc]
    unfold Patch.cornersOk
    rw [this]
  unfold Patch.isPatchInFrame
  simp only [hr, hc, this]

/-- The in-frame test depends on the size of the image only. -/
lemma inFrame_sizes {env : Env} {pyr pyr' : List Level} (I : Images env.start pyr) (J : Images env.start pyr') (h : SameFormat I J) (c : FC) (wb : Bool) :
    inFrame env pyr c wb = inFrame env pyr' c wb := by
  obtain ⟨a, b, ha, hb, e1, _⟩ := same_levels I J h 0 (by have := I.levels; omega) (by have := J.levels; omega)
  obtain ⟨u, v, hu, hv, f1, f2, f3⟩ := same_levels I J h env.start I.levels J.levels
  have ht : ∀ c, levelTransform env.junk pyr c 0 env.start = levelTransform env.junk pyr' c 0 env.start := by
    intro c
    unfold levelTransform
    simp only [ha, hb, hu, hv, Option.bind_eq_bind, Option.bind_some, e1, f1]
  unfold inFrame MLP.isMultilevelPatchInFrame
  simp only [ht, hu, hv, Option.bind_eq_bind, Option.bind_some, isPatchInFrame_sizes f2 f3]

lemma warpIdentity_fit {p : ℕ} {B R : ℝ} (c : FC) : ∀ q W, Used c.setWarpIdentity q W → Fit p B R q W := by
  rintro q W ⟨c1, c2, h1, h2, rfl⟩
  rw [FC.comWarpC_valid rfl] at h1
  simp only [Option.some.injEq, Prod.mk.injEq, and_true] at h1
  subst h1
  left
  norm_num [FC.setWarpIdentity, M2.distOne, M2.one]

lemma boxPlus_total {c : FC} {cam : CamI} (h : c.cam = some cam) (d : V2) : ∃ s, c.boxPlus d = some s ∧ s.cam = some cam ∧ s.validWarpC = c.validWarpC ∧ s.warpC = c.warpC := by
  obtain ⟨⟨c1, b⟩, hc⟩ := FC.comNor_total h
  have hs := (FC.comNor_spec hc).1
  refine ⟨c1.setNor (c1.nor.boxPlus d) false, by simp [FC.boxPlus, FC.getNor, hc], ?_, ?_, ?_⟩ <;> simp [FC.setNor, hs.cam, hs.validWarpC, hs.warpC, h]

end Rovio.ImgPixel
