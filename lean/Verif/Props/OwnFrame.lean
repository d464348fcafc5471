import Verif.Props.Predicted
import Verif.Lemmas.ImgPixel

/-!
# C70: the image in which a feature is tested

The in-frame tests before and after an update use the image of the camera in which the feature lives, not of the camera in which it is measured
(include/rovio/ImgUpdate.hpp:692, 827).
-/

namespace Rovio.ImgFull

open Rovio.Img Rovio.Spec Distance

variable {n nCam nPose : ℕ}

/-- If the images of all cameras have the same size, a feature is handed to the filter in a camera only if its patch, predicted in that camera, is inside the previous image of that
camera, and it counts as tracked only if the patch at the estimate is inside the new image of that camera. -/
theorem C70_own_frame (F : Full n nCam nPose) (mem : FSt n nCam nPose → Mem) (mem' : ℝ → Slot MLP → Mem) (s : FSt n nCam nPose) (i : Fin n) (c : Fin nCam)
    (I : ∀ a, Images F.base.start (s.w.prev a)) (J : ∀ a, Images F.base.start (F.imgs s.t a)) (hI : ∀ a b, SameFormat (I a) (I b)) (hJ : ∀ a b, SameFormat (J a) (J b)) :
    (((F.env mem mem').inPrev s i c = true ↔ (camIdx nCam (s.camID i)).isSome ∧ ∃ f f', (here s).featureOut F.mc F.sfv i c (F.outOf (mem s).out) = some f ∧
        MLP.isMultilevelPatchInFrame F.base.p (mem s).junk (s.w.prev c) f.c F.base.start false = some (f', true))) ∧
    ((F.env mem mem').inPost s i c = true ↔ (camIdx nCam (s.camID i)).isSome ∧ ∃ f f', (here s).featureOut F.mc F.sfv i c (F.outOf (mem s).out) = some f ∧
        MLP.isMultilevelPatchInFrame F.base.p (mem s).junk (F.imgs s.t c) f.c F.base.start false = some (f', true)) := by
  have h1 : ∀ a f, ImgPixel.inFrame (F.pix (mem s)) (s.w.prev a) f false = ImgPixel.inFrame (F.pix (mem s)) (s.w.prev c) f false := fun a f =>
    ImgPixel.inFrame_sizes (env := F.pix (mem s)) (I a) (I c) (hI a c) f false
  have h2 : ∀ a f, ImgPixel.inFrame (F.pix (mem s)) (F.imgs s.t a) f false = ImgPixel.inFrame (F.pix (mem s)) (F.imgs s.t c) f false := fun a f =>
    ImgPixel.inFrame_sizes (env := F.pix (mem s)) (J a) (J c) (hJ a c) f false
  constructor
  · show ((F.tested (mem s) s i c).map Prod.snd).getD false = true ↔ _
    unfold Full.tested
    cases ha : camIdx nCam (s.camID i) with
    | none => simp
    | some a =>
      cases hf : (here s).featureOut F.mc F.sfv i c (F.outOf (mem s).out) with
      | none => simp
      | some f =>
        simp only [Option.bind_eq_bind, Option.bind_some, h1, Option.isSome_some, true_and, Option.some.injEq, exists_and_left, exists_eq_left']
        show _ ↔ ∃ f', ImgPixel.inFrame (F.pix (mem s)) (s.w.prev c) f.c false = some (f', true)
        cases hr : ImgPixel.inFrame (F.pix (mem s)) (s.w.prev c) f.c false with
        | none => simp
        | some v => obtain ⟨v1, v2⟩ := v; simp
  · show (F.inPost (mem s) s i c).getD false = true ↔ _
    unfold Full.inPost ImgPixel.verdict
    cases ha : camIdx nCam (s.camID i) with
    | none => simp
    | some a =>
      cases hf : (here s).featureOut F.mc F.sfv i c (F.outOf (mem s).out) with
      | none => simp
      | some f =>
        simp only [Option.bind_eq_bind, Option.bind_some, h2, Option.isSome_some, true_and, Option.some.injEq, exists_and_left, exists_eq_left']
        show _ ↔ ∃ f', ImgPixel.inFrame (F.pix (mem s)) (F.imgs s.t c) f.c false = some (f', true)
        cases hr : ImgPixel.inFrame (F.pix (mem s)) (F.imgs s.t c) f.c false with
        | none => simp
        | some v => obtain ⟨v1, v2⟩ := v; simp

/-- Two cameras whose images have 48 × 64 pixels and four levels meet the hypotheses of `C70_own_frame`. -/
example (F₀ : Full n 2 nPose) (s₀ : FSt n 2 nPose) (px qx : Fin 2 → ℕ → ℕ → ℕ) : ∃ (F : Full n 2 nPose) (s : FSt n 2 nPose) (I : ∀ a, Images F.base.start (s.w.prev a))
    (J : ∀ a, Images F.base.start (F.imgs s.t a)), (∀ a b, SameFormat (I a) (I b)) ∧ (∀ a b, SameFormat (J a) (J b)) ∧ ∀ a, (I a).img = ⟨48, 64, px a⟩ ∧ (J a).img = ⟨48, 64, qx a⟩ := by
  choose P hP using fun a : Fin 2 => levelsFrom_total none 4 1 ⟨⟨48, 64, px a⟩, 0⟩
  choose Q hQ using fun a : Fin 2 => levelsFrom_total none 4 1 ⟨⟨48, 64, qx a⟩, 0⟩
  refine ⟨{ F₀ with base := { F₀.base with start := 2 }, imgs := fun _ => Q }, { s₀ with w := { s₀.w with prev := P } },
    fun a => ⟨4, ⟨48, 64, px a⟩, none, hP a, by norm_num, by norm_num, by norm_num, .inl rfl⟩,
    fun a => ⟨4, ⟨48, 64, qx a⟩, none, hQ a, by norm_num, by norm_num, by norm_num, .inl rfl⟩, fun a b => ⟨rfl, rfl, rfl⟩, fun a b => ⟨rfl, rfl, rfl⟩, fun a => ⟨rfl, rfl⟩⟩

/-- C70, finding: with images of different sizes the tests are about the wrong image.  Two cameras with the same mounting and a feature on the optical axis of the first: in the second
its pixel `(50, 40)` is outside the image of 24 × 32 pixels, but since it is inside an image of 48 × 64 pixels, the size of the first camera's images, the feature is taken to be in the
frame of the second. -/
theorem C70_finding_image_size (F₀ : Full n 2 nPose) (sfv : V3 → Nor) (hsfv : SetFromVector sfv) (garbage : V2 → Nor) (mem : FSt n 2 nPose → Mem) (mem' : ℝ → Slot MLP → Mem)
    (s₀ : FSt n 2 nPose) (i : Fin n) (px px' : ℕ → ℕ → ℕ) :
    ∃ (F : Full n 2 nPose) (s : FSt n 2 nPose) (f : Fea) (g : FC), (F.mc.cams = fun _ => Camera.toI { Camera.default' with fx := 400, fy := 400, cx := 50, cy := 40 } sfv garbage) ∧
      computeFromImage 1 ⟨48, 64, px⟩ none = some (s.w.prev 0) ∧ computeFromImage 1 ⟨24, 32, px'⟩ none = some (s.w.prev 1) ∧ s.camID i = 0 ∧
      (here s).featureOut F.mc F.sfv i 1 (F.outOf (mem s).out) = some f ∧ (∃ c, f.c.getC = some (c, ⟨50, 40⟩)) ∧
      (F.env mem mem').inPrev s i 1 = true ∧
      MLP.isMultilevelPatchInFrame F.base.p (mem s).junk (s.w.prev 1) f.c F.base.start false = some (g, false) := by
  obtain ⟨p0, hp0⟩ := levelsFrom_total none 1 1 ⟨⟨48, 64, px⟩, 0⟩
  obtain ⟨p1, hp1⟩ := levelsFrom_total none 1 1 ⟨⟨24, 32, px'⟩, 0⟩
  have z0 := pyr_zero (cv := none) hp0 (by norm_num)
  have z1 := pyr_zero (cv := none) hp1 (by norm_num)
  set cam : CamI := Camera.toI { Camera.default' with fx := 400, fy := 400, cx := 50, cy := 40 } sfv garbage with hcam
  set c₀ : FC := { (s₀.fsm.slots i).coord with nor := ⟨Quat.one⟩, validNor := true, validC := false, camID := 0, cam := some cam, warpC := M2.one, validWarpC := true, isWarpIdentity := true, trackWarping := false } with hc₀
  set F : Full n 2 nPose := { F₀ with base := { F₀.base with p := 4, start := 0 }, mc := ⟨fun _ => 0, fun _ => Quat.one, fun _ => cam⟩, sfv := sfv, ty := .regular } with hF
  set s : FSt n 2 nPose := { s₀ with
    fsm := { s₀.fsm with slots := fun j => { s₀.fsm.slots j with coord := c₀ } }
    w := { s₀.w with prev := ![p0, p1], x := { s₀.w.x with fea := fun _ => ⟨c₀, ⟨.regular, 1⟩⟩, aux := { s₀.w.x.aux with doVE := false, qCM := fun _ => Quat.one, MrMC := fun _ => 0 } } } } with hs
  have hvec : (⟨Quat.one⟩ : Nor).vec = ⟨0, 0, 1⟩ := by simp [Nor.vec, V3.ez]
  set o : FC := { (mem s).out with nor := sfv ⟨0, 0, 1⟩, validC := false, validNor := true, camID := 1, cam := some cam, trackWarping := false, warpC := M2.one, validWarpC := true, warpNor := c₀.warpNor, validWarpNor := c₀.validWarpNor, isWarpIdentity := true } with ho
  have hinv : Quat.one.inv = Quat.one := by ext <;> simp [Quat.inv, Quat.one]
  have hmoved : ((here s).updateMultiCamera F.mc).moved 0 1 ((1 : ℝ) • (⟨Quat.one⟩ : Nor).vec) = ⟨0, 0, 1⟩ := by
    simp [State.updateMultiCamera, here, MultiCamera.moved, State.qCM, State.MrMC, hs, hF, hvec, hinv]
    ext <;> simp
  have hout : (here s).featureOut F.mc F.sfv i 1 (F.outOf (mem s).out) = some ⟨o, ⟨.regular, (⟨0, 0, 1⟩ : V3).norm⟩⟩ := by
    have hfea : ((here s).fea i) = ⟨c₀, ⟨.regular, 1⟩⟩ := rfl
    unfold State.featureOut MultiCamera.transformFeature
    have hid : c₀.camID ≠ ((1 : Fin 2).val : ℤ) := by simp [hc₀]
    have hix : camIdx 2 c₀.camID = some 0 := by simp [hc₀, camIdx]
    have hnor : c₀.getNor = some (c₀, ⟨Quat.one⟩) := by simp [FC.getNor, FC.comNor, hc₀]
    have ht : c₀.trackWarping = false := rfl
    have hd : getDistance (⟨.regular, 1⟩ : FeatureDistance) = 1 := rfl
    simp only [hfea, if_pos hid, hix, hnor, Option.bind_eq_bind, Option.bind_some, Option.pure_def, hd, hmoved, ht, Bool.false_eq_true, if_false, setParameter, Full.outOf]
    rfl
  have hb : cam.b2p (sfv ⟨0, 0, 1⟩) = some ⟨50, 40⟩ := by
    have hn : (⟨0, 0, 1⟩ : V3).norm = 1 := by simp [V3.norm, V3.normSq]
    have hv : (sfv ⟨0, 0, 1⟩).vec = ⟨0, 0, 1⟩ := by
      rw [hsfv.vec _ (by rw [hn]; norm_num), V3.normalized, hn]
      ext <;> simp
    simp [hcam, Camera.toI, Camera.bearingToPixelN, hv, Camera.bearingToPixel, Camera.default', Camera.distort, Camera.distortRadtan]
  have hfront : o.isInFront = true := by
    have hn : (⟨0, 0, 1⟩ : V3).norm = 1 := by simp [V3.norm, V3.normSq]
    have hv : (sfv ⟨0, 0, 1⟩).vec = ⟨0, 0, 1⟩ := by
      rw [hsfv.vec _ (by rw [hn]; norm_num), V3.normalized, hn]
      ext <;> simp
    simp [ho, FC.isInFront, hv]
  set o' : FC := { o with c := ⟨50, 40⟩, validC := true } with ho'
  have hgetC : o.getC = some (o', ⟨50, 40⟩) := by simp [FC.getC, FC.comC, ho, hb, ho']
  have hplain : o'.Plain := ⟨rfl, rfl, rfl⟩
  have hin : ∀ (pyr : List Level) (lv : Level), pyr[0]? = some lv → MLP.isMultilevelPatchInFrame 4 (mem s).junk pyr o 0 false =
      MLP.isMultilevelPatchInFrame 4 (mem s).junk pyr o' 0 false := by
    intro pyr lv hl
    have e1 : o.comWarpC = some (o, true) := FC.comWarpC_valid rfl
    have e2 : o'.comWarpC = some (o', true) := FC.comWarpC_valid rfl
    have e3 : o'.getC = some (o', ⟨50, 40⟩) := rfl
    have e4 : o'.isInFront = true := rfl
    unfold MLP.isMultilevelPatchInFrame levelTransform
    simp only [hfront, e4, e1, e2, hl, hgetC, e3, Bool.not_true, Bool.false_eq_true, if_false, Option.bind_eq_bind, Option.bind_some]
  have hyes : MLP.isMultilevelPatchInFrame 4 (mem s).junk p0 o 0 false = some (o', true) := by
    rw [hin p0 _ z0, inFrame_plain z0 z0 hplain false]
    simp only [levelPixel_self]
    norm_num [ho', Patch.PlainIn, halfPatch, levelPixel]
  have hno : MLP.isMultilevelPatchInFrame 4 (mem s).junk p1 o 0 false = some (o', false) := by
    rw [hin p1 _ z1, inFrame_plain z1 z1 hplain false]
    simp only [levelPixel_self]
    norm_num [ho', Patch.PlainIn, halfPatch, levelPixel]
  refine ⟨F, s, _, o', rfl, hp0, hp1, rfl, hout, ⟨o', hgetC⟩, ?_, hno⟩
  show ((F.tested (mem s) s i 1).map Prod.snd).getD false = true
  have hix : camIdx 2 (s.camID i) = some 0 := by simp [hs, St.camID, hc₀, camIdx]
  have hy : ImgPixel.inFrame (F.pix (mem s)) (s.w.prev 0) o false = some (o', true) := hyes
  unfold Full.tested
  simp only [hix, hout, Option.bind_eq_bind, Option.bind_some, hy, Option.map_some, Option.getD_some]

end Rovio.ImgFull
