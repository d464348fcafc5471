import Verif.Model.ImgNoise
import Verif.Model.ImgEkf
import Verif.Props.ImgInnov
import Verif.Props.ImgPost
import Verif.Lemmas.FeatureCoordinates
import Verif.Props.ImuPrediction
import Verif.Props.Alignment

/-!
# The callbacks and inputs of the assembled filter (C79, C38)

`Props/ImgInnov.lean` is about the measurement equations by themselves.  Here the same is said of the callbacks the assembled filter hands to the
filter update (`Model/ImgFull.lean`), with the scratch memory they share, and of the time that inputs let pass.
-/

namespace Rovio.ImgFull

open Rovio.Img Rovio.Spec Distance

variable {n nCam nPose : ℕ}

/-- The equations of the direct method do not change the bearing. -/
lemma equations_nor {p : ℕ} {cfg : AlignCfg} {junk : FC} {ex : ℕ → Patch} {pyr : List Level} {mp : MLP} {c c' : FC} {l1 l2 : ℕ} {e : EqRes}
    (h : Align.equations p cfg junk ex pyr mp c l1 l2 = some (c', e)) (hv : c.validNor = true) : c'.nor = c.nor ∧ c'.validNor = true := by
  unfold Align.equations at h
  simp only [Option.bind_eq_bind, Option.pure_def] at h
  obtain ⟨⟨c1, b1⟩, h1, h2⟩ := Option.bind_eq_some_iff.mp h
  obtain ⟨-, n1, v1, -⟩ := FC.comC_spec h1
  dsimp only at h2
  have key1 : c1.nor = c.nor ∧ c1.validNor = true := ⟨n1, v1.trans hv⟩
  split_ifs at h2
  · simp only [Option.some.injEq, Prod.mk.injEq] at h2
    rw [← h2.1]; exact key1
  obtain ⟨⟨c2, b2⟩, h3, h4⟩ := Option.bind_eq_some_iff.mp h2
  have key2 : c2.nor = c.nor ∧ c2.validNor = true := by
    obtain ⟨a, b⟩ := (FC.comWarpC_spec h3).1 key1.2
    exact ⟨a.trans key1.1, b⟩
  dsimp only at h4
  split_ifs at h4
  · simp only [Option.some.injEq, Prod.mk.injEq] at h4
    rw [← h4.1]; exact key2
  obtain ⟨⟨c3, W⟩, h5, h6⟩ := Option.bind_eq_some_iff.mp h4
  have key3 : c3.nor = c.nor ∧ c3.validNor = true := by
    obtain ⟨b, hb, -⟩ := FC.getWarpC_spec h5
    obtain ⟨a, b⟩ := (FC.comWarpC_spec hb).1 key2.2
    exact ⟨a.trans key2.1, b⟩
  dsimp only at h6
  obtain ⟨⟨c4, near⟩, h7, h8⟩ := Option.bind_eq_some_iff.mp h6
  have key4 : c4.nor = c.nor ∧ c4.validNor = true := by
    rcases FC.isNear_spec h7 with ⟨-, rfl, -⟩ | ⟨-, b, hb, -⟩
    · exact key3
    · obtain ⟨a, b⟩ := (FC.comWarpC_spec hb).1 key3.2
      exact ⟨a.trans key3.1, b⟩
  dsimp only at h8
  obtain ⟨lvls, -, h9⟩ := Option.bind_eq_some_iff.mp h8
  split_ifs at h9 <;>
  · simp only [Option.some.injEq, Prod.mk.injEq] at h9
    rw [← h9.1]; exact key4

/-- The innovation callback without the direct method. -/
lemma innov_eq (F : Full n nCam nPose) (hd : F.base.direct = false) (m : Mem) (cur : Fin nCam → List Level) (mp : MLP) (meas : FC) (i : Fin n) (counter : ℕ)
    (x : State n nCam nPose) (noise : V2) (r : Scr) (y : V2) (hy : x.imgInnov F.mc F.sfv i counter (F.outOf r.1) meas noise = some y) :
    ∃ r', (F.callbacks m cur mp (some meas) i counter).innov x noise r = some (y, false, r') := by
  unfold State.imgInnov at hy
  simp only [Option.bind_eq_bind, Option.pure_def] at hy
  obtain ⟨⟨b, f⟩, h1, hy1⟩ := Option.bind_eq_some_iff.mp hy
  obtain ⟨⟨m', q⟩, h2, hy2⟩ := Option.bind_eq_some_iff.mp hy1
  obtain ⟨⟨c', c⟩, h3, hy3⟩ := Option.bind_eq_some_iff.mp hy2
  simp only [Option.some.injEq] at hy3
  refine ⟨(c', r.2), ?_⟩
  simp only [Full.callbacks, Full.innov, h1, hd, h2, h3, Option.bind_eq_bind, Option.bind_some, Bool.false_eq_true, if_false, Option.pure_def, hy3]

/-- The Jacobian callback for the candidates. -/
lemma cand_eq (F : Full n nCam nPose) (m : Mem) (cur : Fin nCam → List Level) (mp : MLP) (meas : Option FC) (i : Fin n) (counter : ℕ)
    (x : State n nCam nPose) (r : Scr) (δ : DState n nCam nPose) (y : V2) (hy : x.imgJac F.mc F.sfv i counter (F.outOf r.1) r.2 δ = some y) :
    ∃ H r', (F.callbacks m cur mp meas i counter).cand x r = some (H, r') ∧ H δ = some y := by
  unfold State.imgJac at hy
  simp only [Option.bind_eq_bind, Option.pure_def] at hy
  obtain ⟨⟨b, f⟩, h1, hy1⟩ := Option.bind_eq_some_iff.mp hy
  obtain ⟨J, h2, hy2⟩ := Option.bind_eq_some_iff.mp hy1
  obtain ⟨⟨c', nor⟩, h3, hy3⟩ := Option.bind_eq_some_iff.mp hy2
  simp only [Option.some.injEq] at hy3
  refine ⟨_, _, by simp only [Full.callbacks, Full.cand, h1, h3, Option.bind_eq_bind, Option.bind_some, Option.pure_def]; rfl, ?_⟩
  simp only [h2, Option.map_some, hy3]

/-- C79 for the assembled filter: whatever the scratch memory contains, the Jacobian callbacks of the reprojection error (the one of the update
and the one for the candidates) hand out the derivative of the innovation callback along every state increment. -/
theorem C79_callback_jacobian (F : Full n nCam nPose) (hd : F.base.direct = false) (C : Fin nCam → Camera) (gb : Fin nCam → V2 → Nor)
    (hmc : ∀ b, F.mc.cams b = (C b).toI F.sfv (gb b)) (hs : Spec.SetFromVector F.sfv) (s : State n nCam nPose) (hq : ∀ c, (s.qCM c).IsUnit)
    (i : Fin n) (a : Fin nCam) (h : Usable s i a) (hcam : (s.fea i).c.cam = some (F.mc.cams a))
    (hw : (s.fea i).c.trackWarping = false ∨ (s.fea i).c.validWarpNor = true) (hun : Unclamped (s.fea i).d.type (s.fea i).d.p) (r : Scr) (counter : ℕ)
    (hfar : a ≠ camAfter counter a → 1e-6 < (s.seenFrom i a (camAfter counter a)).norm ∧ InRange F.ty (s.seenFrom i a (camAfter counter a)).norm)
    (hVE : a = camAfter counter a ∨ s.aux.doVE = false)
    (f₀ : Fea) (hf₀ : s.featureOut F.mc F.sfv i (camAfter counter a) (F.outOf r.1) = some f₀) (hfront : 0 < f₀.c.nor.vec.z)
    (hreg : (C (camAfter counter a)).RegularAt ⟨f₀.c.nor.vec.x / f₀.c.nor.vec.z, f₀.c.nor.vec.y / f₀.c.nor.vec.z⟩)
    (meas meas' : FC) (q : V2) (hm : meas.getC = some (meas', q)) (m : Mem) (cur : Fin nCam → List Level) (mp : MLP) (δ : DState n nCam nPose) :
    let K := F.callbacks m cur mp (some meas) i counter
    ∃ (y : ℝ → V2) (H G : DState n nCam nPose → Option V2) (r₁ r₂ : Scr) (v : V2),
      (∀ᶠ t in nhds (0:ℝ), ∃ r', K.innov (s.boxPlus (δ.scale t)) 0 r = some (y t, false, r')) ∧ HasDerivV2 y v 0 ∧
      K.jac s r = some (H, false, r₁) ∧ H δ = some v ∧ K.cand s r = some (G, r₂) ∧ G δ = some v := by
  intro K
  obtain ⟨y, v, h1, h2, h3⟩ := C79_jacobian s F.mc C gb F.sfv hmc hs hq i a h hcam hw hun (F.outOf r.1) counter hfar hVE f₀ hf₀ hfront hreg meas meas' q hm r.2 δ
  obtain ⟨G, r₂, h4, h5⟩ := cand_eq F m cur mp (some meas) i counter s r δ v h2
  have h4' : F.cand i counter s r = some (G, r₂) := h4
  refine ⟨y, G, G, r₂, r₂, v, h1.mono fun t ht => innov_eq F hd m cur mp meas i counter _ 0 r _ ht, h3, ?_, h5, h4, h5⟩
  simp only [K, Full.callbacks, Full.jac, hd, Bool.false_eq_true, if_false, h4', Option.bind_eq_bind, Option.bind_some, Option.pure_def]

/-- C79 for the assembled filter with the direct method: the innovation callback returns the reduced intensity errors `b`, and the Jacobian callback
the matrix `A` of the reduced equations after the Jacobian for the candidates (the derivative of minus the predicted pixel, `C79_callback_jacobian`): the
linear model `b - A p` of the intensity errors, `p` the displacement of the predicted pixel, changes by exactly the row handed out. -/
theorem C79_callback_direct (F : Full n nCam nPose) (hd : F.base.direct = true) (s : State n nCam nPose) (i : Fin n) (a : Fin nCam) (h : Usable s i a)
    (r : Scr) (counter : ℕ) (f₀ : Fea) (hf₀ : s.featureOut F.mc F.sfv i (camAfter counter a) (F.outOf r.1) = some f₀)
    (m : Mem) (cur : Fin nCam → List Level) (mp : MLP) (c' : FC) (e : EqRes) (he : ImgPixel.innovation (F.pix m) (cur (camAfter counter a)) mp f₀.c = some (c', e))
    (A : M2) (b : V2) (hr : F.reduce e = some (A, b)) (meas : Option FC) (noise : V2) :
    let K := F.callbacks m cur mp meas i counter
    ∃ (H G : DState n nCam nPose → Option V2) (r₁ r₂ r₃ : Scr), K.innov s noise r = some (b + noise, false, r₁) ∧ K.jac s r = some (H, false, r₂) ∧
      K.cand s r = some (G, r₃) ∧ r₂.2 = r₃.2 ∧ ∀ δ, H δ = (G δ).map A.mulVec := by
  intro K
  have hv := (featureOut_coords h hf₀).1
  obtain ⟨hn, hv'⟩ := equations_nor he hv
  have e1 := imgFeature_eq (mc := F.mc) (sfv := F.sfv) h counter (F.outOf r.1)
  rw [hf₀, Option.map_some] at e1
  have hg := MultiCamera.getNor_of_valid hv'
  rw [hn] at hg
  set J := State.pixJ r.2 (F.mc.cams (camAfter counter a)) f₀.c.nor with hJ
  refine ⟨fun δ => (s.featureJac F.sfv true i (camAfter counter a) δ).map fun d => (A.neg.mul J).mulVec d.1,
    fun δ => (s.featureJac F.sfv true i (camAfter counter a) δ).map fun d => J.neg.mulVec d.1, (c', r.2), (c', J), (f₀.c, J), ?_, ?_, ?_, rfl, ?_⟩
  · simp only [K, Full.callbacks, Full.innov, hd, if_true, e1, he, hr, Option.bind_eq_bind, Option.bind_some, Option.pure_def]
  · simp only [K, Full.callbacks, Full.jac, hd, if_true, e1, he, hr, hg, Option.bind_eq_bind, Option.bind_some, Option.pure_def, hJ]
  · simp only [K, Full.callbacks, Full.cand, e1, MultiCamera.getNor_of_valid hv, Option.bind_eq_bind, Option.bind_some, Option.pure_def, hJ]
  · intro δ
    simp only [Option.map_map]
    congr 1
    funext d
    simp only [Function.comp]
    ext <;> simp [M2.mul, M2.neg, M2.mulVec] <;> ring

/-- C79 for the assembled filter: if the direct measurement fails, both callbacks cancel the iteration, with zero innovation (without noise) and zero
Jacobian. -/
theorem C79_callback_failure (F : Full n nCam nPose) (hd : F.base.direct = true) (s : State n nCam nPose) (i : Fin n) (a : Fin nCam) (h : Usable s i a)
    (r : Scr) (counter : ℕ) (f₀ : Fea) (hf₀ : s.featureOut F.mc F.sfv i (camAfter counter a) (F.outOf r.1) = some f₀)
    (m : Mem) (cur : Fin nCam → List Level) (mp : MLP) (c' : FC) (e : EqRes) (he : ImgPixel.innovation (F.pix m) (cur (camAfter counter a)) mp f₀.c = some (c', e))
    (hr : F.reduce e = none) (meas : Option FC) :
    let K := F.callbacks m cur mp meas i counter
    ∃ (H : DState n nCam nPose → Option V2) (r₁ r₂ : Scr), K.innov s 0 r = some (0, true, r₁) ∧ K.jac s r = some (H, true, r₂) ∧ ∀ δ, H δ = some 0 := by
  intro K
  have e1 := imgFeature_eq (mc := F.mc) (sfv := F.sfv) h counter (F.outOf r.1)
  rw [hf₀, Option.map_some] at e1
  refine ⟨fun _ => some 0, (c', r.2), (c', r.2), ?_, ?_, fun _ => rfl⟩
  · simp only [K, Full.callbacks, Full.innov, hd, if_true, e1, he, hr, Option.bind_eq_bind, Option.bind_some, Option.pure_def]
  · simp only [K, Full.callbacks, Full.jac, hd, if_true, e1, he, hr, Option.bind_eq_bind, Option.bind_some, Option.pure_def]

/-! ### Concrete cases -/

/-- The hypotheses of `C79_callback_jacobian` are met: the second camera, a distorted pinhole, tracks a feature of the first. -/
example (G : Full 1 2 1) (sfv : V3 → Nor) (hs : Spec.SetFromVector sfv) (δ : DState 1 2 1) (meas : FC) (hm : meas.validC = true) (r : Scr) (m : Mem)
    (cur : Fin 2 → List Level) (mp : MLP) :
    ∃ F : Full 1 2 1, F.base.direct = false ∧ F.mc = demoCams sfv ∧
      let K := F.callbacks m cur mp (some meas) 0 1
      ∃ (y : ℝ → V2) (H : DState 1 2 1 → Option V2) (r₁ : Scr) (v : V2),
        (∀ᶠ t in nhds (0:ℝ), ∃ r', K.innov ((demoState3 sfv).boxPlus (δ.scale t)) 0 r = some (y t, false, r')) ∧ HasDerivV2 y v 0 ∧
        K.jac (demoState3 sfv) r = some (H, false, r₁) ∧ H δ = some v := by
  refine ⟨{ G with base := { G.base with direct := false }, mc := demoCams sfv, sfv := sfv, ty := .inverse }, rfl, rfl, ?_⟩
  have hU : Usable (demoState3 sfv) 0 0 := ⟨rfl, rfl, Quat.isUnit_one⟩
  have hq : ∀ c, ((demoState3 sfv).qCM c).IsUnit := fun c => Quat.isUnit_one
  have hact : camAfter 1 (0 : Fin 2) = 1 := rfl
  have hnn : (2:ℝ) ≤ ((demoState3 sfv).seenFrom 0 0 1).norm ∧ ((demoState3 sfv).seenFrom 0 0 1).norm ≤ 3 := by
    rw [demoState3_seen]
    simp only [V3.norm, V3.normSq]
    constructor
    · apply Real.le_sqrt_of_sq_le; norm_num
    · rw [Real.sqrt_le_left (by norm_num)]; norm_num
  have hfar : 1e-6 < ((demoState3 sfv).seenFrom 0 0 1).norm := lt_of_lt_of_le (by norm_num) hnn.1
  obtain ⟨f₀, hf₀, -⟩ := featureOut_some (mc := demoCams sfv) (sfv := sfv) (out := ⟨r.1, ⟨.inverse, 0⟩⟩)
    (d' := ⟨.inverse, 1 / makeNonZero ((demoState3 sfv).seenFrom 0 0 1).norm⟩) (b := 1) hU (hq 0) (fun _ => rfl) (.inr rfl)
  have hvec : f₀.c.nor.vec = (1 / ((demoState3 sfv).seenFrom 0 0 1).norm) • (⟨-0.5, 0, 2⟩ : V3) := by
    rw [(featureOut_other hU (by decide) hq hf₀).2.2.1, hs.vec _ hfar, V3.normalized, demoState3_seen]
  have hpos : 0 < 1 / ((demoState3 sfv).seenFrom 0 0 1).norm := one_div_pos.mpr (lt_trans (by norm_num) hfar)
  obtain ⟨y, H, G', r₁, r₂, v, h1, h2, h3, h4, -⟩ := C79_callback_jacobian
    { G with base := { G.base with direct := false }, mc := demoCams sfv, sfv := sfv, ty := .inverse } rfl (fun _ => demoCam) (fun _ _ => ⟨Quat.one⟩) (fun _ => rfl) hs
    (demoState3 sfv) hq 0 0 hU rfl (.inr rfl) (by norm_num [demoState3, Unclamped, abs_of_pos]) r 1
    (fun _ => ⟨hfar, by
      show 1e-6 < |_| ∧ |_| < 1e6
      rw [hact, abs_of_pos (lt_trans (by norm_num) hfar)]
      exact ⟨hfar, lt_of_le_of_lt hnn.2 (by norm_num)⟩⟩) (.inr rfl) f₀ hf₀
    (by rw [hvec]; show 0 < _ * (2:ℝ); exact mul_pos hpos (by norm_num)) trivial meas meas meas.c (by simp [FC.getC, FC.comC, hm]) m cur mp δ
  exact ⟨y, H, r₁, v, h1, h2, h3, h4⟩

/-- Coordinates with a known pixel and no deformation. -/
noncomputable def demoPlain (cam : CamI) : FC :=
  { demoCoord (some cam) 0 with trackWarping := false, c := ⟨3, 2⟩, validC := true, validWarpC := true, isWarpIdentity := true }

/-- The hypotheses of `C79_callback_direct` and `C79_callback_failure` are met: a feature seen in its own camera, on the sample image. -/
example (G : Full 1 2 1) (sfv : V3 → Nor) (r : Scr) (m : Mem) (mp : MLP) : ∃ (F : Full 1 2 1) (s : State 1 2 1) (f₀ : Fea) (e : EqRes), F.base.direct = true ∧ Usable s 0 0 ∧
    s.featureOut F.mc F.sfv 0 (camAfter 0 0) (F.outOf r.1) = some f₀ ∧
    ImgPixel.innovation (F.pix m) demoPyr mp f₀.c = some (f₀.c, e) ∧ F.reduce e = some (M2.one, ⟨1, 2⟩) := by
  let cam := demoCam.toI sfv (fun _ => ⟨Quat.one⟩)
  refine ⟨{ G with base := { G.base with direct := true, p := 2, start := 0, stop := 0 }, mc := demoCams sfv, sfv := sfv, reduce := fun _ => some (M2.one, ⟨1, 2⟩) },
    { demoState3 sfv with fea := fun _ => ⟨demoPlain cam, ⟨.inverse, 0.5⟩⟩ }, ⟨demoPlain cam, ⟨.inverse, 0.5⟩⟩, ?_⟩
  obtain ⟨res, hres⟩ := C67_equations_defined_unwarped (p := 2) (cfg := G.base.acfg) (junk := m.junk) (ex := m.ex) (pyr := demoPyr) (mp := mp) (c := demoPlain cam) (l1 := 0)
    (l2 := 0) (by norm_num) rfl rfl (by decide) (by intro l hl; simp [demoPyr] at hl; subst hl; norm_num)
    (Or.inr (by norm_num [demoPlain, demoCoord, M2.distOne, M2.one]))
  exact ⟨res, rfl, ⟨rfl, rfl, Quat.isUnit_one⟩, rfl, hres, rfl⟩

/-- C87: the noise of a measurement enters the innovation, of either method, as the Jacobian of the noise says, and changes nothing else. -/
theorem C87_noise_enters (F : Full n nCam nPose) (m : Mem) (cur : Fin nCam → List Level) (mp : MLP) (meas : Option FC) (i : Fin n) (counter : ℕ) (x : State n nCam nPose) (ν : V2) (r : Scr) :
    F.innov m cur mp meas i counter x ν r = (F.innov m cur mp meas i counter x 0 r).map fun o => (o.1 + ImgNoise.jacNoise.mulVec ν, o.2) := by
  have h0 : ∀ v : V2, v + 0 = v := fun v => by ext <;> simp
  have hG : ImgNoise.jacNoise.mulVec ν = ν := by ext <;> simp [ImgNoise.jacNoise, M2.mulVec, M2.one]
  have hz : ∀ v : V2, 0 + v = v := fun v => by ext <;> simp
  unfold Full.innov
  simp only [Option.bind_eq_bind, Option.pure_def, hG]
  cases x.imgFeature F.mc F.sfv i counter (F.outOf r.1) with
  | none => rfl
  | some bf =>
    simp only [Option.bind_some]
    split
    · cases ImgPixel.innovation (F.pix m) (cur bf.1) mp bf.2.c with
      | none => rfl
      | some ce =>
        simp only [Option.bind_some]
        split <;> simp [h0, hz]
    · cases meas with
      | none => rfl
      | some z =>
        simp only [Option.bind_some]
        cases z.getC with
        | none => rfl
        | some q =>
          simp only [Option.bind_some]
          cases bf.2.c.getC with
          | none => rfl
          | some v => simp [h0]

/-! ### Time -/

/-- Specification: the time an input lets pass: IMU measurements carry it, velocities are taken at the time of the filter. -/
def elapsed : Input n nCam nPose → ℝ
  | .imu _ dt => dt
  | _ => 0

/-- Specification: inputs that are neither images nor resets. -/
def Quiet : Input n nCam nPose → Prop
  | .imu _ _ => True
  | .velocity _ => True
  | _ => False

/-- C38 for the assembled filter: between two images the clock of the filter and the time without image motion advance by the time of the IMU
measurements and by nothing else, and the time without inertial motion is the IMU time since the last detection; only IMU measurements can report
one. -/
theorem C38_inputs (I : USet) (order : Finset (Fin n) → List (Fin n)) (cfg : Cfg) (F : Full n nCam nPose) (fcfg : FCfg n nCam nPose) (gate : Gate 2)
    (R : Matrix (Fin 2) (Fin 2) ℝ) (u : PoseUpd nPose) (mem : FSt n nCam nPose → Mem) (mem' : ℝ → Slot MLP → Mem) (fuel : ℕ) :
    ∀ (es : List (Input n nCam nPose)) (s r : FSt n nCam nPose), (∀ e ∈ es, Quiet e) → life I order cfg F fcfg gate R u mem mem' fuel es s = some r →
      r.t = s.t + (es.map elapsed).sum ∧ r.sinceImage = s.sinceImage + (es.map elapsed).sum ∧
      ∃ fired : List Bool, fired.length = es.length ∧ (∀ (k : ℕ) v, es[k]? = some (.velocity v) → fired[k]? = some false) ∧
        r.sinceInertial = Img.Spec.since s.sinceInertial ((es.map elapsed).zip fired)
  | [], s, r, _, h => by
    obtain rfl : s = r := by simpa [life, run] using h
    exact ⟨by simp, by simp, [], rfl, by simp, rfl⟩
  | e :: es, s, r, hq, h => by
    unfold life run at h
    rw [List.map_cons, List.foldlM_cons] at h
    obtain ⟨s1, h1, h2⟩ := Option.bind_eq_some_iff.mp h
    obtain ⟨a, b, fired, c, d, f⟩ := C38_inputs I order cfg F fcfg gate R u mem mem' fuel es s1 r (fun e he => hq e (by simp [he])) h2
    have key : ∀ (g : State n nCam nPose → Cov n nCam nPose → State n nCam nPose × Cov n nCam nPose) (dt : ℝ) (mo : State n nCam nPose → Bool),
        Input.happening fcfg u e = .filter g dt mo → elapsed e = dt → (∀ v, e = .velocity v → mo (here s) = false) →
        r.t = s.t + ((e :: es).map elapsed).sum ∧ r.sinceImage = s.sinceImage + ((e :: es).map elapsed).sum ∧
        ∃ fired : List Bool, fired.length = (e :: es).length ∧ (∀ (k : ℕ) v, (e :: es)[k]? = some (.velocity v) → fired[k]? = some false) ∧
          r.sinceInertial = Img.Spec.since s.sinceInertial (((e :: es).map elapsed).zip fired) := by
      intro g dt mo he hdt hmo
      rw [he] at h1
      simp only [step, Option.some.injEq] at h1
      have t1 : s1.t = s.t + dt := by rw [← h1]; rfl
      have t2 : s1.sinceImage = s.sinceImage + dt := by rw [← h1]; rfl
      have t3 : s1.sinceInertial = if mo (here s) then 0 else s.sinceInertial + dt := by rw [← h1]; rfl
      refine ⟨?_, ?_, mo (here s) :: fired, by simp [c], ?_, ?_⟩
      · rw [a, t1, List.map_cons, List.sum_cons, hdt]; ring
      · rw [b, t2, List.map_cons, List.sum_cons, hdt]; ring
      · intro k v hk
        cases k with
        | zero =>
          simp only [List.getElem?_cons_zero, Option.some.injEq] at hk ⊢
          exact hmo v hk
        | succ k => simpa using d k v (by simpa using hk)
      · rw [f, t3, List.map_cons, List.zip_cons_cons, hdt]
        rfl
    have hqe := hq e (by simp)
    cases e with
    | imu m dt => exact key _ _ _ rfl rfl (by simp)
    | velocity v => exact key _ _ _ rfl rfl (by simp)
    | image t => exact hqe.elim
    | reset i t => exact hqe.elim

/-- C38 for the assembled filter: what an IMU measurement does to the time without inertial motion: it starts again if the measured rate less the bias
exceeds its threshold or the acceleration less bias and gravity (with the attitude turned by the measured rate) exceeds its own, and otherwise grows by the
time step. -/
theorem C38_imu (I : USet) (order : Finset (Fin n) → List (Fin n)) (cfg : Cfg) (F : Full n nCam nPose) (fcfg : FCfg n nCam nPose) (gate : Gate 2)
    (R : Matrix (Fin 2) (Fin 2) ℝ) (u : PoseUpd nPose) (mem : FSt n nCam nPose → Mem) (mem' : ℝ → Slot MLP → Mem) (fuel : ℕ) (m : ImuMeas) (dt : ℝ)
    (hdt : 0 < dt) (s : FSt n nCam nPose) (hr : Ready (here s)) (hun : UnitState (here s)) :
    ∃ r, life I order cfg F fcfg gate R u mem mem' fuel [.imu m dt] s = some r ∧
      r.sinceInertial = open Classical in if fcfg.pred.rorTh < (m.gyr - s.w.x.gyb).norm ∨
        fcfg.pred.accTh < (m.acc - s.w.x.acb + (s.w.x.att * Quat.exp (dt • (m.gyr - s.w.x.gyb))).inv.rotate gravity).norm then 0 else s.sinceInertial + dt := by
  obtain ⟨y, hy, hf⟩ := evalPrediction_facts hr hun fcfg.pred m (here s) (DState.ofFn 0) hdt
  have z0 : ∀ (k : ℝ) (v : V3), v + k • (⟨0, 0, 0⟩ : V3) = v := by
    intro k v
    ext <;> simp
  refine ⟨_, rfl, ?_⟩
  have e1 : y.gyb = s.w.x.gyb := by rw [hf.gyb]; exact z0 _ _
  have e2 : y.acb = s.w.x.acb := by rw [hf.acb]; exact z0 _ _
  have e3 : y.att = s.w.x.att * Quat.exp (dt • (m.gyr - s.w.x.gyb)) := by
    rw [hf.att]
    have : m.gyr - (here s).gyb + (1 / Real.sqrt dt) • (DState.ofFn 0 : DState n nCam nPose).att = m.gyr - s.w.x.gyb := z0 _ _
    rw [this]; rfl
  show (if ((State.evalPrediction fcfg.pred m true (here s) (here s) (DState.ofFn 0) dt).getD (here s)).detectInertialMotion fcfg.pred m then (0 : ℝ) else s.sinceInertial + dt) = _
  rw [hy, Option.getD_some]
  simp only [State.detectInertialMotion, e1, e2, e3, Bool.or_eq_true, decide_eq_true_eq, gt_iff_lt]

/-- The hypotheses of `C38_inputs` are met: 20 ms of IMU measurements and a velocity in between; the clock advances by 20 ms. -/
example (I : USet) (order : Finset (Fin n) → List (Fin n)) (cfg : Cfg) (F : Full n nCam nPose) (fcfg : FCfg n nCam nPose) (gate : Gate 2)
    (R : Matrix (Fin 2) (Fin 2) ℝ) (u : PoseUpd nPose) (mem : FSt n nCam nPose → Mem) (mem' : ℝ → Slot MLP → Mem) (fuel : ℕ) (m : ImuMeas) (v : V3)
    (s : FSt n nCam nPose) : ∃ r, life I order cfg F fcfg gate R u mem mem' fuel [.imu m 0.01, .velocity v, .imu m 0.01] s = some r ∧ r.t = s.t + 0.02 := by
  refine ⟨_, rfl, ?_⟩
  rw [(C38_inputs I order cfg F fcfg gate R u mem mem' fuel [.imu m 0.01, .velocity v, .imu m 0.01] s _ (by simp [Quiet]) rfl).1]
  simp only [List.map_cons, List.map_nil, elapsed, List.sum_cons, List.sum_nil]
  norm_num

/-- The hypotheses of `C38_imu` are met: a platform turning at 1 rad/s with a threshold of a tenth: the timer starts again. -/
example (I : USet) (order : Finset (Fin 1) → List (Fin 1)) (cfg : Cfg) (F : Full 1 2 1) (fcfg : FCfg 1 2 1) (hth : fcfg.pred.rorTh = 0.1) (gate : Gate 2)
    (R : Matrix (Fin 2) (Fin 2) ℝ) (u : PoseUpd 1) (mem : FSt 1 2 1 → Mem) (mem' : ℝ → Slot MLP → Mem) (fuel : ℕ) (s₀ : FSt 1 2 1) :
    ∃ s r : FSt 1 2 1, life I order cfg F fcfg gate R u mem mem' fuel [.imu ⟨⟨0, 0, 9.81⟩, ⟨1, 0, 0⟩⟩ 0.01] s = some r ∧ r.sinceInertial = 0 := by
  let s : FSt 1 2 1 := { s₀ with
    w := { s₀.w with x := demoState false 0 }
    fsm := { s₀.fsm with slots := fun j => { s₀.fsm.slots j with coord := demoCoord none (-1) } } }
  have hu : (⟨0.6, 0, 0.8, 0⟩ : Quat).IsUnit := by norm_num [Quat.IsUnit, Quat.normSq]
  obtain ⟨r, h1, h2⟩ := C38_imu I order cfg F fcfg gate R u mem mem' fuel ⟨⟨0, 0, 9.81⟩, ⟨1, 0, 0⟩⟩ 0.01 (by norm_num) s
    ⟨fun i => rfl, fun i a ha => by simp [here, known, FC.comNor, s, demoCoord, camIdx] at ha⟩
    ⟨hu, fun c => by show (if c = 0 then Quat.one else _ : Quat).IsUnit; split_ifs <;> [exact Quat.isUnit_one; exact hu],
      fun c => by show (if c = 0 then Quat.one else _ : Quat).IsUnit; split_ifs <;> [exact Quat.isUnit_one; exact hu], fun _ => Quat.isUnit_one, fun _ => Quat.isUnit_one⟩
  refine ⟨s, r, h1, ?_⟩
  rw [h2, if_pos]
  left
  rw [hth]
  have : ((⟨1, 0, 0⟩ : V3) - s.w.x.gyb).norm = 1 := by
    show ((⟨1, 0, 0⟩ : V3) - 0).norm = 1
    simp [V3.norm, V3.normSq]
  rw [this]; norm_num

end Rovio.ImgFull
