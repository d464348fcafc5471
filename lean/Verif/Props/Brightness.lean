import Verif.Lemmas.Brightness
import Verif.Props.ImgFull
import Verif.Props.PatchScore
import Verif.Props.Pyramid

/-!
# Property C99: the brightness of the images has no influence on the estimate

With the intensity offset enabled, every image may have its own brightness (exposure) offset: grey values all `β` higher or lower, with another `β` for every image
of every camera.  The filter does exactly the same, from pixels to estimate and covariance.
-/

namespace Rovio.ImgFull

open Rovio.Spec Rovio.Img

variable {n nCam nPose : ℕ}

/-- Patches that agree in what was written to them, and brighter ones. -/
lemma brightPatch_trans {p : ℕ} {β : ℝ} {a b c d : Patch} (h1 : SamePatch p a b) (h2 : BrightPatch p β b c) (h3 : SamePatch p c d) : BrightPatch p β a d := by
  have v : a.validGradient = true → b.validGradient = true ∧ c.validGradient = true := fun h =>
    ⟨h1.validGradient ▸ h, h2.validGradient ▸ h1.validGradient ▸ h⟩
  exact ⟨fun k hk => by rw [← h3.patch k hk, h2.patch k hk, h1.patch k hk], fun k hk => by rw [← h3.border k hk, h2.border k hk, h1.border k hk],
    by rw [h1.validGradient, h2.validGradient, h3.validGradient],
    fun h k hk => by rw [h1.dx h k hk, h2.dx (v h).1 k hk, h3.dx (v h).2 k hk], fun h k hk => by rw [h1.dy h k hk, h2.dy (v h).1 k hk, h3.dy (v h).2 k hk],
    fun h => by rw [h1.H h, h2.H (v h).1, h3.H (v h).2], fun h => by rw [h1.s h, h2.s (v h).1, h3.s (v h).2],
    fun h => by rw [h1.e0 h, h2.e0 (v h).1, h3.e0 (v h).2], fun h => by rw [h1.e1 h, h2.e1 (v h).1, h3.e1 (v h).2]⟩

lemma brightMLP_trans {p l : ℕ} {β : ℝ} {a b c d : MLP} (h1 : SameMLP p l a b) (h2 : BrightMLP p l β b c) (h3 : SameMLP p l c d) : BrightMLP p l β a d :=
  ⟨fun i hi => by rw [h1.valid i hi, h2.valid i hi, h3.valid i hi], fun i hi => brightPatch_trans (h1.patches i hi) (h2.patches i hi) (h3.patches i hi),
    by rw [h1.H, h2.H, h3.H], by rw [h1.e0, h2.e0, h3.e0], by rw [h1.e1, h2.e1, h3.e1], by rw [h1.s, h2.s, h3.s]⟩

lemma sameMLP_refl (p l : ℕ) (a : MLP) : SameMLP p l a a :=
  ⟨fun _ _ => rfl, fun _ _ => ⟨fun _ _ => rfl, fun _ _ => rfl, rfl, fun _ _ _ => rfl, fun _ _ _ => rfl, fun _ => rfl, fun _ => rfl, fun _ => rfl, fun _ => rfl⟩,
    rfl, rfl, rfl, rfl⟩

lemma sameBy_refl (p l : ℕ) (a : FSt n nCam nPose) : SameBy (SameMLP p l) a a :=
  ⟨rfl, rfl, ⟨fun _ => ⟨rfl, rfl, rfl, fun _ => sameMLP_refl _ _ _⟩, rfl⟩, rfl, rfl, rfl, rfl, rfl, rfl, rfl, rfl, rfl⟩

lemma bright_trans {p l : ℕ} {a b c d : FSt n nCam nPose} (h1 : SameBy (SameMLP p l) a b) (h2 : SimBy (brightRels n nCam nPose p l) b c)
    (h3 : SameBy (SameMLP p l) c d) : SimBy (brightRels n nCam nPose p l) a d := by
  refine ⟨by rw [h1.w, ← h3.w]; exact h2.w, by rw [h1.cov, ← h3.cov]; exact h2.cov, ⟨fun i => ⟨?_, ?_, ?_, fun hv => ?_⟩, ?_⟩,
    fun i => ?_, ?_, ?_, ?_, ?_, ?_, ?_, ?_, ?_⟩
  · rw [(h1.fsm.slots i).valid, (h2.fsm.slots i).valid, (h3.fsm.slots i).valid]
  · rw [(h1.fsm.slots i).idx, (h2.fsm.slots i).idx, (h3.fsm.slots i).idx]
  · rw [(h1.fsm.slots i).coord, (h2.fsm.slots i).coord, (h3.fsm.slots i).coord]
  · have v2 : (b.fsm.slots i).valid = true := by rw [← (h1.fsm.slots i).valid]; exact hv
    have v3 : (c.fsm.slots i).valid = true := by rw [← (h2.fsm.slots i).valid]; exact v2
    obtain ⟨β, h⟩ := (h2.fsm.slots i).patch v2
    exact ⟨β, brightMLP_trans ((h1.fsm.slots i).patch hv) h ((h3.fsm.slots i).patch v3)⟩
  · rw [h1.fsm.maxIdx, h2.fsm.maxIdx, h3.fsm.maxIdx]
  · have : b.ext i = c.ext i := h2.ext i
    show a.ext i = d.ext i
    rw [h1.ext, this, h3.ext]
  · rw [h1.meas, h2.meas, h3.meas]
  · rw [h1.id, h2.id, h3.id]
  · rw [h1.cam, h2.cam, h3.cam]
  · show a.t = d.t
    have : b.t = c.t := h2.t
    rw [h1.t, this, h3.t]
  · rw [h1.imageCounter, h2.imageCounter, h3.imageCounter]
  · rw [h1.sinceImage, h2.sinceImage, h3.sinceImage]
  · rw [h1.sinceInertial, h2.sinceInertial, h3.sinceInertial]
  · rw [h1.log, h2.log, h3.log]

/-- **C99, one image.** Two filters in the same state up to the brightness of what they saw process images that differ in brightness: each camera's image has its
own offset.  Then either both runs are undefined or they end in the same state up to brightness, whatever the scratch memory holds. -/
theorem C99_image (I : USet) (hI : I.Lawful) (order : Finset (Fin n) → List (Fin n)) (ho : ∀ S, ∀ i ∈ order S, i ∈ S) (cfg : Cfg)
    (hst : -1 ≤ cfg.minAbsST) (F : Full n nCam nPose) (hp : Even F.base.p) (hmc : ∀ c, (F.mc.cams c).WF) (hoff : F.base.acfg.useOffset = true)
    (imgs : ℝ → Fin nCam → List Level) (hi : ∀ t c, ∃ β, BrightPyr β (F.imgs t c) (imgs t c))
    (mem mem' : FSt n nCam nPose → Mem) (k k' : ℝ → Slot MLP → Mem) (fuel : ℕ) (a b : FSt n nCam nPose)
    (h : SimBy (brightRels n nCam nPose F.base.p F.base.start) a b) :
    Both (SimBy (brightRels n nCam nPose F.base.p F.base.start)) (imageUpdate I order cfg (F.env mem k) fuel a)
      (imageUpdate I order cfg ({ F with imgs := imgs }.env mem' k') fuel b) := by
  have h1 := C94_image I hI order ho cfg hst F hp hmc mem (fun _ => mem a) k (fun _ _ => mem a) fuel a a (sameBy_refl _ _ a)
  have h2 := sim_imageUpdate (cfg := cfg) bright_ok (env_bright (imgs := imgs) hp hoff hi (mem a)) I order ho (.inr fun _ _ h => h) fuel (.inl ⟨hI, hst⟩) h
  have h3 := C94_image I hI order ho cfg hst { F with imgs := imgs } hp hmc (fun _ => mem a) mem' (fun _ _ => mem a) k' fuel b b (sameBy_refl _ _ b)
  have e : F.withImgs imgs = { F with imgs := imgs } := rfl
  rw [e] at h2
  generalize imageUpdate I order cfg (F.env mem k) fuel a = r1 at h1 ⊢
  generalize imageUpdate I order cfg (F.env (fun _ => mem a) fun _ _ => mem a) fuel a = r2 at h1 h2
  generalize imageUpdate I order cfg ({ F with imgs := imgs }.env (fun _ => mem a) fun _ _ => mem a) fuel b = r3 at h2 h3
  generalize imageUpdate I order cfg ({ F with imgs := imgs }.env mem' k') fuel b = r4 at h3 ⊢
  cases h1 with
  | none => cases h2; cases h3; exact .none
  | some h1 =>
    cases h2 with
    | some h2 => cases h3 with
      | some h3 => exact .some (bright_trans h1 h2 h3)

/-- **C99.** The same for a whole life: IMU measurements, pose and velocity updates, images of varying brightness and resets in any order and number. -/
theorem C99_run (I : USet) (hI : I.Lawful) (order : Finset (Fin n) → List (Fin n)) (ho : ∀ S, ∀ i ∈ order S, i ∈ S) (cfg : Cfg)
    (hst : -1 ≤ cfg.minAbsST) (F : Full n nCam nPose) (hp : Even F.base.p) (hmc : ∀ c, (F.mc.cams c).WF) (hoff : F.base.acfg.useOffset = true)
    (imgs : ℝ → Fin nCam → List Level) (hi : ∀ t c, ∃ β, BrightPyr β (F.imgs t c) (imgs t c))
    (mem mem' : FSt n nCam nPose → Mem) (k k' : ℝ → Slot MLP → Mem) (fuel : ℕ) :
    ∀ (es : List (Happening n nCam nPose)), Fresh es → ∀ a b : FSt n nCam nPose, SimBy (brightRels n nCam nPose F.base.p F.base.start) a b →
    Both (SimBy (brightRels n nCam nPose F.base.p F.base.start)) (run I order cfg F mem k fuel es a)
      (run I order cfg { F with imgs := imgs } mem' k' fuel es b)
  | [], _, _, _, h => .some h
  | e :: es, hf, a, b, h => by
    unfold run
    rw [List.foldlM_cons, List.foldlM_cons]
    have hstep : Both (SimBy (brightRels n nCam nPose F.base.p F.base.start)) (step I order cfg F mem k fuel a e)
        (step I order cfg { F with imgs := imgs } mem' k' fuel b e) := by
      cases e with
      | filter g dt motion =>
        simp only [step]
        rw [← here_bright h, ← cov_bright h]
        exact .some (sim_predict h dt (congrArg (· + dt) h.t) (motion (here a)) (w := { x := (g (here a) a.cov).1, prev := a.w.prev, cJ := a.w.cJ })
          (w' := { x := (g (here a) a.cov).1, prev := b.w.prev, cJ := b.w.cJ }) ⟨rfl, h.w.2.1, h.w.2.2⟩ rfl _)
      | image t =>
        refine C99_image I hI order ho cfg hst F hp hmc hoff imgs hi mem mem' k k' fuel _ _ ?_
        exact ⟨h.w, h.cov, h.fsm, h.ext, h.meas, h.id, h.cam, rfl, h.imageCounter, h.sinceImage, h.sinceInertial, h.log⟩
      | reset init t =>
        refine .some ⟨⟨rfl, rfl, fun c => ⟨0, ?_⟩⟩, rfl, ⟨fun i => ⟨rfl, rfl, rfl, fun hv => ?_⟩, rfl⟩, fun _ => rfl, rfl, rfl, rfl, rfl, rfl, rfl, rfl, rfl⟩
        · exact List.forall₂_same.2 fun x _ => ⟨⟨rfl, rfl, fun _ _ _ _ => by simp⟩, rfl⟩
        · have : init.valid i = true := hv
          rw [hf init t (by simp) i] at this
          simp at this
    exact hstep.bind fun x y hxy => C99_run I hI order ho cfg hst F hp hmc hoff imgs hi mem mem' k k' fuel es
      (fun init t hm => hf init t (List.mem_cons_of_mem _ hm)) x y hxy

/-- **C99, what the user sees.** Estimate, covariance, features (with their numbers, coordinates and statistics) and matches are equal. -/
theorem C99_estimate (I : USet) (hI : I.Lawful) (order : Finset (Fin n) → List (Fin n)) (ho : ∀ S, ∀ i ∈ order S, i ∈ S) (cfg : Cfg)
    (hst : -1 ≤ cfg.minAbsST) (F : Full n nCam nPose) (hp : Even F.base.p) (hmc : ∀ c, (F.mc.cams c).WF) (hoff : F.base.acfg.useOffset = true)
    (imgs : ℝ → Fin nCam → List Level) (hi : ∀ t c, ∃ β, BrightPyr β (F.imgs t c) (imgs t c))
    (mem mem' : FSt n nCam nPose → Mem) (k k' : ℝ → Slot MLP → Mem) (fuel : ℕ) (es : List (Happening n nCam nPose)) (hf : Fresh es)
    (s₀ s : FSt n nCam nPose) (hs : ∀ i, s₀.valid i = false) (hr : run I order cfg F mem k fuel es s₀ = some s) :
    ∃ s', run I order cfg { F with imgs := imgs } mem' k' fuel es s₀ = some s' ∧ s'.w.x = s.w.x ∧ s'.cov = s.cov ∧ s'.t = s.t ∧ s'.ext = s.ext ∧
      s'.meas = s.meas ∧ ∀ i, (s'.fsm.slots i).valid = (s.fsm.slots i).valid ∧ (s'.fsm.slots i).idx = (s.fsm.slots i).idx ∧
        (s'.fsm.slots i).coord = (s.fsm.slots i).coord := by
  have h := C99_run I hI order ho cfg hst F hp hmc hoff imgs hi mem mem' k k' fuel es hf s₀ s₀ (by
    refine ⟨⟨rfl, rfl, fun c => ⟨0, ?_⟩⟩, rfl, ⟨fun i => ⟨rfl, rfl, rfl, fun hv => ?_⟩, rfl⟩, fun _ => rfl, rfl, rfl, rfl, rfl, rfl, rfl, rfl, rfl⟩
    · exact List.forall₂_same.2 fun x _ => ⟨⟨rfl, rfl, fun _ _ _ _ => by simp⟩, rfl⟩
    · have : s₀.valid i = true := hv
      rw [hs i] at this
      simp at this)
  rw [hr] at h
  generalize run I order cfg { F with imgs := imgs } mem' k' fuel es s₀ = r at h
  cases h with
  | @some _ s' h =>
    exact ⟨s', rfl, h.w.1.symm, h.cov.symm, h.t.symm, funext fun i => (h.ext i).symm, h.meas.symm,
      fun i => ⟨(h.fsm.slots i).valid.symm, (h.fsm.slots i).idx.symm, (h.fsm.slots i).coord.symm⟩⟩

/-! ## The pyramid of a brighter image -/

/-- Grey values of 8 bits. -/
def Bytes (a : Rovio.Img) : Prop := ∀ v < a.rows, ∀ u < a.cols, a.px v u < 256

lemma half_bright {β : ℤ} {a b : Rovio.Img} (h : BrightImg β a b) (ha : Bytes a) (hb : Bytes b) :
    Both (fun x y => BrightImg β x y ∧ Bytes x ∧ Bytes y) (halfSample a) (halfSample b) := by
  have key : ∀ y x, Both (fun g g' : ℕ => (g' : ℤ) = g + β ∧ g < 256 ∧ g' < 256) (halfPixel a y x) (halfPixel b y x) := by
    intro y x
    have rd : ∀ v u : ℤ, Both (fun g g' : ℕ => (g' : ℤ) = g + β ∧ g < 256 ∧ g' < 256) (a.read v u) (b.read v u) := by
      intro v u
      unfold Img.read
      rw [← h.rows, ← h.cols]
      split_ifs with hc
      · exact .some ⟨h.px _ (by omega) _ (by omega), ha _ (by omega) _ (by omega), hb _ (by rw [← h.rows]; omega) _ (by rw [← h.cols]; omega)⟩
      · exact .none
    unfold halfPixel
    simp only [Option.bind_eq_bind, Option.pure_def]
    refine (rd _ _).bind fun g1 g1' e1 => (rd _ _).bind fun g2 g2' e2 => (rd _ _).bind fun g3 g3' e3 => (rd _ _).bind fun g4 g4' e4 => .some ?_
    have e : (g1' + g2' + g3' + g4' : ℤ) = (g1 + g2 + g3 + g4) + 4 * β := by omega
    have q : ((g1' + g2' + g3' + g4') / 4 : ℤ) = (g1 + g2 + g3 + g4) / 4 + β := by rw [e]; omega
    have l : (g1 + g2 + g3 + g4) / 4 < 256 := by omega
    have l' : (g1' + g2' + g3' + g4') / 4 < 256 := by omega
    rw [Nat.mod_eq_of_lt l, Nat.mod_eq_of_lt l']
    refine ⟨?_, l, l'⟩
    push_cast
    exact q
  unfold halfSample
  rw [← h.rows, ← h.cols]
  simp only [Option.bind_eq_bind, Option.pure_def]
  refine (fill_rel 0 _ _ key).bind fun g g' hg => .some ⟨⟨rfl, rfl, fun v hv u hu => (hg v hv u hu).1⟩, fun v hv u hu => (hg v hv u hu).2.1,
    fun v hv u hu => (hg v hv u hu).2.2⟩

/-- **C99, pyramids.** The pyramid of a brighter image is the pyramid of the image, brighter by the same amount on every level: so it is enough that the camera
images differ in brightness.  (`cv::pyrDown`, if used, is assumed to have the property; the built-in half sampling is shown to.) -/
theorem C99_pyramid (nLevels : ℕ) (useCv : Option (Rovio.Img → ℕ → ℕ → ℕ)) (β : ℤ)
    (hcv : ∀ down, useCv = some down → ∀ a b, BrightImg β a b → Bytes a → Bytes b → ∀ v < a.rows / 2, ∀ u < a.cols / 2,
      (down b v u : ℤ) = down a v u + β ∧ down a v u < 256 ∧ down b v u < 256)
    (a b : Rovio.Img) (h : BrightImg β a b) (ha : Bytes a) (hb : Bytes b) : Both (BrightPyr β) (computeFromImage nLevels a useCv) (computeFromImage nLevels b useCv) := by
  have nxt : ∀ (i : ℕ) (x y : Level), BrightImg β x.img y.img ∧ x.center = y.center → Bytes x.img → Bytes y.img →
      Both (fun x y : Level => (BrightImg β x.img y.img ∧ x.center = y.center) ∧ Bytes x.img ∧ Bytes y.img) (nextLevel useCv i x) (nextLevel useCv i y) := by
    intro i x y hxy hx hy
    unfold nextLevel
    cases useCv with
    | none =>
      simp only [Option.bind_eq_bind, Option.pure_def]
      refine (half_bright hxy.1 hx hy).bind fun u v huv => .some ⟨⟨huv.1, ?_⟩, huv.2⟩
      simp only [hxy.2, hxy.1.rows, hxy.1.cols]
    | some down =>
      have hd := hcv down rfl _ _ hxy.1 hx hy
      refine .some ⟨⟨⟨?_, ?_, fun v hv u hu => (hd v hv u hu).1⟩, ?_⟩, fun v hv u hu => (hd v hv u hu).2.1, fun v hv u hu => (hd v ?_ u ?_).2.2⟩
      · simp only [hxy.1.rows]
      · simp only [hxy.1.cols]
      · simp only [hxy.2, hxy.1.rows, hxy.1.cols]
      · rw [hxy.1.rows]; exact hv
      · rw [hxy.1.cols]; exact hu
  have all : ∀ (m i : ℕ) (x y : Level), BrightImg β x.img y.img ∧ x.center = y.center → Bytes x.img → Bytes y.img →
      Both (BrightPyr β) (levelsFrom useCv m i x) (levelsFrom useCv m i y) := by
    intro m
    induction m with
    | zero => intro i x y _ _ _; exact .some .nil
    | succ m ih =>
      intro i x y hxy hx hy
      cases m with
      | zero => exact .some (.cons hxy .nil)
      | succ m =>
        simp only [levelsFrom, Option.bind_eq_bind, Option.pure_def]
        exact (nxt i x y hxy hx hy).bind fun u v huv => (ih (i + 1) u v huv.1 huv.2.1 huv.2.2).bind fun r r' hr => .some (.cons hxy hr)
  exact all nLevels 1 ⟨a, 0⟩ ⟨b, 0⟩ ⟨h, rfl⟩ ha hb

/-! ## Non-vacuity -/

/-- The settings of `demoFull`, with the intensity offset. -/
noncomputable def offsetFull (F : Full n nCam nPose) (C : Fin nCam → Camera) (f : V3 → Nor) (g : V2 → Nor) : Full n nCam nPose :=
  { demoFull F C f g with base := { (demoFull F C f g).base with acfg := { (demoFull F C f g).base.acfg with useOffset := true } } }

/-- The same pyramid, `k` grey values brighter. -/
def brighten (k : ℕ) (pyr : List Level) : List Level := pyr.map fun l => { l with img := { l.img with px := fun v u => l.img.px v u + k } }

lemma brighten_bright (k : ℕ) (pyr : List Level) : BrightPyr k pyr (brighten k pyr) := by
  unfold BrightPyr brighten
  rw [List.forall₂_map_right_iff]
  exact List.forall₂_same.2 fun x _ => ⟨⟨rfl, rfl, fun _ _ _ _ => by push_cast; rfl⟩, rfl⟩

/-- The same multilevel patch, `β` brighter. -/
noncomputable def brightenMLP (β : ℝ) (q : MLP) : MLP :=
  { q with patches := fun l => { q.patches l with patch := fun k => (q.patches l).patch k + β, border := fun k => (q.patches l).border k + β } }

/-- Every camera sees its own brightness, 7 or 8 grey values above that of the other run; the stored patches are 3 brighter.  The image is processed in both runs,
with the same result. -/
example (F : Full 3 2 1) (C : Fin 2 → Camera) (f : V3 → Nor) (g : V2 → Nor) (x : State 3 2 1) (prev : Fin 2 → List Level) (P : Cov 3 2 1) (q : MLP)
    (m m' : Mem) : ∃ fuel r r', run AddArgs.listUSet (fun S => (List.finRange 3).filter (· ∈ S)) (demoCfg true true) (offsetFull F C f g)
        (fun _ => m) (fun _ _ => m) fuel [.image 6] (demoFSt x prev P q) = some r ∧
      run AddArgs.listUSet (fun S => (List.finRange 3).filter (· ∈ S)) (demoCfg true true)
        { offsetFull F C f g with imgs := fun t c => brighten (7 + c) (F.imgs t c) }
        (fun _ => m') (fun _ _ => m') fuel [.image 6] (demoFSt x prev P (brightenMLP 3 q)) = some r' ∧
      r.w.x = r'.w.x ∧ r.cov = r'.cov ∧ ∀ i, (r.fsm.slots i).coord = (r'.fsm.slots i).coord := by
  have hsame : SimBy (brightRels 3 2 1 8 3) (demoFSt x prev P q) (demoFSt x prev P (brightenMLP 3 q)) := by
    refine ⟨⟨rfl, rfl, fun c => ⟨0, ?_⟩⟩, rfl, ⟨fun i => ⟨rfl, rfl, rfl, fun _ => ⟨3, ?_⟩⟩, rfl⟩, fun _ => rfl, rfl, rfl, rfl, rfl, rfl, rfl, rfl, rfl⟩
    · exact List.forall₂_same.2 fun x _ => ⟨⟨rfl, rfl, fun _ _ _ _ => by simp⟩, rfl⟩
    · exact ⟨fun i hi => rfl, fun i _ => ⟨fun _ _ => rfl, fun _ _ => rfl, rfl, fun _ _ _ => rfl, fun _ _ _ => rfl, fun _ => rfl, fun _ => rfl, fun _ => rfl,
        fun _ => rfl⟩, rfl, rfl, rfl, rfl⟩
  obtain ⟨fuel, r, h1, _⟩ := C35_image_update_total AddArgs.listUSet_lawful (demo_order 3) (demoCfg true true)
    ((offsetFull F C f g).env (fun _ => m) (fun _ _ => m)) (by norm_num)
    (fun s c => ⟨by simp [Full.env, Full.detect, offsetFull, demoFull], by simp [Full.env, Full.detect, offsetFull, demoFull],
      by simp [Full.env, Full.detect, offsetFull, demoFull],
      by simp [Full.env, Full.detect, offsetFull, demoFull]; norm_num, by simp [Full.env, Full.detect, offsetFull, demoFull]; norm_num⟩)
    (by simp only [demoCfg]; norm_num) (by simp only [demoCfg]; norm_num) (by simp only [demoCfg]; norm_num)
    (by simp only [demoCfg]; norm_num) (by simp only [demoCfg]; norm_num) (by norm_num)
    { demoFSt x prev P q with t := 6 }
    ⟨fun i _ => by simp [demoFSt, demoFC, St.camID], fun i => (demo_wf 3 2 (fun _ => true) (fun _ => 0) (by simp)).2 i⟩
  have hr : run AddArgs.listUSet (fun S => (List.finRange 3).filter (· ∈ S)) (demoCfg true true) (offsetFull F C f g)
      (fun _ => m) (fun _ _ => m) fuel [.image 6] (demoFSt x prev P q) = some r := by
    unfold run
    rw [List.foldlM_cons]
    simp only [step]
    rw [h1 fuel le_rfl]
    rfl
  have h := C99_run AddArgs.listUSet AddArgs.listUSet_lawful (fun S => (List.finRange 3).filter (· ∈ S)) (by simp) (demoCfg true true)
    (by simp only [demoCfg]; norm_num) (offsetFull F C f g) (by simp only [offsetFull, demoFull]; decide) (fun c => C09_camera_is_wf _ _ _) rfl
    (fun t c => brighten (7 + c) (F.imgs t c)) (fun t c => ⟨_, brighten_bright _ _⟩)
    (fun _ => m) (fun _ => m') (fun _ _ => m) (fun _ _ => m') fuel [.image 6] (by intro init t h; simp at h) _ _ hsame
  rw [hr] at h
  generalize hl : run AddArgs.listUSet (fun S => (List.finRange 3).filter (· ∈ S)) (demoCfg true true)
    { offsetFull F C f g with imgs := fun t c => brighten (7 + c) (F.imgs t c) }
    (fun _ => m') (fun _ _ => m') fuel [.image 6] (demoFSt x prev P (brightenMLP 3 q)) = l at h
  cases h with
  | some h => exact ⟨fuel, r, _, hr, hl, h.w.1, h.cov, fun i => (h.fsm.slots i).coord⟩

/-- `C99_estimate` is about histories like this one: any two images after a start without features. -/
example (F : Full 3 2 1) (C : Fin 2 → Camera) (f : V3 → Nor) (g : V2 → Nor) : (offsetFull F C f g).base.acfg.useOffset = true ∧
    Even (offsetFull F C f g).base.p ∧ (∀ c, ((offsetFull F C f g).mc.cams c).WF) ∧ Fresh (n := 3) (nCam := 2) (nPose := 1) [.image 5, .image 6] ∧
    ∀ t c, ∃ β, BrightPyr β ((offsetFull F C f g).imgs t c) (brighten (7 + c) (F.imgs t c)) :=
  ⟨rfl, by simp only [offsetFull, demoFull]; decide, fun c => C09_camera_is_wf _ _ _, by intro init t h; simp at h, fun t c => ⟨_, brighten_bright _ _⟩⟩

/-- A 4 × 4 image of 8 bit grey values, and the same one 9 brighter: both have a pyramid of two levels. -/
example : ∃ x y, computeFromImage 2 ⟨4, 4, fun v u => 10 * v + u⟩ none = some x ∧ computeFromImage 2 ⟨4, 4, fun v u => 10 * v + u + 9⟩ none = some y ∧
    x.length = 2 ∧ BrightPyr 9 x y := by
  have h := C99_pyramid 2 none 9 (by simp) ⟨4, 4, fun v u => 10 * v + u⟩ ⟨4, 4, fun v u => 10 * v + u + 9⟩ ⟨rfl, rfl, fun v _ u _ => by push_cast; ring⟩
    (fun v hv u hu => by simp only at hv hu ⊢; omega) (fun v hv u hu => by simp only at hv hu ⊢; omega)
  obtain ⟨x, hx, hl⟩ := C21_defined 2 ⟨4, 4, fun v u => 10 * v + u⟩
  obtain ⟨y, hy, _⟩ := C21_defined 2 ⟨4, 4, fun v u => 10 * v + u + 9⟩
  rw [hx, hy] at h
  cases h with
  | some h => exact ⟨x, y, hx, hy, hl, h⟩

/-! ## Findings -/

/-- **C99, finding.** Without the intensity offset the brightness matters: the reference patch fits one image exactly (residual 0) and the brighter one not. -/
theorem C99_finding_no_offset : ∃ cfg : AlignCfg, cfg.useOffset = false ∧ ∃ (raws : List Raw) (r r' : Row),
    Align.assemble cfg [raws] = .ok [r] ∧ Align.assemble cfg [raws.map fun q => { q with y := q.y + 1 }] = .ok [r'] ∧ r.b = 0 ∧ r'.b = 1 := by
  refine ⟨⟨0, fun _ => 1, false, false, false, 0⟩, rfl, [⟨1, 10, 10, 1, 1⟩], ⟨1, 1, 0⟩, ⟨1, 1, 1⟩, ?_, ?_, rfl, rfl⟩
  · simp [Align.assemble, Align.rowOf, Align.fixed, Align.huberRow]
  · simp [Align.assemble, Align.rowOf, Align.fixed, Align.huberRow]

/-- **C99, finding.** A change of contrast is different: even with the intensity sqew enabled, which compensates for a gain `α` in the alignment (C30), the matching error
that decides on acceptance is `|α - 1|` times the standard deviation of the grey values (the last factor, the distance to a black patch). -/
theorem C99_finding_gain {p l1 l2 : ℕ} (hp : 1 ≤ p) (hl : l1 ≤ l2) (a b black : MLP) (α β : ℝ)
    (h : ∀ l, l1 ≤ l → l ≤ l2 → ∀ y < p, ∀ x < p, Spec.cell p (b.patches l).patch y x = α * Spec.cell p (a.patches l).patch y x + β)
    (h0 : ∀ l k, (black.patches l).patch k = 0) :
    MLP.computeAverageDifference p b a l1 l2 = |α - 1| * MLP.computeAverageDifference p a black l1 l2 := by
  have e : MLP.computeAverageDifference p b a l1 l2 =
      MLP.computeAverageDifference p { a with patches := fun l => { a.patches l with patch := fun k => α * (a.patches l).patch k } } a l1 l2 :=
    C28_offset_invariant hp hl _ _ _ β fun l h1 h2 y hy x hx => h l h1 h2 y hy x hx
  rw [e, avgDiff_eq, avgDiff_eq, ← Real.sqrt_sq_eq_abs, ← Real.sqrt_mul (sq_nonneg _)]
  congr 1
  simp only [h0, sub_zero]
  unfold lsum
  have q : ∑ i ∈ Finset.Icc l1 l2 ×ˢ Finset.range (p * p), (α * (a.patches i.1).patch i.2 - (a.patches i.1).patch i.2) =
      (α - 1) * ∑ i ∈ Finset.Icc l1 l2 ×ˢ Finset.range (p * p), (a.patches i.1).patch i.2 := by
    rw [Finset.mul_sum]
    exact Finset.sum_congr rfl fun i _ => by ring
  rw [q]
  generalize ∑ i ∈ Finset.Icc l1 l2 ×ˢ Finset.range (p * p), (a.patches i.1).patch i.2 = m
  rw [← mul_div_assoc, Finset.mul_sum]
  congr 1
  exact Finset.sum_congr rfl fun i _ => by ring

/-- Twice the contrast: two patches of 2 × 2 pixels, one with a dark and a bright half. -/
example : ∃ (a b black : MLP), (∀ l, 0 ≤ l → l ≤ 0 → ∀ y < 2, ∀ x < 2, Spec.cell 2 (b.patches l).patch y x = 2 * Spec.cell 2 (a.patches l).patch y x + 0) ∧
    (∀ l k, (black.patches l).patch k = 0) ∧ MLP.computeAverageDifference 2 a black 0 0 ≠ 0 := by
  let q : (ℕ → ℝ) → MLP := fun f => ⟨fun _ => ⟨f, f, fun _ => 0, fun _ => 0, 0, 0, 0, 0, false⟩, fun _ => true, 0, 0, 0, 0⟩
  refine ⟨q fun k => k, q fun k => 2 * k, q fun _ => 0, fun l _ _ y _ x _ => by simp [Spec.cell, q], fun _ _ => rfl, fun h => ?_⟩
  obtain ⟨k, hk⟩ := (C28_zero_iff (by norm_num) le_rfl _ _).1 h
  have h1 := hk 0 le_rfl le_rfl 0 (by norm_num) 0 (by norm_num)
  have h2 := hk 0 le_rfl le_rfl 0 (by norm_num) 1 (by norm_num)
  simp only [Spec.cell, q] at h1 h2
  norm_num at h1 h2
  linarith

end Rovio.ImgFull
