import Verif.Spec.AtRestIter
import Verif.Props.AtRestLife
import Verif.Props.ImgIekf

/-! # C110: a platform at rest with the iterated image update -/

namespace Rovio.ImgFull

open Rovio.Spec Rovio.Img Matrix

variable {n nCam nPose : ℕ}

section

variable {c : IterCfg} {gate : Gate 2} {R : Matrix (Fin 2) (Fin 2) ℝ} {K : Callbacks n nCam nPose} {x : State n nCam nPose} {P : Cov n nCam nPose}

lemma diff_fixed (hc : ZeroDifference c) (hu : UnitState x) : c.diff x x.fixed = 0 := by
  have h1 : ∀ q : Quat, q.IsUnit → c.log (q * q.inv) = 0 := fun q hq => by rw [Quat.mul_inv_self hq, hc.log]
  have h2 : ∀ v : V3, v - v = 0 := fun v => by ext <;> simp
  unfold IterCfg.diff
  have : (⟨0, 0, 0, 0, 0, fun _ => 0, fun _ => 0, fun _ => 0, fun _ => 0, fun _ => 0, fun _ => 0⟩ : DState n nCam nPose).get = 0 := by
    funext k
    cases k <;> rename_i j <;> first | (fin_cases j <;> rfl) | rfl
  rw [← this]
  congr 1
  simp only [State.fixed, h1 _ hu.att, h1 _ (hu.vea _), h1 _ (hu.poa _), h2, Fea.fixed, sub_self]
  congr 1
  funext i
  rw [show ((x.fea i).c.setNor (x.fea i).c.nor false).nor = (x.fea i).c.nor by simp [FC.setNor]]
  exact hc.norDiff _

lemma fixed_unit (hu : UnitState x) : UnitState x.fixed :=
  ⟨hu.att, hu.vea, hu.aux, hu.poa, fun i => by simpa [State.fixed, Fea.fixed, FC.setNor] using hu.nor i⟩

lemma iterate_agreed (hd : c.diff x x.fixed = 0) (hy : ∀ r v b r1, K.innov x.fixed 0 r = some (v, b, r1) → v = 0) :
    ∀ (k : ℕ) (a a' : Iter n nCam nPose), a.lin = x.fixed → iterate c gate R K x P k a = some a' → a'.lin = x.fixed := by
  intro k
  induction k with
  | zero => intro a a' ha h; cases h; exact ha
  | succ k ih =>
    intro a a' ha h
    rw [iterate] at h
    split at h
    · cases h; exact ha
    · obtain ⟨a1, h1, h⟩ := Option.bind_eq_some_iff.mp h
      refine ih a1 a' ?_ h
      unfold iterStep at h1
      simp only [Option.bind_eq_bind, Option.pure_def] at h1
      obtain ⟨⟨J, st, r⟩, -, h1⟩ := Option.bind_eq_some_iff.mp h1
      obtain ⟨H, -, h1⟩ := Option.bind_eq_some_iff.mp h1
      obtain ⟨⟨y, st', r'⟩, hi, h1⟩ := Option.bind_eq_some_iff.mp h1
      obtain ⟨⟨δ, Q, sc⟩, hc, h1⟩ := Option.bind_eq_some_iff.mp h1
      cases h1
      dsimp only at hi hc ⊢
      rw [ha] at hi hc ⊢
      have hv := hy _ _ _ _ hi
      have hz : (0 : V2).at = 0 := by funext k; fin_cases k <;> rfl
      rw [hd, hv, correctIter_eq, hz] at hc
      split at hc
      · cases hc
      · simp only [mulVec_zero, add_zero, neg_zero, Option.some.injEq, Prod.mk.injEq] at hc
        rw [← hc.1, boxPlus_nothing]
        have := fixed_fixed x x.aux
        exact this

/-- An iterated update with a match that agrees with the estimate. -/
lemma iekf_agreed (hc : ZeroDifference c) (h0 : c.uni = 0) (hcov : c.cover ≠ 0) (hu : UnitState x) (eigen : M2 → (ℝ × ℝ) × V2 × V2) (r : Scr)
    (hy : ∀ r v b r1, K.innov x.fixed 0 r = some (v, b, r1) → v = 0) :
    (iekf c eigen gate R K x P r).1 = x ∨ (iekf c eigen gate R K x P r).1 = x.fixed := by
  rcases iekf_cases (c := c) (gate := gate) (R := R) (K := K) (x := x) (P := P) eigen r with ⟨m, e⟩ | ⟨J, r1, H, zs, ps, r2, b, z, hJ, hH, hz, hps, hb, ha, hf, e⟩
  · rw [e]; exact .inl rfl
  · rw [e]
    right
    have hdet : (H * P * Hᵀ).det ≠ 0 := fun h => by unfold starts at hz; simp only [h, if_true] at hz; cases hz
    rw [starts_one h0 hcov eigen hdet] at hz
    cases hz
    simp only [List.foldlM_cons, List.foldlM_nil, Option.bind_eq_bind, Option.pure_def] at hps
    obtain ⟨⟨qs, r3⟩, hq, hps⟩ := Option.bind_eq_some_iff.mp hps
    cases hps
    unfold tryStart at hq
    simp only [Option.bind_eq_bind, Option.pure_def] at hq
    obtain ⟨a, hit, hq⟩ := Option.bind_eq_some_iff.mp hq
    obtain ⟨⟨ok, r4⟩, -, hq⟩ := Option.bind_eq_some_iff.mp hq
    have hl := iterate_agreed (diff_fixed hc hu) hy _ _ _ (boxPlus_nothing x) hit
    cases hq
    cases ok with
    | false => cases hb
    | true =>
      cases hb
      simp only [List.foldl_nil] at hf
      rw [hl, State.fix_eq (fixed_unit hu) (fun i => by simp [State.fixed, Fea.fixed, FC.setNor])] at hf
      cases hf
      exact fixed_fixed x x.aux

variable {F : Full n nCam nPose} {cfg : Cfg}

lemma agrees_of_throughout {s : FSt n nCam nPose} (hdir : F.base.direct = true) (ha : AgreesThroughout F s) : ImageAgrees F s :=
  fun s' h i c hv m f hf => ⟨fun h => absurd hdir (by rw [h]; simp), fun _ _ _ r e A v he hr => ha s' h i c hv m f hf r e A v he hr⟩

/-- The state after an update that changes nothing. -/
def settled (s : FSt n nCam nPose) : FSt n nCam nPose :=
  { s with
    w := { s.w with x := (here s).fixed }
    fsm := { s.fsm with slots := fun j => { s.fsm.slots j with coord := { ((here s).fixed.fea j).c with camID := (s.fsm.slots j).coord.camID } } } }

lemma here_settled (s : FSt n nCam nPose) : here (settled s) = (here s).fixed := by
  have h : ∀ j, known ({ ((here s).fixed.fea j).c with camID := (s.fsm.slots j).coord.camID } : FC) = ((here s).fixed.fea j).c := fun j => by
    rw [known_of_valid (by simp [State.fixed, Fea.fixed, FC.setNor])]
    have : ((here s).fixed.fea j).c.camID = (s.fsm.slots j).coord.camID := by simp [State.fixed, Fea.fixed, FC.setNor, here, known_camID]
    rw [← this]
  have h' : (fun i => ({ (here s).fixed.fea i with c := known ((settled s).fsm.slots i).coord } : Fea)) = (here s).fixed.fea := funext fun i => by
    rw [show ((settled s).fsm.slots i).coord = { ((here s).fixed.fea i).c with camID := (s.fsm.slots i).coord.camID } from rfl, h]
  show ({ (here s).fixed with fea := fun i => { (here s).fixed.fea i with c := known ((settled s).fsm.slots i).coord } } : State n nCam nPose) = _
  rw [h']

lemma leaves_iekf {c : IterCfg} (hc : ZeroDifference c) (h0 : c.uni = 0) (hcov : c.cover ≠ 0) {s₀ : FSt n nCam nPose} (hu : UnitState (here s₀)) (hdir : F.base.direct = true)
    (ha : AgreesThroughout F s₀) : Leaves F (iekf c F.eigen gate R) cfg s₀ := by
  intro s i k m f h hv hag hk hf
  refine iekf_agreed hc h0 hcov (h.unit hu) F.eigen _ fun r v b r1 hi => ?_
  have hs : Undisturbed s₀ (settled s) := here_fixed_scene h (.inr rfl) rfl rfl rfl rfl
  rw [← here_settled] at hi
  have hi : F.innov m (F.imgs s.t) (s.fsm.slots i).patch (s.meas i) i s.cam (here (settled s)) 0 r = some (v, b, r1) := hi
  unfold Full.innov at hi
  simp only [Option.bind_eq_bind, Option.pure_def] at hi
  obtain ⟨⟨b', f'⟩, hf, hi⟩ := Option.bind_eq_some_iff.mp hi
  unfold State.imgFeature at hf
  simp only [Option.bind_eq_bind, Option.pure_def] at hf
  obtain ⟨a, -, hf⟩ := Option.bind_eq_some_iff.mp hf
  obtain ⟨f'', hf', hf⟩ := Option.bind_eq_some_iff.mp hf
  cases hf
  rw [if_pos hdir] at hi
  obtain ⟨⟨r2, e⟩, he, hi⟩ := Option.bind_eq_some_iff.mp hi
  dsimp only at hi he
  have hz : ∀ v : V2, v + 0 = v := fun v => by ext <;> simp
  cases hr : F.reduce e with
  | none => rw [hr] at hi; cases hi; rfl
  | some Av =>
    obtain ⟨A, w⟩ := Av
    rw [hr] at hi
    cases hi
    rw [hz]
    exact ha (settled s) hs i _ hv m _ ⟨_, _, hf', rfl⟩ _ _ _ _ he hr

end

/-- C110 with the iterated update and a single starting point (direct method, `alignMaxUniSample` zero), any number of iterations.  One image that agrees with the estimate, and
after which no zero-velocity update is due or the velocity is zero, leaves the estimate of the platform as it is, and the bearing, camera and distance of every feature that
survives. -/
theorem C110_image_iterated (I : USet) (hI : I.Lawful) (order : Finset (Fin n) → List (Fin n)) (ho : ∀ S, ∀ i ∈ order S, i ∈ S) (cfg : Cfg) (F : Full n nCam nPose)
    (hdir : F.base.direct = true) (hd : cfg.direct = true) (c : IterCfg) (hc : ZeroDifference c) (h0 : c.uni = 0) (hcov : c.cover ≠ 0) (fcfg : FCfg n nCam nPose) (gate : Gate 2)
    (R : Matrix (Fin 2) (Fin 2) ℝ) (u : PoseUpd nPose) (mem : FSt n nCam nPose → Mem) (mem' : ℝ → Slot MLP → Mem) (hF : ∀ s c, (F.detect (mem s) s c).Sane) (fuel : ℕ)
    (s s' : FSt n nCam nPose) (hid : ∀ i, s.valid i = true → (s.fsm.slots i).idx < s.fsm.maxIdx) (hu : UnitState (here s)) (ha : AgreesThroughout F s)
    (h : imageUpdate I order cfg ((F.iterated c fcfg gate R u).env mem mem') fuel s = some s') (hz : ZeroVelocityDue cfg s' → s.w.x.vel = 0) :
    SamePlatformEstimate s.w.x s'.w.x ∧
      ∀ i, Survives s s' i → SameBearing (s.fsm.slots i).coord (s'.fsm.slots i).coord ∧ s'.camID i = s.camID i ∧ (s'.w.x.fea i).d = (s.w.x.fea i).d :=
  image_leaves I hI order ho cfg F (hdir.trans hd.symm) (iekf c F.eigen gate R) fcfg u mem mem' hF fuel s s' hid hu (agrees_of_throughout hdir ha)
    (leaves_iekf hc h0 hcov hu hdir ha) h hz

/-- C110, the whole filter with the iterated update and a single starting point: IMU measurements of the biases and gravity, velocity zero, and images that agree with the estimate
at the time they come, in any order and number.  The estimate of the platform stays exactly as it is for ever, and so do bearing, camera and distance of every feature as long as it
is tracked. -/
theorem C110_life_iterated (I : USet) (hI : I.Lawful) (order : Finset (Fin n) → List (Fin n)) (ho : ∀ S, ∀ i ∈ order S, i ∈ S) (cfg : Cfg) (F : Full n nCam nPose)
    (hdir : F.base.direct = true) (hd : cfg.direct = true) (hB : Backprojects F) (c : IterCfg) (hc : ZeroDifference c) (h0 : c.uni = 0) (hcov : c.cover ≠ 0)
    (fcfg : FCfg n nCam nPose) (gate : Gate 2) (R : Matrix (Fin 2) (Fin 2) ℝ) (u : PoseUpd nPose)
    (mem : FSt n nCam nPose → Mem) (mem' : ℝ → Slot MLP → Mem) (hF : ∀ s c, (F.detect (mem s) s c).Sane) (fuel : ℕ) (es : List (Input n nCam nPose))
    (s : FSt n nCam nPose) (hs : Sound s) (hv : s.w.x.vel = 0) (he : ∀ e ∈ es, ExpectedAtRest s.w.x e)
    (ha : ∀ pre t post s1, es = pre ++ .image t :: post → lifeIter I order cfg F c fcfg gate R u mem mem' fuel pre s = some s1 → AgreesThroughout F { s1 with t := t }) :
    ∀ before after s1 s2, es = before ++ after → lifeIter I order cfg F c fcfg gate R u mem mem' fuel before s = some s1 →
      lifeIter I order cfg F c fcfg gate R u mem mem' fuel after s1 = some s2 →
      SamePlatformNumbers s.w.x s1.w.x ∧ SamePlatformNumbers s.w.x s2.w.x ∧
      ∀ i, Survives s1 s2 i → SameBearing (s1.fsm.slots i).coord (s2.fsm.slots i).coord ∧ s2.camID i = s1.camID i ∧ (s2.w.x.fea i).d = (s1.w.x.fea i).d :=
  life_leaves I hI order ho cfg F (hdir.trans hd.symm) hB (iekf c F.eigen gate R) fcfg u mem mem' hF fuel es s hs hv he fun pre t post s1 hes h1 =>
    have h := ha pre t post s1 hes h1
    ⟨agrees_of_throughout hdir h, fun hs1 =>
      leaves_iekf hc h0 hcov (Sound.unit (s := { s1 with t := t }) ⟨hs1.att, hs1.vea, hs1.aux, hs1.poa, hs1.direction, hs1.camera, hs1.ids⟩) hdir h⟩

/-- C110, the whole filter with the iterated update, from pixels: as before, where the images show the patches of the features where the estimate predicts them. -/
theorem C110_unmoved_life_iterated (I : USet) (hI : I.Lawful) (order : Finset (Fin n) → List (Fin n)) (ho : ∀ S, ∀ i ∈ order S, i ∈ S) (cfg : Cfg) (F : Full n nCam nPose)
    (hdir : F.base.direct = true) (hd : cfg.direct = true) (hB : Backprojects F) (hred : ReducesZero F) (hp : 2 ≤ F.base.p) (hev : F.base.p % 2 = 0) (hl : F.base.stop ≤ F.base.start)
    (hw : F.base.acfg.useWeighting = true → ∀ k, 0 < F.base.acfg.w k) (hg : F.base.acfg.gradExp ≤ 0) (c : IterCfg) (hc : ZeroDifference c) (h0 : c.uni = 0) (hcov : c.cover ≠ 0)
    (fcfg : FCfg n nCam nPose) (gate : Gate 2) (R : Matrix (Fin 2) (Fin 2) ℝ) (u : PoseUpd nPose)
    (mem : FSt n nCam nPose → Mem) (mem' : ℝ → Slot MLP → Mem) (hF : ∀ s c, (F.detect (mem s) s c).Sane) (fuel : ℕ) (es : List (Input n nCam nPose))
    (s : FSt n nCam nPose) (hs : Sound s) (hv : s.w.x.vel = 0) (he : ∀ e ∈ es, ExpectedAtRest s.w.x e)
    (ha : ∀ pre t post s1, es = pre ++ .image t :: post → lifeIter I order cfg F c fcfg gate R u mem mem' fuel pre s = some s1 →
      ∀ i k, s1.valid i = true → MLP.Reach F.base.p (s1.fsm.slots i).patch ∧
        ∀ s₁, Undisturbed { s1 with t := t } s₁ → ∀ f, PredictedIn F s₁ i k f → SeesPatch F { s1 with t := t } i k f) :
    ∀ before after s1 s2, es = before ++ after → lifeIter I order cfg F c fcfg gate R u mem mem' fuel before s = some s1 →
      lifeIter I order cfg F c fcfg gate R u mem mem' fuel after s1 = some s2 →
      SamePlatformNumbers s.w.x s1.w.x ∧ SamePlatformNumbers s.w.x s2.w.x ∧
      ∀ i, Survives s1 s2 i → SameBearing (s1.fsm.slots i).coord (s2.fsm.slots i).coord ∧ s2.camID i = s1.camID i ∧ (s2.w.x.fea i).d = (s1.w.x.fea i).d := by
  refine C110_life_iterated I hI order ho cfg F hdir hd hB c hc h0 hcov fcfg gate R u mem mem' hF fuel es s hs hv he
    (fun pre t post s1 hes h1 s₁ h₁ i k hv m f hf r e A v hr hA => ?_)
  have hv0 : s1.valid i = true := h₁.valid i hv
  obtain ⟨hre, ha⟩ := ha pre t post s1 hes h1 i k hv0
  rw [h₁.time, h₁.patch] at hr
  exact seen_zero (s := { s1 with t := t }) hred hp hev hl hw hg hre (ha s₁ h₁ f hf) hr hA

/-! ## Non-vacuity -/

/-- The same filter at rest as for the single correction, now with three iterations per feature and image. -/
example (F : Full 3 2 1) (fcfg : FCfg 3 2 1) (gate : Gate 2) (R : Matrix (Fin 2) (Fin 2) ℝ) (u : PoseUpd 1) (x : State 3 2 1)
    (hx : UnitState x) (prev : Fin 2 → List Level) (P : Cov 3 2 1) (m : Mem) (q : MLP) :
    ∃ fuel r, lifeIter AddArgs.listUSet (fun S => (List.finRange 3).filter (· ∈ S)) (zvCfg true) { demoEyes F with reduce := fun _ => some (M2.one, 0) }
        { toyCfg with maxIter := 3 } fcfg gate R u (fun _ => m) (fun _ _ => m) fuel
        [.imu ⟨x.acb + x.att.inv.rotate ⟨0, 0, 9.81⟩, x.gyb⟩ 0.1, .velocity 0, .image 6, .imu ⟨x.acb + x.att.inv.rotate ⟨0, 0, 9.81⟩, x.gyb⟩ 0.2, .velocity 0]
        { demoFSt { x with vel := 0 } prev P q with fsm := ⟨fun i => ⟨true, i.val, demoSpot, q⟩, 3⟩ } = some r ∧ r.w.x.pos = x.pos ∧ r.w.x.att = x.att ∧ r.w.x.vel = 0 := by
  set s : FSt 3 2 1 := { demoFSt { x with vel := 0 } prev P q with fsm := ⟨fun i => ⟨true, i.val, demoSpot, q⟩, 3⟩ } with hsdef
  set F' : Full 3 2 1 := { demoEyes F with reduce := fun _ => some (M2.one, 0) } with hF'
  have hsane : ∀ s c, (F'.detect m s c).Sane := fun s c => ⟨by simp [Full.detect, F', demoEyes], by simp [Full.detect, F', demoEyes], by simp [Full.detect, F', demoEyes],
    by simp [Full.detect, F', demoEyes]; norm_num, by simp [Full.detect, F', demoEyes]; norm_num⟩
  have h2 : ∃ s2, lifeIter AddArgs.listUSet (fun S => (List.finRange 3).filter (· ∈ S)) (zvCfg true) F' { toyCfg with maxIter := 3 } fcfg gate R u (fun _ => m) (fun _ _ => m) 0
      [.imu ⟨x.acb + x.att.inv.rotate ⟨0, 0, 9.81⟩, x.gyb⟩ 0.1, .velocity 0] s = some s2 ∧ WellFormed { s2 with t := 6 } := by
    refine ⟨_, rfl, ⟨fun i _ => ?_, fun i => (demo_wf 3 2 (fun _ => true) (fun _ => 0) (by simp)).2 i⟩⟩
    simp [Img.predict, St.camID, hsdef, demoSpot]
  obtain ⟨s2, h2, hwf⟩ := h2
  obtain ⟨fuel, s3, h3, _⟩ := C35_image_update_total AddArgs.listUSet_lawful (demo_order 3) (zvCfg true)
    ((F'.iterated { toyCfg with maxIter := 3 } fcfg gate R u).env (fun _ => m) (fun _ _ => m)) (by norm_num) hsane
    (by simp only [zvCfg, demoCfg]; norm_num) (by simp only [zvCfg, demoCfg]; norm_num) (by simp only [zvCfg, demoCfg]; norm_num)
    (by simp only [zvCfg, demoCfg]; norm_num) (by simp only [zvCfg, demoCfg]; norm_num) (by norm_num) { s2 with t := 6 } hwf
  have h4 : ∃ r, lifeIter AddArgs.listUSet (fun S => (List.finRange 3).filter (· ∈ S)) (zvCfg true) F' { toyCfg with maxIter := 3 } fcfg gate R u (fun _ => m) (fun _ _ => m) fuel
      [.imu ⟨x.acb + x.att.inv.rotate ⟨0, 0, 9.81⟩, x.gyb⟩ 0.1, .velocity 0, .image 6, .imu ⟨x.acb + x.att.inv.rotate ⟨0, 0, 9.81⟩, x.gyb⟩ 0.2, .velocity 0] s = some r := by
    simp only [lifeIter, run, List.map_cons, List.map_nil, Input.happening, List.foldlM_cons, List.foldlM_nil, step, Option.bind_eq_bind, Option.bind_some, Option.pure_def,
      Option.some.injEq] at h2 ⊢
    rw [h2, h3 fuel le_rfl]
    exact ⟨_, rfl⟩
  obtain ⟨r, h4⟩ := h4
  refine ⟨fuel, r, h4, ?_⟩
  have hacc : x.att.rotate (x.acb + x.att.inv.rotate ⟨0, 0, 9.81⟩ - x.acb) = ⟨0, 0, 9.81⟩ := by
    have e : x.acb + x.att.inv.rotate ⟨0, 0, 9.81⟩ - x.acb = x.att.inv.rotate ⟨0, 0, 9.81⟩ := by ext <;> simp
    rw [e]; exact Quat.rotate_rotate_inv hx.att _
  obtain ⟨-, h5, -⟩ := C110_life_iterated AddArgs.listUSet AddArgs.listUSet_lawful (fun S => (List.finRange 3).filter (· ∈ S)) (by simp) (zvCfg true) F' rfl rfl
    (fun c p => ⟨rfl, by simp [F', demoEyes, demoEye, Quat.IsUnit, Quat.one, Quat.normSq]⟩) { toyCfg with maxIter := 3 } ⟨rfl, fun _ => rfl⟩ rfl (by simp [toyCfg])
    fcfg gate R u (fun _ => m) (fun _ _ => m) (fun s c => hsane s c) fuel
    [.imu ⟨x.acb + x.att.inv.rotate ⟨0, 0, 9.81⟩, x.gyb⟩ 0.1, .velocity 0, .image 6, .imu ⟨x.acb + x.att.inv.rotate ⟨0, 0, 9.81⟩, x.gyb⟩ 0.2, .velocity 0] s
    ⟨hx.att, hx.vea, hx.aux, hx.poa, fun i => ⟨demoSpot, rfl, by simp [demoSpot, Quat.IsUnit, Quat.one, Quat.normSq]⟩, fun i h => by simp [hsdef, demoSpot] at h,
      fun i _ => by simp only [hsdef]; exact_mod_cast i.isLt⟩ rfl
    (by
      intro e he
      simp only [List.mem_cons, List.not_mem_nil, or_false] at he
      rcases he with rfl | rfl | rfl | rfl | rfl
      · exact ⟨by norm_num, rfl, hacc⟩
      · rfl
      · trivial
      · exact ⟨by norm_num, rfl, hacc⟩
      · rfl)
    (fun pre t post s1 _ _ s₁ _ i c _ m f _ r e A v _ hv => by
      simp only [F', Option.some.injEq, Prod.mk.injEq] at hv; exact hv.2.symm) [] _ s r rfl rfl h4
  exact ⟨h5.pos, h5.att, h5.vel⟩

/-- An image that shows the patches of the features where they are predicted, in both cameras, aligned with three iterations: the hypotheses of `C110_unmoved_life_iterated` are
met. -/
example (F : Full 3 2 1) (fcfg : FCfg 3 2 1) (gate : Gate 2) (R : Matrix (Fin 2) (Fin 2) ℝ) (u : PoseUpd 1) (x : State 3 2 1)
    (hx : UnitState x) (prev : Fin 2 → List Level) (P : Cov 3 2 1) (m : Mem) (junk : FC) (m0 : MLP) (hr : MLP.Reach 2 m0) :
    ∃ mp fuel r, lifeIter AddArgs.listUSet (fun S => (List.finRange 3).filter (· ∈ S)) (zvCfg true) (demoEyes F) { toyCfg with maxIter := 3 } fcfg gate R u (fun _ => m)
        (fun _ _ => m) fuel [.image 6] { demoFSt { x with vel := 0 } prev P mp with fsm := ⟨fun i => ⟨true, i.val, demoSpot, mp⟩, 3⟩ } = some r ∧
        r.w.x.pos = x.pos ∧ r.w.x.att = x.att := by
  obtain ⟨mp, h1, h2, h3, hB, hI⟩ := demo_taken (fun y x => x * y ^ 2) junk m0
  obtain ⟨h4, h5⟩ := demo_textured hB hI
  have hsc : (FC.constructPixel junk ⟨3, 3⟩).Settled := ⟨rfl, rfl⟩
  obtain ⟨_, hval, _⟩ := extractAll_inv hsc (List.range (0 + 1)) m0 mp _ List.nodup_range h3
  set s : FSt 3 2 1 := { demoFSt { x with vel := 0 } prev P mp with fsm := ⟨fun i => ⟨true, i.val, demoSpot, mp⟩, 3⟩ } with hsdef
  have hsane : ∀ s c, ((demoEyes F).detect m s c).Sane := fun s c => ⟨by simp [Full.detect, demoEyes], by simp [Full.detect, demoEyes], by simp [Full.detect, demoEyes],
    by simp [Full.detect, demoEyes]; norm_num, by simp [Full.detect, demoEyes]; norm_num⟩
  obtain ⟨fuel, r, h, _⟩ := C35_image_update_total AddArgs.listUSet_lawful (demo_order 3) (zvCfg true)
    (((demoEyes F).iterated { toyCfg with maxIter := 3 } fcfg gate R u).env (fun _ => m) (fun _ _ => m)) (by norm_num) hsane
    (by simp only [zvCfg, demoCfg]; norm_num) (by simp only [zvCfg, demoCfg]; norm_num) (by simp only [zvCfg, demoCfg]; norm_num)
    (by simp only [zvCfg, demoCfg]; norm_num) (by simp only [zvCfg, demoCfg]; norm_num) (by norm_num) { s with t := 6 }
    ⟨fun i _ => by simp [hsdef, demoSpot, St.camID], fun i => (demo_wf 3 2 (fun _ => true) (fun _ => 0) (by simp)).2 i⟩
  have hr' : lifeIter AddArgs.listUSet (fun S => (List.finRange 3).filter (· ∈ S)) (zvCfg true) (demoEyes F) { toyCfg with maxIter := 3 } fcfg gate R u (fun _ => m)
      (fun _ _ => m) fuel [.image 6] s = some r := by
    simp only [lifeIter, run, List.map_cons, List.map_nil, Input.happening, List.foldlM_cons, List.foldlM_nil, step, Option.bind_eq_bind, Option.pure_def]
    rw [h fuel le_rfl]; rfl
  refine ⟨mp, fuel, r, hr', ?_⟩
  obtain ⟨-, h6, -⟩ := C110_unmoved_life_iterated AddArgs.listUSet AddArgs.listUSet_lawful (fun S => (List.finRange 3).filter (· ∈ S)) (by simp) (zvCfg true) (demoEyes F) rfl rfl
    (fun c p => ⟨rfl, by simp [demoEyes, demoEye, Quat.IsUnit, Quat.one, Quat.normSq]⟩)
    (fun rows A v hv hb => by
      simp only [demoEyes, Option.some.injEq, Prod.mk.injEq] at hv
      rw [← hv.2]
      have : (rows.map Row.b).sum = 0 := List.sum_eq_zero fun b hb' => by
        obtain ⟨r, hr, rfl⟩ := List.mem_map.mp hb'; exact hb r hr
      rw [this]; rfl)
    (by simp [demoEyes]) (by simp [demoEyes]) (by simp [demoEyes]) (by simp [demoEyes]) (by simp [demoEyes]) { toyCfg with maxIter := 3 } ⟨rfl, fun _ => rfl⟩ rfl
    (by simp [toyCfg]) fcfg gate R u (fun _ => m) (fun _ _ => m) (fun s c => hsane s c) fuel [.image 6] s
    ⟨hx.att, hx.vea, hx.aux, hx.poa, fun i => ⟨demoSpot, rfl, by simp [demoSpot, Quat.IsUnit, Quat.one, Quat.normSq]⟩, fun i h => by simp [hsdef, demoSpot] at h,
      fun i _ => by simp only [hsdef]; exact_mod_cast i.isLt⟩ rfl (by simp [ExpectedAtRest])
    (fun pre t post s1 hes h1 i k _ => by
      have hpre : pre = [] := by
        cases pre with
        | nil => rfl
        | cons a as => simp at hes
      subst hpre
      have h1 : s1 = s := by
        simp only [lifeIter, run, List.map_nil, List.foldlM_nil, Option.pure_def, Option.some.injEq] at h1
        exact h1.symm
      subst h1
      exact ⟨.extract hr h3, fun s₁ hs₁ f hf => demo_sees (m0 := m0) (fun _ => rfl) (fun _ => rfl) hval h4 h5 hI hs₁ hf⟩) [] _ s r rfl rfl hr'
  exact ⟨h6.pos, h6.att⟩

end Rovio.ImgFull
