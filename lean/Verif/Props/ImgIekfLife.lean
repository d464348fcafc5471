import Verif.Props.ImgIekf

/-!
# C77, C81, C95 and C97 with the iterated image update

The whole filter as in `Props/ImgSees.lean` and `Props/PixelCov.lean`, with the iterated update of `Model/ImgIekf.lean`.
-/

namespace Rovio.ImgFull

open Rovio.Img Rovio.Spec Matrix

variable {n nCam nPose : ℕ}

lemma sound_iter (c : IterCfg) {gate : Gate 2} {R : Matrix (Fin 2) (Fin 2) ℝ} (hR : IsCov R) :
    IterKeeps (n := n) (nCam := nCam) (nPose := nPose) true SoundX SoundP Eq c gate R where
  plus x y δ ε hx hδ := by
    obtain ⟨rfl, hx⟩ := hx
    subst hδ
    exact ⟨rfl, hx.att.boxPlus _, fun c => (hx.vea c).boxPlus _, fun k => (hx.poa k).boxPlus _⟩
  diff x y x' y' hx hx' := by rw [hx.1, hx'.1]
  norm δ ε h := by rw [h]
  start P Q hP H _ w := by rw [hP.1]
  step P Q hP y H _ d e hd := by
    obtain ⟨rfl, hP⟩ := hP
    subst hd
    cases h : correctIter gate R y H P d with
    | none => exact .none
    | some a =>
      obtain ⟨δ, hc⟩ := correctIter_correct h
      have := (Rovio.correct_cov hP hR hc).1
      exact .some ⟨rfl, ⟨rfl, by rw [Rovio.FSt.symm_cov this]; exact this⟩, rfl⟩
  symm P Q hP := by
    obtain ⟨rfl, hP⟩ := hP
    exact ⟨rfl, by rw [Rovio.FSt.symm_cov hP]; exact hP⟩
  fix x y hx := by
    obtain ⟨rfl, hx⟩ := hx
    cases h : x.fix with
    | none => exact .none
    | some z => exact .some ⟨rfl, fix_platform h ⟨Quat.ne_of_unit hx.att, fun c => Quat.ne_of_unit (hx.vea c), fun k => Quat.ne_of_unit (hx.poa k)⟩⟩

lemma lifeIter_sound (I : USet) (hI : I.Lawful) (order : Finset (Fin n) → List (Fin n)) (ho : ∀ S, ∀ i ∈ order S, i ∈ S) (cfg : Cfg)
    (hst : -1 ≤ cfg.minAbsST) (F : Full n nCam nPose) (hp : Even F.base.p) (hmc : ∀ c, (F.mc.cams c).WF) (hC : IsCov F.C) (h01 : F.C 0 1 = 0) (h02 : F.C 0 2 = 0)
    (c : IterCfg) (fcfg : FCfg n nCam nPose) (hn : fcfg.NoiseOk) (gate : Gate 2) (R : Matrix (Fin 2) (Fin 2) ℝ) (hR : IsCov R) (u : PoseUpd nPose)
    (mem : FSt n nCam nPose → Mem) (k : ℝ → Slot MLP → Mem) (fuel : ℕ) (es : List (Input n nCam nPose)) (hf : SoundInputs es) (s s' : FSt n nCam nPose)
    (hs : IsCov s.cov) (hx : UnitPlatform s.w.x) (h : lifeIter I order cfg F c fcfg gate R u mem k fuel es s = some s') : IsCov s'.cov ∧ UnitPlatform s'.w.x := by
  have refl : ∀ s : FSt n nCam nPose, IsCov s.cov → UnitPlatform s.w.x → SimBy (seenRels F.base.p F.base.start SoundX SoundP) s s := fun s hs hx =>
    ⟨⟨⟨rfl, hx⟩, rfl, rfl⟩, ⟨rfl, hs⟩, ⟨fun _ => ⟨rfl, rfl, rfl, fun _ => sameMLP_refl _ _ _⟩, rfl⟩, fun _ => rfl, rfl, rfl, rfl, rfl, rfl, rfl, rfl, rfl⟩
  have := run_seen unnoticed_sound I hI order ho cfg hst (F.iterated c fcfg gate R u) hp hmc (initOk_cov hC h01 h02)
    (iekf_keeps unnoticed_sound (sound_iter c hR) F.eigen)
    (fun _ x y P Q hx hP => keepOr_keeps hx hP (sound_both hx hP (f := fun x P => Rovio.FSt.zeroVel fcfg (fun _ => true) ⟨x, P, u⟩)
      fun z hx hP h => finish_sound hn.zeroR hx hP h))
    mem mem k k fuel (es := es.map (Input.happening fcfg u)) (es' := es.map (Input.happening fcfg u))
    (by
      rw [List.forall₂_map_left_iff, List.forall₂_map_right_iff]
      refine List.forall₂_same.2 fun e he => ?_
      cases e with
      | imu m dt => exact .filter _ _ _ _ _ (sound_imu hn u m dt) fun x y hxy => by rw [hxy.1]
      | velocity v => exact .filter _ _ _ _ _ (fun x y P Q hx hP => keepOr_keeps hx hP (sound_both hx hP
          (f := fun x P => Rovio.FSt.velocity fcfg v ⟨x, P, u⟩) fun z hx hP h => finish_sound hn.velR hx hP h)) fun _ _ _ => rfl
      | image t => exact .image t
      | reset i t =>
        obtain ⟨h1, h2, h3⟩ := hf i t he
        exact .reset _ _ _ (refl i h2 h3) h1)
    s s (refl s hs hx)
  unfold lifeIter at h
  rw [h] at this
  cases this with
  | some this => exact ⟨this.cov.2, this.w.1.2⟩

/-- **C77, from pixels, with the iterated update.** As `C77_pixels`: the covariance stays symmetric and positive semi-definite. -/
theorem C77_iterated (I : USet) (hI : I.Lawful) (order : Finset (Fin n) → List (Fin n)) (ho : ∀ S, ∀ i ∈ order S, i ∈ S) (cfg : Cfg)
    (hst : -1 ≤ cfg.minAbsST) (F : Full n nCam nPose) (hp : Even F.base.p) (hmc : ∀ c, (F.mc.cams c).WF) (hC : IsCov F.C) (h01 : F.C 0 1 = 0) (h02 : F.C 0 2 = 0)
    (c : IterCfg) (fcfg : FCfg n nCam nPose) (hn : fcfg.NoiseOk) (gate : Gate 2) (R : Matrix (Fin 2) (Fin 2) ℝ) (hR : IsCov R) (u : PoseUpd nPose)
    (mem : FSt n nCam nPose → Mem) (k : ℝ → Slot MLP → Mem) (fuel : ℕ) (es : List (Input n nCam nPose)) (hf : SoundInputs es) (s s' : FSt n nCam nPose)
    (hs : IsCov s.cov) (hx : UnitPlatform s.w.x) (h : lifeIter I order cfg F c fcfg gate R u mem k fuel es s = some s') : IsCov s'.cov :=
  (lifeIter_sound I hI order ho cfg hst F hp hmc hC h01 h02 c fcfg hn gate R hR u mem k fuel es hf s s' hs hx h).1

/-- **C81, from pixels, with the iterated update.** As `C81_pixels`: attitude, camera mounting and additional poses stay unit quaternions. -/
theorem C81_iterated (I : USet) (hI : I.Lawful) (order : Finset (Fin n) → List (Fin n)) (ho : ∀ S, ∀ i ∈ order S, i ∈ S) (cfg : Cfg)
    (hst : -1 ≤ cfg.minAbsST) (F : Full n nCam nPose) (hp : Even F.base.p) (hmc : ∀ c, (F.mc.cams c).WF) (hC : IsCov F.C) (h01 : F.C 0 1 = 0) (h02 : F.C 0 2 = 0)
    (c : IterCfg) (fcfg : FCfg n nCam nPose) (hn : fcfg.NoiseOk) (gate : Gate 2) (R : Matrix (Fin 2) (Fin 2) ℝ) (hR : IsCov R) (u : PoseUpd nPose)
    (mem : FSt n nCam nPose → Mem) (k : ℝ → Slot MLP → Mem) (fuel : ℕ) (es : List (Input n nCam nPose)) (hf : SoundInputs es) (s s' : FSt n nCam nPose)
    (hs : IsCov s.cov) (hx : UnitPlatform s.w.x) (h : lifeIter I order cfg F c fcfg gate R u mem k fuel es s = some s') : UnitPlatform s'.w.x :=
  (lifeIter_sound I hI order ho cfg hst F hp hmc hC h01 h02 c fcfg hn gate R hR u mem k fuel es hf s s' hs hx h).2

/-- **C95, from pixels, with the iterated update.** As `C95_pixels`, for every logarithm of rotations that turns with its argument (`LogTurns`): the size of an increment, by
which the iterations stop, does not depend on the world frame. -/
theorem C95_iterated (I : USet) (hI : I.Lawful) (order : Finset (Fin n) → List (Fin n)) (ho : ∀ S, ∀ i ∈ order S, i ∈ S) (cfg : Cfg)
    (hst : -1 ≤ cfg.minAbsST) (F : Full n nCam nPose) (hp : Even F.base.p) (hmc : ∀ c, (F.mc.cams c).WF) (c : IterCfg) (hc : LogTurns c.log) (fcfg : FCfg n nCam nPose)
    (hq : fcfg.q (.pos 0) = fcfg.q (.pos 1))
    (gate : Gate 2) (R : Matrix (Fin 2) (Fin 2) ℝ) (u : PoseUpd nPose) (mem mem' : FSt n nCam nPose → Mem) (k k' : ℝ → Slot MLP → Mem) (fuel : ℕ)
    (g : Shift) (hg : g.Upright) (es : List (Input n nCam nPose)) (hf : ∀ init t, Input.reset init t ∈ es → ∀ i, init.valid i = false) (s : FSt n nCam nPose) :
    Both (fun x y => SameBy (SameMLP F.base.p F.base.start) (g.filter x) y) (lifeIter I order cfg F c fcfg gate R u mem k fuel es s)
      (lifeIter I order cfg F c fcfg gate R u mem' k' fuel (es.map g.input) (g.filter s)) := by
  have := run_seen (unnoticed_moved g) I hI order ho cfg hst (F.iterated c fcfg gate R u) hp hmc (initOk_true _) (iekf_keeps (unnoticed_moved g) (moved_iter hg c hc gate R) F.eigen)
    (fun _ => moved_zero hg fcfg u) mem mem' k k' fuel (es := es.map (Input.happening fcfg u)) (es' := (es.map g.input).map (Input.happening fcfg u))
    (by
      rw [List.map_map, List.forall₂_map_left_iff, List.forall₂_map_right_iff]
      refine List.forall₂_same.2 fun e he => ?_
      cases e with
      | imu m dt => exact .filter _ _ _ _ _ (moved_imu hg fcfg hq u m dt) fun x y hxy => by rw [show y = g.state x from hxy]; exact (motion_moved hg _ _ _ _).symm
      | velocity v => exact .filter _ _ _ _ _ (moved_velocity hg fcfg u v) fun _ _ _ => rfl
      | image t => exact .image t
      | reset i t => exact .reset _ _ _ (moved_iff.2 (sameBy_refl _ _ _)) (hf i t he))
    s (g.filter s) (moved_iff.2 (sameBy_refl _ _ _))
  exact this.mono fun _ _ h => moved_iff.1 h

/-- **C97, from pixels, with the iterated update.** As `C97_pixels`: additional uncertainty about position and heading changes no increment. -/
theorem C97_iterated {m : ℕ} (I : USet) (hI : I.Lawful) (order : Finset (Fin n) → List (Fin n)) (ho : ∀ S, ∀ i ∈ order S, i ∈ S) (cfg : Cfg)
    (hst : -1 ≤ cfg.minAbsST) (F : Full n nCam nPose) (hp : Even F.base.p) (hmc : ∀ c, (F.mc.cams c).WF) (c : IterCfg) (fcfg : FCfg n nCam nPose)
    (gate : Gate 2) (R : Matrix (Fin 2) (Fin 2) ℝ) (u : PoseUpd nPose) (mem mem' : FSt n nCam nPose → Mem) (k k' : ℝ → Slot MLP → Mem) (fuel : ℕ)
    (es : List (Input n nCam nPose)) (hf : ∀ init t, Input.reset init t ∉ es) (L : Matrix (Ix n nCam nPose) (Fin m) ℝ) (s : FSt n nCam nPose) (Q : Cov n nCam nPose)
    (hQ : Wider L s.cov Q) :
    Both (fun x y => SameBy (SameMLP F.base.p F.base.start) { x with cov := y.cov } y ∧ Wider L x.cov y.cov) (lifeIter I order cfg F c fcfg gate R u mem k fuel es s)
      (lifeIter I order cfg F c fcfg gate R u mem' k' fuel es { s with cov := Q }) := by
  have hs : ∀ x y : FSt n nCam nPose, SimBy (seenRels F.base.p F.base.start Eq (Wider L)) x y ↔
      SameBy (SameMLP F.base.p F.base.start) { x with cov := y.cov } y ∧ Wider L x.cov y.cov := by
    intro x y
    constructor
    · intro h
      refine ⟨⟨?_, rfl, h.fsm, funext h.ext, h.meas, h.id, h.cam, h.t, h.imageCounter, h.sinceImage, h.sinceInertial, h.log⟩, h.cov⟩
      obtain ⟨h1, h2, h3⟩ := h.w
      show x.w = y.w
      revert h1 h2 h3
      generalize x.w = w
      generalize y.w = w'
      intro h1 h2 h3
      cases w; cases w'
      simp only at h1 h2 h3
      rw [h1, h2, h3]
    · rintro ⟨h, hw⟩
      have e : x.w = y.w := h.w
      exact ⟨⟨by rw [e], by rw [e], by rw [e]⟩, hw, h.fsm, fun i => congrFun h.ext i, h.meas, h.id, h.cam, h.t, h.imageCounter, h.sinceImage, h.sinceInertial, h.log⟩
  have := run_seen (unnoticed_wider L) I hI order ho cfg hst (F.iterated c fcfg gate R u) hp hmc (initOk_true _) (iekf_keeps (unnoticed_wider L) (wider_iter L c gate R) F.eigen)
    (fun _ => wider_zero L fcfg u) mem mem' k k' fuel (es := es.map (Input.happening fcfg u)) (es' := es.map (Input.happening fcfg u))
    (by
      rw [List.forall₂_map_left_iff, List.forall₂_map_right_iff]
      refine List.forall₂_same.2 fun e he => ?_
      cases e with
      | imu m dt => exact .filter _ _ _ _ _ (wider_imu L fcfg u m dt) fun x y hxy => by rw [hxy]
      | velocity v => exact .filter _ _ _ _ _ (wider_velocity L fcfg u v) fun _ _ _ => rfl
      | image t => exact .image t
      | reset i t => exact absurd he (hf i t))
    s { s with cov := Q } ((hs _ _).2 ⟨sameBy_refl _ _ _, hQ⟩)
  exact this.mono fun _ _ h => (hs _ _).1 h

/-! ## Non-vacuity -/

/-- Every logarithm along the vector part, with a length that depends on the real part and the length of the vector part (that of kindr is of this form), turns with its
argument. -/
lemma logTurns_axis (f : ℝ → ℝ → ℝ) : LogTurns fun q => f q.w (q.x ^ 2 + q.y ^ 2 + q.z ^ 2) • (⟨q.x, q.y, q.z⟩ : V3) := by
  intro q z hz
  have hz' : z.w ^ 2 + z.x ^ 2 + z.y ^ 2 + z.z ^ 2 = 1 := hz
  have hw : (z * q * z.inv).w = q.w := by
    simp only [Quat.inv, Quat.mul_w, Quat.mul_x, Quat.mul_y, Quat.mul_z]
    linear_combination q.w * hz'
  have hv : (⟨(z * q * z.inv).x, (z * q * z.inv).y, (z * q * z.inv).z⟩ : V3) = z.rotate ⟨q.x, q.y, q.z⟩ := by
    ext <;> simp [Quat.inv, Quat.rotate] <;> ring
  have hl : (z * q * z.inv).x ^ 2 + (z * q * z.inv).y ^ 2 + (z * q * z.inv).z ^ 2 = q.x ^ 2 + q.y ^ 2 + q.z ^ 2 := by
    simp only [Quat.inv, Quat.mul_w, Quat.mul_x, Quat.mul_y, Quat.mul_z]
    linear_combination (q.x ^ 2 + q.y ^ 2 + q.z ^ 2) * (z.w ^ 2 + z.x ^ 2 + z.y ^ 2 + z.z ^ 2 + 1) * hz'
  show f (z * q * z.inv).w _ • _ = _
  rw [hw, hl, hv, Quat.rotate_smul]

/-- Twice the vector part. -/
lemma logTurns_vector : LogTurns fun q => (2 : ℝ) • (⟨q.x, q.y, q.z⟩ : V3) := logTurns_axis fun _ _ => 2

/-- Processing of an image with the iterated update, whatever the estimate, is defined. -/
lemma demo_lifeIter (F : Full 3 2 1) (C : Fin 2 → Camera) (f : V3 → Nor) (g : V2 → Nor) (c : IterCfg) (fcfg : FCfg 3 2 1) (gate : Gate 2) (R : Matrix (Fin 2) (Fin 2) ℝ) (u : PoseUpd 1)
    (z : Bool) (m : Mem) (s : FSt 3 2 1) (hs : WellFormed s) : ∃ fuel r, imageUpdate AddArgs.listUSet (fun S => (List.finRange 3).filter (· ∈ S)) (zvCfg z)
      (((demoFull F C f g).iterated c fcfg gate R u).env (fun _ => m) (fun _ _ => m)) fuel s = some r := by
  obtain ⟨fuel, r, h1, _⟩ := C35_image_update_total AddArgs.listUSet_lawful (demo_order 3) (zvCfg z)
    (((demoFull F C f g).iterated c fcfg gate R u).env (fun _ => m) (fun _ _ => m)) (by norm_num)
    (fun s c => ⟨by simp [Full.env, Full.detect, demoFull, Full.iterated], by simp [Full.env, Full.detect, demoFull, Full.iterated],
      by simp [Full.env, Full.detect, demoFull, Full.iterated],
      by simp [Full.env, Full.detect, demoFull, Full.iterated]; norm_num, by simp [Full.env, Full.detect, demoFull, Full.iterated]; norm_num⟩)
    (by simp only [zvCfg, demoCfg]; norm_num) (by simp only [zvCfg, demoCfg]; norm_num) (by simp only [zvCfg, demoCfg]; norm_num)
    (by simp only [zvCfg, demoCfg]; norm_num) (by simp only [zvCfg, demoCfg]; norm_num) (by norm_num) s hs
  exact ⟨fuel, r, h1 fuel le_rfl⟩

/-- A reset and an image, with zero-velocity updates enabled, in the world frame turned by a quarter and moved by three metres. -/
example (F : Full 3 2 1) (C : Fin 2 → Camera) (f : V3 → Nor) (g : V2 → Nor) (c : IterCfg) (hc : LogTurns c.log) (fcfg : FCfg 3 2 1) (hq : fcfg.q (.pos 0) = fcfg.q (.pos 1)) (gate : Gate 2)
    (R : Matrix (Fin 2) (Fin 2) ℝ) (u : PoseUpd 1) (x y : State 3 2 1) (prev : Fin 2 → List Level) (P : Cov 3 2 1) (q : MLP) (m m' : Mem) :
    ∃ fuel r r', lifeIter AddArgs.listUSet (fun S => (List.finRange 3).filter (· ∈ S)) (zvCfg true) (demoFull F C f g) c fcfg gate R u
        (fun _ => m) (fun _ _ => m) fuel [.reset (emptyFSt y prev P q) 5, .image 6] (demoFSt x prev P q) = some r ∧
      lifeIter AddArgs.listUSet (fun S => (List.finRange 3).filter (· ∈ S)) (zvCfg true) (demoFull F C f g) c fcfg gate R u
        (fun _ => m') (fun _ _ => m') fuel [.reset (quarter.filter (emptyFSt y prev P q)) 5, .image 6] (quarter.filter (demoFSt x prev P q)) = some r' ∧
      r'.w.x = quarter.state r.w.x ∧ r'.cov = quarter.cov r.cov ∧ r'.ext = r.ext := by
  obtain ⟨fuel, r, hr⟩ := demo_lifeIter F C f g c fcfg gate R u true m { (emptyFSt y prev P q).reset (demoFSt x prev P q) 5 with t := 6 }
    ⟨fun i hi => absurd (show false = true from hi) Bool.false_ne_true, fun i => (demo_wf 3 2 (fun _ => true) (fun _ => 0) (by simp)).2 i⟩
  have hl : lifeIter AddArgs.listUSet (fun S => (List.finRange 3).filter (· ∈ S)) (zvCfg true) (demoFull F C f g) c fcfg gate R u
        (fun _ => m) (fun _ _ => m) fuel [.reset (emptyFSt y prev P q) 5, .image 6] (demoFSt x prev P q) = some r := by
    unfold lifeIter run
    simp only [List.map_cons, List.map_nil, Input.happening, List.foldlM_cons, step, Option.bind_eq_bind, Option.bind_some]
    dsimp only at hr
    rw [hr]
    rfl
  have h := C95_iterated AddArgs.listUSet AddArgs.listUSet_lawful (fun S => (List.finRange 3).filter (· ∈ S)) (by simp) (zvCfg true)
    (by simp only [zvCfg, demoCfg]; norm_num) (demoFull F C f g) (by simp only [demoFull]; decide) (fun c => C09_camera_is_wf _ _ _) c hc fcfg hq gate R u
    (fun _ => m) (fun _ => m') (fun _ _ => m) (fun _ _ => m') fuel quarter quarter_upright [.reset (emptyFSt y prev P q) 5, .image 6]
    (by intro init t h i; simp at h; rw [h.1]; rfl) (demoFSt x prev P q)
  rw [hl] at h
  refine ⟨fuel, r, ?_⟩
  simp only [List.map_cons, List.map_nil, Shift.input] at h
  generalize lifeIter AddArgs.listUSet (fun S => (List.finRange 3).filter (· ∈ S)) (zvCfg true) (demoFull F C f g) c fcfg gate R u
        (fun _ => m') (fun _ _ => m') fuel [.reset (quarter.filter (emptyFSt y prev P q)) 5, .image 6] (quarter.filter (demoFSt x prev P q)) = l at h
  cases h with
  | some h => exact ⟨_, hl, rfl, h.w ▸ rfl, h.cov.symm, h.ext.symm⟩

/-- An image with and without a metre of additional uncertainty: the same estimate. -/
example (F : Full 3 2 1) (C : Fin 2 → Camera) (f : V3 → Nor) (g : V2 → Nor) (c : IterCfg) (fcfg : FCfg 3 2 1) (gate : Gate 2)
    (R : Matrix (Fin 2) (Fin 2) ℝ) (u : PoseUpd 1) (x : State 3 2 1) (prev : Fin 2 → List Level) (P : Cov 3 2 1) (q : MLP) (m m' : Mem) :
    ∃ fuel r r', lifeIter AddArgs.listUSet (fun S => (List.finRange 3).filter (· ∈ S)) (zvCfg true) (demoFull F C f g) c fcfg gate R u
        (fun _ => m) (fun _ _ => m) fuel [.image 6] (demoFSt x prev P q) = some r ∧
      lifeIter AddArgs.listUSet (fun S => (List.finRange 3).filter (· ∈ S)) (zvCfg true) (demoFull F C f g) c fcfg gate R u
        (fun _ => m') (fun _ _ => m') fuel [.image 6] (demoFSt x prev (P + metre * metre.transpose) q) = some r' ∧ r'.w = r.w ∧ Wider metre r.cov r'.cov := by
  obtain ⟨fuel, r, hr⟩ := demo_lifeIter F C f g c fcfg gate R u true m { demoFSt x prev P q with t := 6 } (demoFSt_wf x prev P q 6)
  have hl : lifeIter AddArgs.listUSet (fun S => (List.finRange 3).filter (· ∈ S)) (zvCfg true) (demoFull F C f g) c fcfg gate R u
        (fun _ => m) (fun _ _ => m) fuel [.image 6] (demoFSt x prev P q) = some r := by
    unfold lifeIter run
    simp only [List.map_cons, List.map_nil, Input.happening, List.foldlM_cons, step, Option.bind_eq_bind]
    dsimp only at hr
    rw [hr]
    rfl
  have h := C97_iterated AddArgs.listUSet AddArgs.listUSet_lawful (fun S => (List.finRange 3).filter (· ∈ S)) (by simp) (zvCfg true)
    (by simp only [zvCfg, demoCfg]; norm_num) (demoFull F C f g) (by simp only [demoFull]; decide) (fun c => C09_camera_is_wf _ _ _) c fcfg gate R u
    (fun _ => m) (fun _ => m') (fun _ _ => m) (fun _ _ => m') fuel [.image 6] (by simp) metre (demoFSt x prev P q) _ (metre_wider _)
  rw [hl] at h
  refine ⟨fuel, r, ?_⟩
  change Both _ _ (lifeIter AddArgs.listUSet (fun S => (List.finRange 3).filter (· ∈ S)) (zvCfg true) (demoFull F C f g) c fcfg gate R u
        (fun _ => m') (fun _ _ => m') fuel [.image 6] (demoFSt x prev (P + metre * metre.transpose) q)) at h
  generalize lifeIter AddArgs.listUSet (fun S => (List.finRange 3).filter (· ∈ S)) (zvCfg true) (demoFull F C f g) c fcfg gate R u
        (fun _ => m') (fun _ _ => m') fuel [.image 6] (demoFSt x prev (P + metre * metre.transpose) q) = l at h
  cases h with
  | some h => exact ⟨_, hl, rfl, h.1.w.symm, h.2⟩

/-- An image processed by `demoFull` with unit variances: the result has a covariance. -/
example (F : Full 3 2 1) (C : Fin 2 → Camera) (f : V3 → Nor) (g : V2 → Nor) (c : IterCfg) (fcfg : FCfg 3 2 1) (hn : fcfg.NoiseOk) (gate : Gate 2) (u : PoseUpd 1)
    (x : State 3 2 1) (hx : UnitPlatform x) (prev : Fin 2 → List Level) (q : MLP) (m : Mem) :
    ∃ fuel r, lifeIter AddArgs.listUSet (fun S => (List.finRange 3).filter (· ∈ S)) (zvCfg true) (demoFull { F with C := 1 } C f g) c fcfg gate 1 u
        (fun _ => m) (fun _ _ => m) fuel [.image 6] (demoFSt x prev 1 q) = some r ∧ IsCov r.cov ∧ UnitPlatform r.w.x := by
  have one : ∀ {ι : Type} [Fintype ι] [DecidableEq ι], IsCov (1 : Matrix ι ι ℝ) := fun {ι} _ _ =>
    ⟨Matrix.transpose_one, fun x => by rw [Matrix.one_mulVec]; exact Finset.sum_nonneg fun i _ => mul_self_nonneg _⟩
  obtain ⟨fuel, r, hr⟩ := demo_lifeIter { F with C := 1 } C f g c fcfg gate 1 u true m { demoFSt x prev 1 q with t := 6 } (demoFSt_wf x prev 1 q 6)
  have hl : lifeIter AddArgs.listUSet (fun S => (List.finRange 3).filter (· ∈ S)) (zvCfg true) (demoFull { F with C := 1 } C f g) c fcfg gate 1 u
        (fun _ => m) (fun _ _ => m) fuel [.image 6] (demoFSt x prev 1 q) = some r := by
    unfold lifeIter run
    simp only [List.map_cons, List.map_nil, Input.happening, List.foldlM_cons, step, Option.bind_eq_bind]
    dsimp only at hr
    rw [hr]
    rfl
  refine ⟨fuel, r, hl, ?_⟩
  exact lifeIter_sound AddArgs.listUSet AddArgs.listUSet_lawful (fun S => (List.finRange 3).filter (· ∈ S)) (by simp) (zvCfg true)
    (by simp only [zvCfg, demoCfg]; norm_num) (demoFull { F with C := 1 } C f g) (by simp only [demoFull]; decide) (fun c => C09_camera_is_wf _ _ _) one
    (Matrix.one_apply_ne (by decide)) (Matrix.one_apply_ne (by decide)) c fcfg hn gate 1 one u (fun _ => m) (fun _ _ => m) fuel [.image 6]
    (by intro init t h; simp at h) (demoFSt x prev 1 q) r one hx hl

end Rovio.ImgFull
