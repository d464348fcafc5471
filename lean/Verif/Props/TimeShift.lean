import Verif.Lemmas.TimeShift
import Verif.Props.ImgFull
import Verif.Props.Node

/-!
# Property C96: only differences of time stamps matter

The same recording with all stamps later by a constant gives the same estimate: nothing depends on when the clock was started.
-/

namespace Rovio

open Spec Img

namespace ImgFull

variable {n nCam nPose : ℕ}

/-- **C96, one image.** -/
theorem C96_image (I : USet) (hI : I.Lawful) (order : Finset (Fin n) → List (Fin n)) (ho : ∀ S, ∀ i, i ∈ order S ↔ i ∈ S) (cfg : Cfg)
    (hst : -1 ≤ cfg.minAbsST) (F : Full n nCam nPose) (hp : Even F.base.p) (hmc : ∀ c, (F.mc.cams c).WF) (τ : ℝ)
    (mem mem' : FSt n nCam nPose → Mem) (k k' : ℝ → Slot MLP → Mem) (fuel : ℕ) (a b : FSt n nCam nPose)
    (h : SimBy (Rels.later (SameMLP F.base.p F.base.start) τ) a b) :
    Both (SimBy (Rels.later (SameMLP F.base.p F.base.start) τ)) (imageUpdate I order cfg (F.env mem k) fuel a)
      (imageUpdate I order cfg ((laterFull τ F).env mem' k') fuel b) :=
  sim_imageUpdate (later_ok _ τ) (env_later hp hmc τ mem mem' k k') I order (fun S i => (ho S i).mp) (.inl fun S i => (ho S i).mpr) fuel (Or.inl ⟨hI, hst⟩) h

/-- **C96.** A whole life of the filter: IMU measurements, pose and velocity updates, images and resets in any order and number.  With the same images and
resets later by `τ`, and whatever is in scratch memory, either both lives are undefined or they end in the same estimate with the same covariance, the same
features at the same places with the same patches, and statistics that differ by `τ` in their times. -/
theorem C96_run (I : USet) (hI : I.Lawful) (order : Finset (Fin n) → List (Fin n)) (ho : ∀ S, ∀ i, i ∈ order S ↔ i ∈ S) (cfg : Cfg)
    (hst : -1 ≤ cfg.minAbsST) (F : Full n nCam nPose) (hp : Even F.base.p) (hmc : ∀ c, (F.mc.cams c).WF) (τ : ℝ)
    (mem mem' : FSt n nCam nPose → Mem) (k k' : ℝ → Slot MLP → Mem) (fuel : ℕ) :
    ∀ (es : List (Happening n nCam nPose)), Fresh es → ∀ a b : FSt n nCam nPose, SimBy (Rels.later (SameMLP F.base.p F.base.start) τ) a b →
    Both (SimBy (Rels.later (SameMLP F.base.p F.base.start) τ)) (run I order cfg F mem k fuel es a)
      (run I order cfg (laterFull τ F) mem' k' fuel (es.map (laterHappening τ)) b)
  | [], _, _, _, h => .some h
  | e :: es, hf, a, b, h => by
    unfold run
    rw [List.map_cons, List.foldlM_cons, List.foldlM_cons]
    have hstep : Both (SimBy (Rels.later (SameMLP F.base.p F.base.start) τ)) (step I order cfg F mem k fuel a e)
        (step I order cfg (laterFull τ F) mem' k' fuel b (laterHappening τ e)) := by
      cases e with
      | filter g dt motion =>
        simp only [step, laterHappening]
        have hh : here a = here (back τ a b) := here_same (back_same h)
        have hh : here a = here b := hh
        rw [← hh, ← (h.cov : a.cov = b.cov), ← (h.w : a.w = b.w)]
        refine .some (sim_predict h dt ?_ _ rfl rfl _)
        have : b.t = a.t + τ := h.t
        show b.t + dt = a.t + dt + τ
        rw [this]; ring
      | image t =>
        refine C96_image I hI order ho cfg hst F hp hmc τ mem mem' k k' fuel _ _ ?_
        exact ⟨h.w, h.cov, h.fsm, h.ext, h.meas, h.id, h.cam, rfl, h.imageCounter, h.sinceImage, h.sinceInertial, h.log⟩
      | reset init t =>
        have hi : ∀ i, init.valid i = false := hf init t (by simp)
        refine .some ⟨rfl, rfl, ⟨fun i => ⟨rfl, rfl, rfl, fun hv => ?_⟩, rfl⟩, fun i => ⟨⟨rfl, rfl, rfl⟩, fun hv => ?_⟩, rfl, rfl, rfl, rfl, rfl, rfl, rfl, rfl⟩
        · have : init.valid i = true := hv
          rw [hi i] at this
          simp at this
        · have : init.valid i = true := hv
          rw [hi i] at this
          simp at this
    exact hstep.bind fun x y hxy => C96_run I hI order ho cfg hst F hp hmc τ mem mem' k k' fuel es
      (fun init t hm => hf init t (List.mem_cons_of_mem _ hm)) x y hxy

/-- **C96, from the start.** A filter without features is started at `t`, the same filter at `t + τ`. -/
theorem C96_start (I : USet) (hI : I.Lawful) (order : Finset (Fin n) → List (Fin n)) (ho : ∀ S, ∀ i, i ∈ order S ↔ i ∈ S) (cfg : Cfg)
    (hst : -1 ≤ cfg.minAbsST) (F : Full n nCam nPose) (hp : Even F.base.p) (hmc : ∀ c, (F.mc.cams c).WF) (τ : ℝ)
    (mem mem' : FSt n nCam nPose → Mem) (k k' : ℝ → Slot MLP → Mem) (fuel : ℕ) (es : List (Happening n nCam nPose)) (hf : Fresh es)
    (init : FSt n nCam nPose) (hi : ∀ i, init.valid i = false) (t : ℝ) (r : FSt n nCam nPose)
    (hr : run I order cfg F mem k fuel es { init with t := t } = some r) :
    ∃ r', run I order cfg (laterFull τ F) mem' k' fuel (es.map (laterHappening τ)) { init with t := t + τ } = some r' ∧
      here r' = here r ∧ r'.cov = r.cov ∧ r'.t = r.t + τ ∧ ∀ i, r'.valid i = r.valid i := by
  have h := C96_run I hI order ho cfg hst F hp hmc τ mem mem' k k' fuel es hf { init with t := t } { init with t := t + τ }
    ⟨rfl, rfl, ⟨fun i => ⟨rfl, rfl, rfl, fun hv => by
      have : init.valid i = true := hv
      rw [hi i] at this
      simp at this⟩, rfl⟩, fun i => ⟨⟨rfl, rfl, rfl⟩, fun hv => by
      have : init.valid i = true := hv
      rw [hi i] at this
      simp at this⟩, rfl, rfl, rfl, rfl, rfl, rfl, rfl, rfl⟩
  rw [hr] at h
  generalize hl : run I order cfg (laterFull τ F) mem' k' fuel (es.map (laterHappening τ)) { init with t := t + τ } = l at h
  cases h with
  | some h => exact ⟨_, rfl, (here_same (back_same h)).symm, (Eq.symm h.cov), h.t, fun i => (h.fsm.slots i).valid.symm⟩

/-! ### Non-vacuity -/

/-- A filter with three features processes an image at 6, the same filter a year (or any other time) later: both runs are defined and end in the same
estimate. -/
example (F : Full 3 2 1) (C : Fin 2 → Camera) (f : V3 → Nor) (g : V2 → Nor) (x : State 3 2 1) (prev : Fin 2 → List Level) (P : Cov 3 2 1) (q : MLP)
    (m m' : Mem) (τ : ℝ) : ∃ fuel r r', run AddArgs.listUSet (fun S => (List.finRange 3).filter (· ∈ S)) (demoCfg true true) (demoFull F C f g)
        (fun _ => m) (fun _ _ => m) fuel [.image 6] (demoFSt x prev P q) = some r ∧
      run AddArgs.listUSet (fun S => (List.finRange 3).filter (· ∈ S)) (demoCfg true true) (laterFull τ (demoFull F C f g))
        (fun _ => m') (fun _ _ => m') fuel [.image (6 + τ)] { demoFSt x prev P q with t := (demoFSt x prev P q).t + τ, ext := fun i => laterExt τ ((demoFSt x prev P q).ext i) } = some r' ∧
      r.w = r'.w ∧ r.cov = r'.cov ∧ ∀ i, (r.fsm.slots i).coord = (r'.fsm.slots i).coord := by
  obtain ⟨fuel, r, h1, _⟩ := C35_image_update_total AddArgs.listUSet_lawful (demo_order 3) (demoCfg true true)
    ((demoFull F C f g).env (fun _ => m) (fun _ _ => m)) (by norm_num)
    (fun s c => ⟨by simp [Full.env, Full.detect, demoFull], by simp [Full.env, Full.detect, demoFull], by simp [Full.env, Full.detect, demoFull],
      by simp [Full.env, Full.detect, demoFull]; norm_num, by simp [Full.env, Full.detect, demoFull]; norm_num⟩)
    (by simp only [demoCfg]; norm_num) (by simp only [demoCfg]; norm_num) (by simp only [demoCfg]; norm_num)
    (by simp only [demoCfg]; norm_num) (by simp only [demoCfg]; norm_num) (by norm_num)
    { demoFSt x prev P q with t := 6 }
    ⟨fun i _ => by simp [demoFSt, demoFC, St.camID], fun i => (demo_wf 3 2 (fun _ => true) (fun _ => 0) (by simp)).2 i⟩
  have hr : run AddArgs.listUSet (fun S => (List.finRange 3).filter (· ∈ S)) (demoCfg true true) (demoFull F C f g)
      (fun _ => m) (fun _ _ => m) fuel [.image 6] (demoFSt x prev P q) = some r := by
    unfold run
    rw [List.foldlM_cons]
    simp only [step]
    rw [h1 fuel le_rfl]
    rfl
  have h := C96_run AddArgs.listUSet AddArgs.listUSet_lawful (fun S => (List.finRange 3).filter (· ∈ S)) (by simp) (demoCfg true true)
    (by simp only [demoCfg]; norm_num) (demoFull F C f g) (by simp only [demoFull]; decide) (fun c => C09_camera_is_wf _ _ _) τ
    (fun _ => m) (fun _ => m') (fun _ _ => m) (fun _ _ => m') fuel [.image 6] (by intro init t h; simp at h) (demoFSt x prev P q)
    { demoFSt x prev P q with t := (demoFSt x prev P q).t + τ, ext := fun i => laterExt τ ((demoFSt x prev P q).ext i) }
    ⟨rfl, rfl, ⟨fun i => ⟨rfl, rfl, rfl, fun _ => ⟨fun _ _ => rfl, fun i _ => ⟨fun _ _ => rfl, fun _ _ => rfl, rfl, fun _ _ _ => rfl, fun _ _ _ => rfl,
      fun _ => rfl, fun _ => rfl, fun _ => rfl, fun _ => rfl⟩, rfl, rfl, rfl, rfl⟩⟩, rfl⟩, fun i => ⟨⟨rfl, rfl, rfl⟩, fun _ => rfl⟩, rfl, rfl, rfl, rfl, rfl,
      rfl, rfl, rfl⟩
  rw [hr] at h
  generalize hl : run AddArgs.listUSet (fun S => (List.finRange 3).filter (· ∈ S)) (demoCfg true true) (laterFull τ (demoFull F C f g))
    (fun _ => m') (fun _ _ => m') fuel ([Happening.image 6].map (laterHappening τ))
    { demoFSt x prev P q with t := (demoFSt x prev P q).t + τ, ext := fun i => laterExt τ ((demoFSt x prev P q).ext i) } = l at h
  cases h with
  | some h => exact ⟨fuel, r, _, hr, hl, h.w, h.cov, fun i => (h.fsm.slots i).coord⟩

end ImgFull

namespace Node

variable {nCam : ℕ} {Im : Type}

/-- The members of the node later by `τ`: the stamp of the set being collected counts only if an image is in it. -/
structure LaterNode (τ : ℝ) (s s' : St nCam Im) : Prop where
  init : s'.init = s.init
  WrWM : s'.WrWM = s.WrWM
  qMW : s'.qMW = s.qMW
  pyr : s'.pyr = s.pyr
  valid : s'.valid = s.valid
  pose : s'.pose = s.pose
  time : s'.imgTime = s.imgTime + τ ∨ ∀ c, s.valid c = false

lemma later_imgCallback {τ : ℝ} {s s' : St nCam Im} (h : LaterNode τ s s') (c : Fin (nCam + 1)) (im : Option Im) (t : ℝ) :
    LaterNode τ (s.imgCallback c im t).1 (s'.imgCallback c im (t + τ)).1 ∧
      (s'.imgCallback c im (t + τ)).2 = (s.imgCallback c im t).2.map (laterCall τ) := by
  cases im with
  | none => exact ⟨h, rfl⟩
  | some im =>
    simp only [St.imgCallback]
    rw [h.init]
    by_cases hi : s.init = .initialized
    · simp only [if_pos hi]
      have hs : (s.store c im t).pyr = (s'.store c im (t + τ)).pyr ∧ (s.store c im t).valid = (s'.store c im (t + τ)).valid ∧
          (s.store c im t).imgTime = t ∧ (s'.store c im (t + τ)).imgTime = t + τ := by
        simp only [St.store]
        by_cases h1 : t = s.imgTime
        · by_cases h2 : t + τ = s'.imgTime
          · simp [h1, ← h2, h.pyr, h.valid]
          · have hv := h.time.resolve_left fun h3 => h2 (by rw [h3, h1])
            have hv : s.valid = fun _ => false := funext hv
            rw [if_neg (by simpa using h1), if_pos h2]
            exact ⟨by rw [← h.pyr]; rfl, by simp only [St.resetSet, hv], h1.symm, rfl⟩
        · by_cases h2 : t + τ = s'.imgTime
          · have hv := h.time.resolve_left fun h3 => h1 (by linarith)
            have hv : s.valid = fun _ => false := funext hv
            simp [h1, ← h2, h.pyr, h.valid, hv, St.resetSet]
          · simp [h1, h2, h.pyr, St.resetSet]
      obtain ⟨hs1, hs2, hs3, hs4⟩ := hs
      have hall : (s'.store c im (t + τ)).allValid = (s.store c im t).allValid := by simp only [St.allValid, hs2]
      have hrest : (s.store c im t).init = s.init ∧ (s.store c im t).WrWM = s.WrWM ∧ (s.store c im t).qMW = s.qMW ∧ (s.store c im t).pose = s.pose := by
        simp only [St.store]; split <;> exact ⟨rfl, rfl, rfl, rfl⟩
      have hrest' : (s'.store c im (t + τ)).init = s'.init ∧ (s'.store c im (t + τ)).WrWM = s'.WrWM ∧ (s'.store c im (t + τ)).qMW = s'.qMW ∧
          (s'.store c im (t + τ)).pose = s'.pose := by
        simp only [St.store]; split <;> exact ⟨rfl, rfl, rfl, rfl⟩
      obtain ⟨e1, e2, e3, e4⟩ := hrest
      obtain ⟨f1, f2, f3, f4⟩ := hrest'
      rw [hall]
      by_cases ha : (s.store c im t).allValid = true
      · simp only [if_pos ha]
        refine ⟨⟨?_, ?_, ?_, hs1.symm, rfl, ?_, .inl rfl⟩, ?_⟩
        · exact f1.trans (h.init.trans e1.symm)
        · exact f2.trans (h.WrWM.trans e2.symm)
        · exact f3.trans (h.qMW.trans e3.symm)
        · exact f4.trans (h.pose.trans e4.symm)
        · simp [laterCall, hs1]
      · simp only [if_neg ha]
        refine ⟨⟨?_, ?_, ?_, hs1.symm, hs2.symm, ?_, .inl ?_⟩, rfl⟩
        · exact f1.trans (h.init.trans e1.symm)
        · exact f2.trans (h.WrWM.trans e2.symm)
        · exact f3.trans (h.qMW.trans e3.symm)
        · exact f4.trans (h.pose.trans e4.symm)
        · rw [hs3, hs4]
    · simp only [if_neg hi]
      exact ⟨h, rfl⟩

lemma later_step {τ : ℝ} (off : ℝ) {s s' : St nCam Im} (h : LaterNode τ s s') (e : Ev Im) :
    LaterNode τ (St.step off s e).1 (St.step off s' (laterEv τ e)).1 ∧ (St.step off s' (laterEv τ e)).2 = (St.step off s e).2.map (laterCall τ) := by
  obtain ⟨i1, i2, i3, i4, i5, i6, i7⟩ := id h
  cases e with
  | imu acc gyr t =>
    simp only [St.step, laterEv, St.imuCallback, i1]
    cases hi : s.init
    · exact ⟨⟨rfl, i2, i3, i4, i5, i6, i7⟩, rfl⟩
    · exact ⟨⟨rfl, i2, i3, i4, i5, i6, i7⟩, by simp [laterCall, i2, i3]⟩
    · exact ⟨h, rfl⟩
  | image cam1 im t =>
    simp only [St.step, laterEv]
    cases cam1
    · simp only [Bool.false_eq_true, if_false]
      exact later_imgCallback h 0 im t
    · simp only [if_true]
      by_cases hc : 1 < nCam + 1
      · simp only [dif_pos hc]; exact later_imgCallback h _ im t
      · simp only [dif_neg hc]; exact ⟨h, rfl⟩
  | transform pos q t =>
    simp only [St.step, laterEv, St.transformCallback, i1]
    by_cases hi : s.init = .initialized
    · simp only [if_pos hi]
      refine ⟨⟨rfl, i2, i3, i4, i5, by rw [i6], i7⟩, ?_⟩
      simp [laterCall, i6]; ring
    · simp only [if_neg hi]; exact ⟨h, rfl⟩
  | odometry pos q cov t =>
    simp only [St.step, laterEv, St.odometryCallback, i1]
    by_cases hi : s.init = .initialized
    · simp only [if_pos hi]
      refine ⟨⟨rfl, i2, i3, i4, i5, rfl, i7⟩, ?_⟩
      simp [laterCall]; ring
    · simp only [if_neg hi]; exact ⟨h, rfl⟩
  | velocity v t =>
    simp only [St.step, laterEv, i1]
    by_cases hi : s.init = .initialized
    · simp only [if_pos hi]; exact ⟨h, rfl⟩
    · simp only [if_neg hi]; exact ⟨h, rfl⟩
  | reset =>
    simp only [St.step, laterEv, St.requestReset, i1]
    split_ifs <;> exact ⟨⟨by first | rfl | exact i1, i2, i3, i4, i5, i6, i7⟩, rfl⟩
  | resetToPose pos q =>
    simp only [St.step, laterEv, St.requestResetToPose, i1]
    split_ifs <;> exact ⟨⟨by first | rfl | exact i1, by first | rfl | exact i2, by first | rfl | exact i3, i4, i5, i6, i7⟩, rfl⟩

lemma later_run {τ : ℝ} (off : ℝ) : ∀ (es : List (Ev Im)) {s s' : St nCam Im}, LaterNode τ s s' →
    (St.run off s' (es.map (laterEv τ))).2 = (St.run off s es).2.map (laterCall τ)
  | [], _, _, _ => rfl
  | e :: es, s, s', h => by
    have h1 := later_step off h e
    simp only [List.map_cons, St.run, List.map_append]
    rw [h1.2, later_run off es h1.1]

/-- **C96, node.** The node passes the same measurements on at times later by `τ`, from its construction on, although it is constructed with the stamp 0
for the image set: every message, every number of them, any order of stamps. -/
theorem C96_node (τ off : ℝ) (qMW : Quat) (pose : PoseMeas) (es : List (Ev Im)) :
    (St.run off (St.construct qMW pose : St nCam Im) (es.map (laterEv τ))).2 = (St.run off (St.construct qMW pose) es).2.map (laterCall τ) :=
  later_run off es ⟨rfl, rfl, rfl, rfl, rfl, rfl, .inr fun _ => rfl⟩

/-- A node that starts up, collects the images of two cameras at the same stamp (0, the stamp it is constructed with) and passes them on. -/
example (τ : ℝ) (qMW : Quat) (pose : PoseMeas) (im im' : Im) (acc gyr : V3) :
    ((St.run 0 (St.construct qMW pose : St 1 Im) [.imu acc gyr 0, .image false (some im) 0, .image true (some im') 0]).2.map (laterCall τ)).length = 3 := by
  simp [St.run, St.step, St.imuCallback, St.imgCallback, St.construct, St.store, St.allValid, Fin.forall_fin_two, Function.update]

end Node

end Rovio
