import Verif.Lemmas.Mounting
import Verif.Props.ImgSees
import Verif.Props.OutputCov

/-!
# Property C105: without online calibration the estimated mounting of the cameras has no influence

The filter state always holds estimates of the camera mounting, with covariance, correlations and process noise.  If online calibration is off, the configured mounting is
used, and whatever these estimates are has no influence on anything else.
-/

namespace Rovio.ImgFull

open Rovio.Spec Rovio.Img Matrix

variable {n nCam nPose : ℕ}

lemma keeps_of {o : State n nCam nPose → Cov n nCam nPose → Option (Rovio.FSt n nCam nPose)} {o' : State n nCam nPose → Cov n nCam nPose → Option (Rovio.FSt n nCam nPose)}
    (h : ∀ x y P Q, IdleX x y → IdleP P Q → Both (fun z z' => IdleX z.s z'.s ∧ IdleP z.P z'.P ∧ z.u = z'.u) (o x P) (o' y Q)) :
    StepKeeps IdleX IdleP (fun x P => keepOr (o x P) x P) fun x P => keepOr (o' x P) x P :=
  fun x y P Q hx hP => keepOr_keeps hx hP ((h x y P Q hx hP).mono fun _ _ h => ⟨h.1, h.2.1⟩)

lemma ekf_idle (gate : Gate 2) (R : Matrix (Fin 2) (Fin 2) ℝ) (u : PoseUpd nPose) : UpdateKeeps (n := n) (nCam := nCam) IdleX IdleP (ekf gate R u) :=
  ekf_keeps unnoticed_idle fun v H hH x y P Q hx hP =>
    (finish_idle (gate := gate) (v := v) (R := R) (u := u) (fun r b hb => hH r b (by cases b <;> first | rfl | cases hb)) (fun _ _ h => h) hx hP).mono fun _ _ h => ⟨h.1, h.2.1⟩

lemma idle_iff {p l : ℕ} {a b : FSt n nCam nPose} : IdleApart p l a b ↔ SimBy (seenRels p l IdleX IdleP) a b := by
  constructor
  · rintro ⟨h1, h2, h⟩
    have e : ({ a.w with x := b.w.x } : World n nCam nPose) = b.w := h.w
    exact ⟨⟨h1, by rw [← e], by rw [← e]⟩, h2, h.fsm, fun i => congrFun h.ext i, h.meas, h.id, h.cam, h.t, h.imageCounter, h.sinceImage, h.sinceInertial, h.log⟩
  · intro h
    obtain ⟨h1, h2, h3⟩ := h.w
    refine ⟨h1, h.cov, ⟨?_, rfl, h.fsm, funext h.ext, h.meas, h.id, h.cam, h.t, h.imageCounter, h.sinceImage, h.sinceInertial, h.log⟩⟩
    show ({ a.w with x := b.w.x } : World n nCam nPose) = b.w
    dsimp only
    rw [h2, h3]

/-- **C105, from pixels.** Two filters without online calibration process the same IMU measurements, velocities and images, in any order and number, and are reset at the
same times.  They may start with (and be reset to) different estimates of the camera mounting, with different uncertainty of it and correlations to everything else, and
their configured process noise of the mounting may be different.  Then either both runs are undefined or they end with the same estimates, the same covariance, the
same features, patches, statistics and matches; only the estimated mounting, its covariance and correlations may differ. -/
theorem C105_pixels (I : USet) (hI : I.Lawful) (order : Finset (Fin n) → List (Fin n)) (ho : ∀ S, ∀ i ∈ order S, i ∈ S) (cfg : Cfg)
    (hst : -1 ≤ cfg.minAbsST) (F : Full n nCam nPose) (hp : Even F.base.p) (hmc : ∀ c, (F.mc.cams c).WF) (fcfg fcfg' : FCfg n nCam nPose) (hc : IdleCfg fcfg fcfg')
    (gate : Gate 2) (R : Matrix (Fin 2) (Fin 2) ℝ) (u : PoseUpd nPose) (mem mem' : FSt n nCam nPose → Mem) (k k' : ℝ → Slot MLP → Mem) (fuel : ℕ)
    (es es' : List (Input n nCam nPose)) (hes : List.Forall₂ (IdleInput F.base.p F.base.start) es es') (a b : FSt n nCam nPose)
    (h : IdleApart F.base.p F.base.start a b) :
    Both (IdleApart F.base.p F.base.start) (life I order cfg F fcfg gate R u mem k fuel es a) (life I order cfg F fcfg' gate R u mem' k' fuel es' b) := by
  have hz : zeroUpdate fcfg u = zeroUpdate fcfg' u := by
    funext x P
    unfold zeroUpdate Rovio.FSt.zeroVel
    rw [← hc.rest]
  have hF : F.withFilter fcfg gate R u = F.withFilter fcfg' gate R u := by
    unfold Full.withFilter
    rw [hz]
  have hpred : fcfg.pred = fcfg'.pred := by rw [← hc.rest]
  unfold life
  rw [hF]
  have hc' : IdleCfg fcfg' fcfg' := ⟨rfl, fun _ _ => rfl⟩
  have := run_seen unnoticed_idle I hI order ho cfg hst (F.withFilter fcfg' gate R u) hp hmc (initOk_true _) (ekf_idle gate R u)
    (fun _ => keeps_of (o := fun x P => Rovio.FSt.zeroVel fcfg' (fun _ => true) ⟨x, P, u⟩) fun x y P Q hx hP => zeroVel_idle hc' u hx hP) mem mem' k k' fuel
    (es := es.map (Input.happening fcfg u)) (es' := es'.map (Input.happening fcfg' u))
    (by
      rw [List.forall₂_map_left_iff, List.forall₂_map_right_iff]
      refine hes.imp fun e e' he => ?_
      cases he with
      | imu m dt =>
        refine .filter _ _ _ _ _ (keeps_of fun x y P Q hx hP => predict_idle hc m dt u hx hP) fun x y hxy => ?_
        rw [hpred]
        have := evalPrediction_idle hxy fcfg'.pred m (DState.ofFn 0) dt
        revert this
        generalize x.evalPrediction fcfg'.pred m true x (DState.ofFn 0) dt = z
        generalize y.evalPrediction fcfg'.pred m true y (DState.ofFn 0) dt = z'
        intro h
        cases h with
        | none => exact motion_idle hxy _ _
        | some h => exact motion_idle h _ _
      | velocity v => exact .filter _ _ _ _ _ (keeps_of fun x y P Q hx hP => velocity_idle hc v u hx hP) fun _ _ _ => rfl
      | image t => exact .image t
      | reset i j t h he => exact .reset _ _ _ (idle_iff.1 h) he)
    a b (idle_iff.1 h)
  exact this.mono fun _ _ h => idle_iff.2 h

end Rovio.ImgFull

namespace Rovio

open Spec Matrix

variable {n nCam nPose : ℕ}

lemma preProcess_idle {u : PoseUpd nPose} {meas : PoseMeas} {x y : State n nCam nPose} (h : IdleX x y) :
    (u.preProcess meas x).1 = (u.preProcess meas y).1 ∧ IdleX (u.preProcess meas x).2 (u.preProcess meas y).2 := by
  obtain ⟨p, q, rfl⟩ := h.split
  unfold PoseUpd.preProcess PoseUpd.align
  by_cases hd : u.didAlign = false ∧ u.doAlign = true
  · simp only [if_pos hd]
    cases u with
    | mk inertial body =>
      cases inertial <;> cases body <;> exact ⟨rfl, h.off, rfl⟩
  · simp only [if_neg hd]
    exact ⟨trivial, h⟩

/-- **C105, poses.** A pose update of two filters that differ in the estimated mounting only: either both are undefined or the results differ in the estimated mounting, its
covariance and correlations only. -/
theorem C105_pose {cfg cfg' : FCfg n (nCam + 1) nPose} (hc : IdleCfg cfg cfg') (meas : PoseMeas) (u : PoseUpd nPose) {x y : State n (nCam + 1) nPose}
    {P Q : Cov n (nCam + 1) nPose} (hx : IdleX x y) (hP : IdleP P Q) :
    Both (fun z z' => IdleX z.s z'.s ∧ IdleP z.P z'.P ∧ z.u = z'.u) (FSt.pose cfg meas ⟨x, P, u⟩) (FSt.pose cfg' meas ⟨y, Q, u⟩) := by
  obtain ⟨h1, h2⟩ := preProcess_idle (u := u) (meas := meas) hx
  unfold FSt.pose
  rw [← hc.rest]
  dsimp only
  rw [h1]
  generalize (u.preProcess meas x).2 = s at h2 ⊢
  generalize (u.preProcess meas y).2 = s' at h2 ⊢
  generalize (u.preProcess meas y).1 = u'
  have e1 : u'.innov meas s = u'.innov meas s' := by obtain ⟨p, q, rfl⟩ := h2.split; rfl
  have e2 : u'.jacState s = u'.jacState s' := by obtain ⟨p, q, rfl⟩ := h2.split; rfl
  rw [e1, e2]
  refine finish_idle (fun r b hb => ?_) (fun z z' hz => ?_) h2 hP
  · have hm := DState.mounting_unit hb
    have ht : ∀ (A B : M3) (δ : Fin nPose → V3), (∀ k, δ k = 0) → PoseUpd.twoBlocks u'.inertial u'.body A B δ = 0 := fun A B δ h => by
      unfold PoseUpd.twoBlocks
      cases u'.inertial <;> cases u'.body <;> simp only [h, M3.mulVec_zero', ite_self, V3.add_zero']
    have ho : ∀ (A : M3) (δ : Fin nPose → V3), (∀ k, δ k = 0) → PoseUpd.oneBlock u'.inertial A δ = 0 := fun A δ h => by
      unfold PoseUpd.oneBlock
      cases u'.inertial <;> simp only [h, M3.mulVec_zero']
    simp only [Matrix.of_apply, PoseUpd.jacState, ht _ _ _ hm.pop, ht _ _ _ hm.poa, ho _ _ hm.poa, hm.pos, hm.att, M3.mulVec_zero', V3.add_zero', ite_self]
    unfold DPose.row
    cases poseRow r <;> exact V3.at_zero _
  · have hM := State.MrMC_scene hz.scene
    have hq := State.qCM_scene hz.scene
    obtain ⟨p, q, rfl⟩ := hz.split
    unfold PoseUpd.postProcess
    rw [hM, hq]
    exact ⟨hz.off, rfl⟩

/-- **C105, outputs.** The published pose and velocity of the IMU and of every camera, and their covariances, do not depend on the estimated mounting. -/
theorem C105_outputs {x y : State n nCam nPose} {P Q : Cov n nCam nPose} (hx : IdleX x y) (hP : IdleP P Q) :
    x.imuOut = y.imuOut ∧ x.stdCov x.imuJac P = y.stdCov y.imuJac Q ∧ (∀ c, x.camOut c = y.camOut c) ∧ ∀ c, x.stdCov (x.camJac c) P = y.stdCov (y.camJac c) Q := by
  have hM := State.MrMC_scene hx.scene
  have hq := State.qCM_scene hx.scene
  have hcov : ∀ J : DState n nCam nPose → DStdOut, (∀ δ : DState n nCam nPose, δ.Mounting → J δ = ⟨0, 0, 0, 0⟩) →
      State.stdMat J * P * (State.stdMat J)ᵀ = State.stdMat J * Q * (State.stdMat J)ᵀ := fun J hJ => by
    have h0 : ∀ r, True → ∀ a, a.isMounting = true → State.stdMat J r a = 0 := fun r _ a ha => by
      unfold State.stdMat
      rw [hJ _ (DState.mounting_unit ha)]
      cases r <;> exact V3.at_zero _
    ext r s
    exact mul_idle hP h0 h0 trivial trivial
  obtain ⟨p, q, rfl⟩ := hx.split
  have e1 : State.imuJac { y with vep := p, vea := q } = y.imuJac := rfl
  have e2 : ∀ c, State.camJac { y with vep := p, vea := q } c = y.camJac c := fun c => by
    funext δ
    unfold State.camJac
    simp only [hM, hq]
  refine ⟨rfl, ?_, fun c => ?_, fun c => ?_⟩
  · unfold State.stdCov
    rw [e1, hcov]
    · rfl
    · intro δ hδ
      simp only [State.imuJac, hδ.pos, hδ.att, hδ.vel, hδ.gyb, M3.mulVec_zero']
  · unfold State.camOut
    simp only [hM, hq]
  · unfold State.stdCov
    rw [e2, hcov]
    · rfl
    · intro δ hδ
      have := hx.off
      simp only [State.camJac, hδ.pos, hδ.att, hδ.vel, hδ.gyb, M3.mulVec_zero', this, Bool.false_eq_true, if_false, V3.add_zero']

/-- **C105, exception (finding).** The covariance in the message of the camera mounting is that of the estimate that is not used, while the mounting in the message is the
configured one: filters that agree in everything that is used publish different covariances of the same mounting. -/
theorem C105_finding_message (c : Fin nCam) : ∃ P Q : Cov n nCam nPose, IdleP P Q ∧ State.extrinsicsArray P c 0 ≠ State.extrinsicsArray Q c 0 := by
  classical
  refine ⟨0, Matrix.single (.vep c 0) (.vep c 0) 1, fun a b ha hb => ?_, fun h => ?_⟩
  · rw [Matrix.single_apply_of_ne _ _ _ _ _ (by rintro ⟨rfl, -⟩; cases ha)]; rfl
  · obtain ⟨a, h1, h2⟩ := C75_extrinsics (0 : Cov n nCam nPose) c 0
    obtain ⟨b, h3, h4⟩ := C75_extrinsics (Matrix.single (.vep c 0) (.vep c 0) 1 : Cov n nCam nPose) c 0
    rw [h1, h3, Option.some.injEq] at h
    subst h
    have := (h2 0 0).1.symm.trans (h4 0 0).1
    beta_reduce at this
    rw [Matrix.single_apply_same] at this
    exact zero_ne_one this

/-! ## Non-vacuity -/

namespace ImgFull

open Img

/-- The second filter has other ideas of the mounting of its cameras: it processes an image with the same result as the first. -/
example (F : Full 3 2 1) (C : Fin 2 → Camera) (f : V3 → Nor) (g : V2 → Nor) (fcfg fcfg' : FCfg 3 2 1) (hc : IdleCfg fcfg fcfg') (gate : Gate 2)
    (R : Matrix (Fin 2) (Fin 2) ℝ) (u : PoseUpd 1) (x y : State 3 2 1) (hx : IdleX x y) (prev : Fin 2 → List Level) (P Q : Cov 3 2 1) (hP : IdleP P Q) (q : MLP) (m m' : Mem) :
    ∃ fuel r r', life AddArgs.listUSet (fun S => (List.finRange 3).filter (· ∈ S)) (zvCfg true) (demoFull F C f g) fcfg gate R u
        (fun _ => m) (fun _ _ => m) fuel [.image 6] (demoFSt x prev P q) = some r ∧
      life AddArgs.listUSet (fun S => (List.finRange 3).filter (· ∈ S)) (zvCfg true) (demoFull F C f g)
        fcfg' gate R u (fun _ => m') (fun _ _ => m') fuel [.image 6] (demoFSt y prev Q q) = some r' ∧
      r.w.x.fea = r'.w.x.fea ∧ r.ext = r'.ext ∧ (∀ k l, r.cov (.pos k) (.pos l) = r'.cov (.pos k) (.pos l)) := by
  have hs : IdleApart 8 3 (demoFSt x prev P q) (demoFSt y prev Q q) := ⟨hx, hP, sameBy_refl _ _ _⟩
  obtain ⟨fuel, r, hr⟩ := demo_life F C f g fcfg gate R u true m { demoFSt x prev P q with t := 6 } (demoFSt_wf x prev P q 6)
  have hl : life AddArgs.listUSet (fun S => (List.finRange 3).filter (· ∈ S)) (zvCfg true) (demoFull F C f g) fcfg gate R u
        (fun _ => m) (fun _ _ => m) fuel [.image 6] (demoFSt x prev P q) = some r := by
    unfold life run
    simp only [List.map_cons, List.map_nil, Input.happening, List.foldlM_cons, step, Option.bind_eq_bind]
    dsimp only at hr
    rw [hr]
    rfl
  have h := C105_pixels AddArgs.listUSet AddArgs.listUSet_lawful (fun S => (List.finRange 3).filter (· ∈ S)) (by simp) (zvCfg true)
    (by simp only [zvCfg, demoCfg]; norm_num) (demoFull F C f g) (by simp only [demoFull]; decide) (fun c => C09_camera_is_wf _ _ _) fcfg
    fcfg' hc gate R u
    (fun _ => m) (fun _ => m') (fun _ _ => m) (fun _ _ => m') fuel [.image 6] [.image 6] (.cons (.image 6) .nil) _ _ hs
  rw [hl] at h
  refine ⟨fuel, r, ?_⟩
  generalize life AddArgs.listUSet (fun S => (List.finRange 3).filter (· ∈ S)) (zvCfg true) (demoFull F C f g)
        fcfg' gate R u (fun _ => m') (fun _ _ => m') fuel [.image 6] (demoFSt y prev Q q) = l at h
  cases h with
  | some h => exact ⟨_, hl, rfl, h.x.scene.fea, h.rest.ext, fun k l => h.cov _ _ rfl rfl⟩

/-- Such estimates, covariances and configurations: the second filter believes that its cameras are five metres away from where they are configured to be, is unsure by a metre,
correlates that with its position, and has process noise for it. -/
example (x : State 3 2 1) (hx : x.aux.doVE = false) (P : Cov 3 2 1) (fcfg : FCfg 3 2 1) :
    IdleX x { x with vep := fun _ => ⟨5, 0, 0⟩ } ∧ IdleP P (P + Matrix.single (.vep 0 0) (.vep 0 0) 1 + Matrix.single (.vep 0 0) (.pos 0) 0.5) ∧
      IdleCfg fcfg { fcfg with q := fun a => if a.isMounting then 7 else fcfg.q a } := by
  refine ⟨⟨hx, rfl⟩, fun a b ha hb => ?_, ⟨rfl, fun a ha => by simp [ha]⟩⟩
  rw [Matrix.add_apply, Matrix.add_apply, Matrix.single_apply_of_ne _ _ _ _ _ (by rintro ⟨rfl, -⟩; cases ha),
      Matrix.single_apply_of_ne _ _ _ _ _ (by rintro ⟨rfl, -⟩; cases ha), add_zero, add_zero]

end ImgFull

end Rovio
