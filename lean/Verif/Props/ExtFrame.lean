import Verif.Lemmas.ExtFrame
import Verif.Props.Gauge

/-!
# Property C101: the frame of the external poses is arbitrary

External poses (motion capture, wheel odometry, another estimator) are given in a frame of their own.  Expressing the same poses in another frame, turned
about any axis and with another origin, changes nothing in the odometry; only the estimated or configured pose of that frame is expressed differently.
-/

namespace Rovio

open Matrix Spec Distance

variable {n nCam nPose : ℕ}

lemma FSt.run_cons (cfg : FCfg n (nCam + 1) nPose) (x : FSt n (nCam + 1) nPose) (e : Step n (nCam + 1) nPose) (es : List (Step n (nCam + 1) nPose)) :
    x.run cfg (e :: es) = (x.step cfg e).bind fun z => z.run cfg es := by
  unfold FSt.run
  rw [List.foldlM_cons]; rfl

/-- **C101.** Two filters that differ by the frame of the external poses receive the same IMU measurements, images and velocities, and the same poses
expressed in their frames.  Then both runs are undefined, or both end in states that differ by the frame only. -/
theorem C101_run (h : ExtFrame) (hq : h.q.IsUnit) (cfg : FCfg n (nCam + 1) nPose) (hg : AxisFree cfg.gateP) :
    ∀ (es : List (Step n (nCam + 1) nPose)) (x y : FSt n (nCam + 1) nPose), ExtFrame.Apart x.u → SameInAllDirections x.u.defaultNoise →
      (∀ j l l', x.u.inertial = some j → cfg.q (.pop j l) = cfg.q (.pop j l')) → h.Moved x y →
      Both h.Moved (x.run cfg es) (y.run cfg (es.map h.step))
  | [], _, _, _, _, _, hm => .some hm
  | e :: es, x, y, ha, hD, hn, hm => by
    rw [List.map_cons, FSt.run_cons, FSt.run_cons]
    have hs := ExtFrame.step_moved hq cfg hg hn ha hD hm e
    have hk := fun z => ExtFrame.step_kept (cfg := cfg) (x := x) (z := z) (e := e)
    revert hs hk
    generalize x.step cfg e = a
    generalize y.step cfg (h.step e) = b
    intro hs hk
    cases hs with
    | none => exact .none
    | some hs =>
      have k := hk _ rfl
      exact C101_run h hq cfg hg es _ _ (k.apart ha) (by rw [k.noise]; exact hD) (fun j l l' hj => hn j l l' (by rw [← k.inertial]; exact hj)) hs

/-- **C101, outputs.** What the two filters report: the odometry (state and covariance without the additional poses, camera poses, features, timers, the
recorded external pose, which is given in the world frame) is identical; the other additional poses are identical; the estimated pose of the frame is the same pose, expressed in the other
frame. -/
theorem C101_outputs (h : ExtFrame) (x y : FSt n nCam nPose) (hm : h.Moved x y) :
    y.s.odo = x.s.odo ∧ y.P.odo = x.P.odo ∧ (∀ c, y.s.WrWC c = x.s.WrWC c) ∧ (∀ c, y.s.qCW c = x.s.qCW c) ∧ y.s.fea = x.s.fea ∧ y.s.aux = x.s.aux ∧
    (∀ j, x.u.inertial ≠ some j → y.s.pop j = x.s.pop j ∧ y.s.poa j = x.s.poa j) ∧
    (∀ j, x.u.inertial = some j → y.s.pop j = h.q.rotate (x.s.pop j) + h.t ∧ y.s.poa j = x.s.poa j * h.q.inv) ∧
    ∀ a b : Ix n nCam nPose, (∀ j k, x.u.inertial = some j → a ≠ .pop j k ∧ b ≠ .pop j k) → y.P a b = x.P a b := by
  have ho : ∀ a : Ix n nCam nPose, (∀ j k, x.u.inertial = some j → a ≠ .pop j k) → ExtFrame.hit x.u.inertial a = false := fun a ha => by
    cases hh : ExtFrame.hit x.u.inertial a with
    | false => rfl
    | true =>
      obtain ⟨j, l, rfl, e⟩ := ExtFrame.hit_iff.mp hh
      exact absurd rfl (ha j l e)
  rw [hm.s, hm.P]
  refine ⟨rfl, ExtFrame.odo_cov _ _ _, fun _ => rfl, fun _ => rfl, rfl, rfl, fun j hj => ?_, fun j hj => ?_, fun a b hab => ?_⟩
  · simp only [ExtFrame.state, if_neg hj, and_self]
  · simp only [ExtFrame.state, if_pos hj]
    exact ⟨rfl, rfl⟩
  · exact ExtFrame.cov_other x.P (ho a fun j k hj => (hab j k hj).1) (ho b fun j k hj => (hab j k hj).2)

/-- Before the first pose the filters may disagree about the frame; the first pose settles it. -/
theorem Spec.ExtFrame.start (h : ExtFrame) (hq : h.q.IsUnit) (cfg : FCfg n (nCam + 1) nPose) (hg : AxisFree cfg.gateP) :
    ∀ (es : List (Step n (nCam + 1) nPose)) (x z y : FSt n (nCam + 1) nPose), ExtFrame.Apart x.u → SameInAllDirections x.u.defaultNoise →
      (∀ j l l', x.u.inertial = some j → cfg.q (.pop j l) = cfg.q (.pop j l')) → x.u.didAlign = false → x.u.doAlign = true → ExtFrame.Forget x z → h.Moved z y →
      Both (fun a b => b.s.odo = a.s.odo ∧ b.P.odo = a.P.odo ∧ ((∃ m, .pose m ∈ es) → h.Moved a b)) (x.run cfg es) (y.run cfg (es.map h.step))
  | [], x, z, y, _, _, _, _, _, hf, hm => by
    refine .some ⟨?_, ?_, fun ⟨m, hm⟩ => by cases hm⟩
    · rw [(C101_outputs h z y hm).1, hf.odo]
    · rw [(C101_outputs h z y hm).2.1, hf.P]
  | e :: es, x, z, y, ha, hD, hn, h1, h2, hf, hm => by
    have hu := hf.inertial
    have ha' : ExtFrame.Apart z.u := by rw [hf.u]; exact ha
    have hD' : SameInAllDirections z.u.defaultNoise := by rw [hf.u]; exact hD
    have hn' : ∀ j l l', z.u.inertial = some j → cfg.q (.pop j l) = cfg.q (.pop j l') := by rw [hu]; exact hn
    have hs := ExtFrame.step_moved hq cfg hg hn' ha' hD' hm e
    by_cases he : ∃ m, e = .pose m
    · obtain ⟨m, rfl⟩ := he
      have hp : z.step cfg (.pose m) = x.step cfg (.pose m) := ExtFrame.pose_forget cfg hf ha ⟨h1, h2⟩ m
      rw [hp] at hs
      rw [List.map_cons, FSt.run_cons, FSt.run_cons]
      have hk := fun w => ExtFrame.step_kept (cfg := cfg) (x := x) (z := w) (e := .pose m)
      revert hs hk
      generalize x.step cfg (.pose m) = a
      generalize y.step cfg (h.step (.pose m)) = b
      intro hs hk
      cases hs with
      | none => exact .none
      | some hs =>
        have k := hk _ rfl
        have hr := C101_run h hq cfg hg es _ _ (k.apart ha) (by rw [k.noise]; exact hD) (fun j l l' hj => hn j l l' (by rw [← k.inertial]; exact hj)) hs
        simp only [Option.bind_some]
        generalize FSt.run cfg _ es = r at hr ⊢
        generalize FSt.run cfg _ (List.map h.step es) = r' at hr ⊢
        cases hr with
        | none => exact .none
        | some hr =>
          have o := C101_outputs h _ _ hr
          exact .some ⟨o.1, o.2.1, fun _ => hr⟩
    · have he : ∀ m, e ≠ .pose m := fun m hm => he ⟨m, hm⟩
      have hsf := ExtFrame.step_forget cfg hf he
      have hk := fun w => ExtFrame.step_kept' (cfg := cfg) (x := x) (z := w) he
      rw [List.map_cons, FSt.run_cons, FSt.run_cons]
      revert hs hsf hk
      generalize x.step cfg e = a
      generalize z.step cfg e = c
      generalize y.step cfg (h.step e) = b
      intro hs hsf hk
      cases hs with
      | none => cases hsf; exact .none
      | some hs =>
        cases hsf with
        | some hsf =>
          have k := hk _ rfl
          have hr := Spec.ExtFrame.start h hq cfg hg es _ _ _ (by rw [k]; exact ha) (by rw [k]; exact hD) (by rw [k]; exact hn) (by rw [k]; exact h1)
            (by rw [k]; exact h2) hsf hs
          simp only [Option.bind_some]
          generalize FSt.run cfg _ es = r at hr ⊢
          generalize FSt.run cfg _ (List.map h.step es) = r' at hr ⊢
          cases hr with
          | none => exact .none
          | some hr =>
            refine .some ⟨hr.1, hr.2.1, fun ⟨m, hm⟩ => hr.2.2 ⟨m, ?_⟩⟩
            rcases List.mem_cons.mp hm with hm | hm
            · exact absurd hm.symm (he m)
            · exact hm

/-- **C101, start.** Nothing has to be known about the frame: two filters are started alike, with the automatic initial alignment and an initial
covariance without correlations that treats the directions of the frame alike, and receive the same poses expressed in two frames (or none at all).  Then
both runs are undefined, or the odometry and its covariance are identical, and as soon as a pose was received the filters differ by the frame only. -/
theorem C101_start (h : ExtFrame) (hq : h.q.IsUnit) (cfg : FCfg n (nCam + 1) nPose) (hg : AxisFree cfg.gateP) (s : State n (nCam + 1) nPose)
    (p : Ix n (nCam + 1) nPose → ℝ) (u : PoseUpd nPose) (ha : ExtFrame.Apart u) (hD : SameInAllDirections u.defaultNoise)
    (hp : ∀ j l l', u.inertial = some j → p (.pop j l) = p (.pop j l')) (hn : ∀ j l l', u.inertial = some j → cfg.q (.pop j l) = cfg.q (.pop j l'))
    (h1 : u.didAlign = false) (h2 : u.doAlign = true) (es : List (Step n (nCam + 1) nPose)) :
    Both (fun x y => y.s.odo = x.s.odo ∧ y.P.odo = x.P.odo ∧ ((∃ m, .pose m ∈ es) → h.Moved x y))
      (FSt.run cfg ⟨s, Matrix.diagonal p, u⟩ es) (FSt.run cfg ⟨s, Matrix.diagonal p, u⟩ (es.map h.step)) := by
  have e1 : ∀ v, h.pos (h.q.inv.rotate (v - h.t)) = v := fun v => by
    rw [ExtFrame.pos, Quat.rotate_rotate_inv hq]
    ext <;> simp
  have e2 : ∀ a : Quat, h.att (a * h.q) = a := fun a => by
    rw [ExtFrame.att, Quat.mul_assoc', Quat.mul_inv_self hq]; ext <;> simp
  refine Spec.ExtFrame.start h hq cfg hg es _
    ⟨{ s with pop := fun j => if u.inertial = some j then h.q.inv.rotate (s.pop j - h.t) else s.pop j, poa := fun j => if u.inertial = some j then s.poa j * h.q else s.poa j },
      Matrix.diagonal p, { u with qWI := u.qWI * h.q, IrIW := h.q.inv.rotate (u.IrIW - h.t) }⟩ _ ha hD hn h1 h2 ⟨rfl, rfl, rfl, fun i hi => ?_⟩ ⟨?_, ?_, ?_⟩
  · exact ⟨if_neg hi, if_neg hi⟩
  · have a1 : s.pop = (h.state u.inertial { s with pop := fun j => if u.inertial = some j then h.q.inv.rotate (s.pop j - h.t) else s.pop j }).pop := by
      funext j
      simp only [ExtFrame.state]
      split_ifs <;> simp only [e1]
    have a2 : s.poa = (h.state u.inertial { s with poa := fun j => if u.inertial = some j then s.poa j * h.q else s.poa j }).poa := by
      funext j
      simp only [ExtFrame.state]
      split_ifs <;> simp only [e2]
    have a3 : ∀ (f : Fin nPose → V3) (g : Fin nPose → Quat), s.pop = f → s.poa = g → s = { s with pop := f, poa := g } := fun f g hf hg => by rw [← hf, ← hg]
    exact a3 _ _ a1 a2
  · exact (ExtFrame.cov_diag hq hp).symm
  · simp only [ExtFrame.settings, e1, e2]

lemma FSt.run_inertial (cfg : FCfg n (nCam + 1) nPose) : ∀ (es : List (Step n (nCam + 1) nPose)) (x z : FSt n (nCam + 1) nPose), x.run cfg es = some z →
    z.u.inertial = x.u.inertial
  | [], x, z, hz => by cases hz; rfl
  | e :: es, x, z, hz => by
    rw [FSt.run_cons, Option.bind_eq_some_iff] at hz
    obtain ⟨w, h1, h2⟩ := hz
    rw [FSt.run_inertial cfg es w z h2, (ExtFrame.step_kept h1).inertial]

/-! ## Non-vacuity -/

/-- Half a turn about a tilted axis and an offset. -/
noncomputable def tilted : ExtFrame := ⟨⟨0, 3 / 5, 0, 4 / 5⟩, ⟨10, -2, 1⟩⟩

/-- The demonstration filter, with feedback of the poses on the odometry. -/
noncomputable def demoFeedback : FSt 1 2 1 := { demoFilter with u := { demoNoFeedback with noFeedback := false } }

/-- A run with every kind of step (two of them poses that feed back on the odometry) is defined in both frames; the estimated position of the frame is the
same one, expressed in the tilted frame. -/
example : ∃ x' y', demoFeedback.run { demoFCfg with gateP := mahalanobis 9 } demoSteps = some x' ∧
    demoFeedback.run { demoFCfg with gateP := mahalanobis 9 } (demoSteps.map tilted.step) = some y' ∧ (demoSteps.map tilted.step)[1]? = some (.pose (tilted.meas demoMeas)) ∧
      y'.s.odo = x'.s.odo ∧ y'.P.odo = x'.P.odo ∧ y'.s.pop 0 = tilted.q.rotate (x'.s.pop 0) + tilted.t := by
  have hl : demoFeedback.Live := ⟨demoFilter_ok, demoState_ready _ _, isCov_one, Quat.isUnit_one⟩
  have hq : tilted.q.IsUnit := by norm_num [tilted, Quat.IsUnit, Quat.normSq]
  obtain ⟨x', hx, -⟩ := C78_run_succeeds { demoFCfg with gateP := mahalanobis 9 } ⟨fun _ => zero_le_one, isCov_one, isCov_one⟩ strictPos_one strictPos_one demoSteps
    demoFeedback demoSteps_live hl
  have h := C101_start tilted hq { demoFCfg with gateP := mahalanobis 9 } (mahalanobis_axisFree 9) (demoState true 0) (fun _ => 1) demoFeedback.u
    (fun j hj => by simp [demoFeedback, demoNoFeedback]) ⟨1, fun _ => 1, by
      show (1 : Matrix PoseIx PoseIx ℝ) = _
      rw [← Matrix.diagonal_one]; congr 1; funext i; cases i <;> rfl⟩ (fun _ _ _ _ => rfl) (fun _ _ _ _ => rfl) rfl rfl demoSteps
  have e : (⟨demoState true 0, Matrix.diagonal fun _ => 1, demoFeedback.u⟩ : FSt 1 2 1) = demoFeedback := by
    rw [Matrix.diagonal_one]; rfl
  rw [e, hx] at h
  generalize hy : demoFeedback.run { demoFCfg with gateP := mahalanobis 9 } (demoSteps.map tilted.step) = o at h
  cases h with
  | some h =>
    rename_i y'
    refine ⟨x', y', hx, rfl, rfl, h.1, h.2.1, ?_⟩
    have hm := h.2.2 ⟨demoMeas, by simp [demoSteps]⟩
    have hi : x'.u.inertial = some 0 := FSt.run_inertial _ _ _ _ hx
    exact ((C101_outputs tilted x' y' hm).2.2.2.2.2.2.2.1 0 hi).1

end Rovio
