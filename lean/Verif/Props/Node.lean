import Verif.Model.Node
import Verif.Lemmas.Geom
import Verif.Model.Outputs

/-! # C54, C55: initialisation and image sets of the node -/

namespace Rovio

namespace Node

variable {nCam : ℕ} {Img : Type}

open St

/-! ## C54 -/

/-- Specification: a reset the node still has to carry out. -/
inductive Req where
  | accel
  | pose (WrWM : V3) (qWM : Quat)

/-- Specification: the outstanding reset after one more callback.  An IMU message carries out whatever is outstanding; a request
counts only if nothing is outstanding. -/
def Req.next (p : Option Req) : Ev Img → Option Req
  | .imu _ _ _ => none
  | .reset => if p.isNone then some .accel else p
  | .resetToPose pos q => if p.isNone then some (.pose pos q) else p
  | _ => p

/-- Specification: the outstanding reset after a history; at first an initialisation from the accelerometer is outstanding. -/
def pending (es : List (Ev Img)) : Option Req := es.foldl Req.next (some .accel)

/-- Specification: the covariance of the last odometry message that arrived while no reset was outstanding (`c₀` if there was
none). -/
def lastCov (c₀ : Matrix PoseIx PoseIx ℝ) (es : List (Ev Img)) : Matrix PoseIx PoseIx ℝ :=
  (es.foldl (fun a e => (Req.next a.1 e, match e with
    | .odometry _ _ cov _ => if a.1.isNone then cov else a.2
    | _ => a.2)) (some Req.accel, c₀)).2

/-- Specification: what a message other than an image makes the node do, given the outstanding reset. -/
def expected (timeOffset : ℝ) (p : Option Req) (cov' : Matrix PoseIx PoseIx ℝ) : Ev Img → List (Call nCam Img)
  | .imu acc gyr t => match p with
    | none => [.addImu ⟨acc, gyr⟩ t, .update]
    | some .accel => [.resetWithAccel acc t]
    | some (.pose pos q) => [.resetWithPose pos q.inv t]
  | .transform pos q t => if p.isNone then [.addPose ⟨pos, q.inv, cov'⟩ (t + timeOffset), .update] else []
  | .odometry pos q cov t => if p.isNone then [.addPose ⟨pos, q.inv, cov⟩ (t + timeOffset), .update] else []
  | .velocity v t => if p.isNone then [.addVelocity v t, .update] else []
  | _ => []

/-- The outstanding reset is what the node's members say. -/
def Tracks (s : St nCam Img) : Option Req → Prop
  | none => s.init = .initialized
  | some .accel => s.init = .waitAccel
  | some (.pose pos q) => s.init = .waitPose ∧ s.WrWM = pos ∧ s.qMW = q.inv

lemma init_of_image (s : St nCam Img) (c : Fin (nCam + 1)) (im : Option Img) (t : ℝ) :
    (s.imgCallback c im t).1.init = s.init ∧ (s.imgCallback c im t).1.WrWM = s.WrWM ∧ (s.imgCallback c im t).1.qMW = s.qMW := by
  unfold imgCallback
  cases im with
  | none => exact ⟨rfl, rfl, rfl⟩
  | some im =>
    have h1 : ∀ u : St nCam Img, (u.store c im t).init = u.init ∧ (u.store c im t).WrWM = u.WrWM ∧ (u.store c im t).qMW = u.qMW := by
      intro u; unfold store resetSet; by_cases h : t ≠ u.imgTime <;> simp [h]
    by_cases hi : s.init = .initialized
    · simp only [hi, if_true]
      by_cases ha : (s.store c im t).allValid = true
      · simp only [ha, if_true]; exact ⟨(h1 s).1.trans hi, (h1 s).2.1, (h1 s).2.2⟩
      · simp only [ha, Bool.false_eq_true, if_false]; exact ⟨(h1 s).1.trans hi, (h1 s).2.1, (h1 s).2.2⟩
    · simp [hi]

lemma tracks_congr {s s' : St nCam Img} {p : Option Req} (h : Tracks s p) (h1 : s'.init = s.init) (h2 : s'.WrWM = s.WrWM) (h3 : s'.qMW = s.qMW) :
    Tracks s' p := by
  rcases p with _ | _ | ⟨pos, q⟩
  · exact h1.trans h
  · exact h1.trans h
  · exact ⟨h1.trans h.1, h2.trans h.2.1, h3.trans h.2.2⟩

lemma tracks_initialized {s : St nCam Img} {p : Option Req} (h : Tracks s p) : (s.init = .initialized ↔ p.isNone = true) := by
  rcases p with _ | _ | ⟨pos, q⟩
  · simp only [Tracks] at h; simp [h]
  · simp only [Tracks] at h; simp [h]
  · simp only [Tracks] at h; simp [h.1]

lemma tracks_step (timeOffset : ℝ) (s : St nCam Img) (p : Option Req) (h : Tracks s p) (e : Ev Img) : Tracks (step timeOffset s e).1 (Req.next p e) := by
  have hi := tracks_initialized h
  cases e with
  | imu acc gyr t =>
    simp only [step, imuCallback, Req.next, Tracks]
    cases hs : s.init <;> simp [hs]
  | image cam1 im t =>
    simp only [step, Req.next]
    cases cam1
    · simp only [Bool.false_eq_true, if_false]
      obtain ⟨h1, h2, h3⟩ := init_of_image s 0 im t
      exact tracks_congr h h1 h2 h3
    · simp only [if_true]
      by_cases hc : 1 < nCam + 1
      · rw [dif_pos hc]
        obtain ⟨h1, h2, h3⟩ := init_of_image s ⟨1, hc⟩ im t
        exact tracks_congr h h1 h2 h3
      · rw [dif_neg hc]; exact h
  | transform pos q t =>
    simp only [step, transformCallback, Req.next]
    by_cases hs : s.init = .initialized
    · simp only [hs, if_true]; exact tracks_congr h hs.symm rfl rfl
    · simp only [hs, if_false]; exact h
  | odometry pos q cov t =>
    simp only [step, odometryCallback, Req.next]
    by_cases hs : s.init = .initialized
    · simp only [hs, if_true]; exact tracks_congr h hs.symm rfl rfl
    · simp only [hs, if_false]; exact h
  | velocity v t =>
    simp only [step, Req.next]
    by_cases hs : s.init = .initialized
    · simp only [hs, if_true]; exact h
    · simp only [hs, if_false]; exact h
  | reset =>
    simp only [step, requestReset, Req.next]
    by_cases hs : s.init = .initialized
    · simp only [hs, if_true, hi.mp hs]; simp [Tracks]
    · have hn : ¬ p.isNone = true := fun h' => hs (hi.mpr h')
      simp only [hs, if_false, hn, Bool.false_eq_true]; exact h
  | resetToPose pos q =>
    simp only [step, requestResetToPose, Req.next]
    by_cases hs : s.init = .initialized
    · simp only [hs, if_true, hi.mp hs]; simp [Tracks]
    · have hn : ¬ p.isNone = true := fun h' => hs (hi.mpr h')
      simp only [hs, if_false, hn, Bool.false_eq_true]; exact h

lemma run_append (timeOffset : ℝ) (es : List (Ev Img)) : ∀ (s : St nCam Img) (es' : List (Ev Img)),
    run timeOffset s (es ++ es') = ((run timeOffset (run timeOffset s es).1 es').1, (run timeOffset s es).2 ++ (run timeOffset (run timeOffset s es).1 es').2) := by
  induction es with
  | nil => intro s es'; simp [run]
  | cons e es ih => intro s es'; simp [run, ih]

lemma tracks_run (timeOffset : ℝ) (es : List (Ev Img)) : ∀ (s : St nCam Img) (p : Option Req), Tracks s p →
    Tracks (run timeOffset s es).1 (es.foldl Req.next p) := by
  induction es with
  | nil => intro s p h; exact h
  | cons e es ih => intro s p h; exact ih _ _ (tracks_step timeOffset s p h e)

lemma pose_cov_of_image (s : St nCam Img) (c : Fin (nCam + 1)) (im : Option Img) (t : ℝ) : (s.imgCallback c im t).1.pose = s.pose := by
  unfold imgCallback
  cases im with
  | none => rfl
  | some im =>
    have h1 : ∀ u : St nCam Img, (u.store c im t).pose = u.pose := by
      intro u; unfold store resetSet; by_cases h : t ≠ u.imgTime <;> simp [h]
    by_cases hi : s.init = .initialized
    · simp only [hi, if_true]
      by_cases ha : (s.store c im t).allValid = true
      · simp only [ha, if_true]; exact h1 s
      · simp only [ha, Bool.false_eq_true, if_false]; exact h1 s
    · simp [hi]

lemma lastCov_run (timeOffset : ℝ) (es : List (Ev Img)) : ∀ (s : St nCam Img) (p : Option Req), Tracks s p →
    (run timeOffset s es).1.pose.cov = (es.foldl (fun a e => (Req.next a.1 e, match e with
      | .odometry _ _ cov _ => if a.1.isNone then cov else a.2
      | _ => a.2)) (p, s.pose.cov)).2 := by
  induction es with
  | nil => intro s p _; rfl
  | cons e es ih =>
    intro s p h
    have hi := tracks_initialized h
    have h1 : (step timeOffset s e).1.pose.cov = (match e with
        | .odometry _ _ cov _ => if p.isNone then cov else s.pose.cov
        | _ => s.pose.cov) := by
      cases e with
      | imu acc gyr t => simp only [step, imuCallback]; cases hs : s.init <;> simp
      | image cam1 im t =>
        simp only [step]
        cases cam1
        · simp only [Bool.false_eq_true, if_false, pose_cov_of_image]
        · simp only [if_true]
          by_cases hc : 1 < nCam + 1
          · rw [dif_pos hc, pose_cov_of_image]
          · rw [dif_neg hc]
      | transform pos q t =>
        simp only [step, transformCallback]
        by_cases hs : s.init = .initialized <;> simp [hs]
      | odometry pos q cov t =>
        simp only [step, odometryCallback]
        by_cases hs : s.init = .initialized
        · simp only [hs, if_true, hi.mp hs]
        · have hn : ¬ p.isNone = true := fun h' => hs (hi.mpr h')
          simp only [hs, if_false, hn, Bool.false_eq_true]
      | velocity v t =>
        simp only [step]
        by_cases hs : s.init = .initialized <;> simp [hs]
      | reset => simp only [step, requestReset]; by_cases hs : s.init = .initialized <;> simp [hs]
      | resetToPose pos q => simp only [step, requestResetToPose]; by_cases hs : s.init = .initialized <;> simp [hs]
    have := ih _ _ (tracks_step timeOffset s p h e)
    rw [h1] at this
    exact this

/-- After every history, the node reacts to every message exactly as the outstanding reset, computed from the history alone,
demands: an IMU message carries out the outstanding reset (of the requested kind, with the requested pose) and enters the filter
only if none is outstanding, and every other measurement enters the filter only if none is outstanding. -/
theorem C54_response (timeOffset : ℝ) (qMW : Quat) (pose : PoseMeas) (es : List (Ev Img)) (e : Ev Img) :
    let s := (run timeOffset (construct qMW pose : St nCam Img) es).1
    ((∀ c im t, e ≠ .image c im t) → (step timeOffset s e).2 = expected timeOffset (pending es) (lastCov pose.cov es) e) ∧
    (∀ c im t, e = .image c im t → pending es ≠ none → (step timeOffset s e).2 = []) ∧
    (∀ c im t, e = .image c im t → ∀ x ∈ (step timeOffset s e).2, (∃ imgs, x = .addImages imgs t) ∨ x = .update) := by
  intro s
  have h : Tracks s (pending es) := tracks_run timeOffset es _ _ rfl
  have hi := tracks_initialized h
  have hcov : lastCov pose.cov es = s.pose.cov := (lastCov_run timeOffset es (construct qMW pose) (some .accel) rfl).symm
  rw [hcov]
  refine ⟨fun hne => ?_, ?_, ?_⟩
  · cases e with
    | imu acc gyr t =>
      simp only [step, imuCallback, expected]
      rcases hp : pending es with _ | _ | ⟨pos, q⟩
      · rw [hp] at h; simp only [Tracks] at h; simp [h]
      · rw [hp] at h; simp only [Tracks] at h; simp [h]
      · rw [hp] at h; simp only [Tracks] at h; simp [h.1, h.2.1, h.2.2]
    | image c im t => exact absurd rfl (hne c im t)
    | transform pos q t =>
      simp only [step, transformCallback, expected]
      by_cases hs : s.init = .initialized
      · simp only [hs, if_true, hi.mp hs]
      · have hn : ¬ (pending es).isNone = true := fun h' => hs (hi.mpr h')
        simp only [hs, if_false, hn, Bool.false_eq_true]
    | odometry pos q cov t =>
      simp only [step, odometryCallback, expected]
      by_cases hs : s.init = .initialized
      · simp only [hs, if_true, hi.mp hs]
      · have hn : ¬ (pending es).isNone = true := fun h' => hs (hi.mpr h')
        simp only [hs, if_false, hn, Bool.false_eq_true]
    | velocity v t =>
      simp only [step, expected]
      by_cases hs : s.init = .initialized
      · simp only [hs, if_true, hi.mp hs]
      · have hn : ¬ (pending es).isNone = true := fun h' => hs (hi.mpr h')
        simp only [hs, if_false, hn, Bool.false_eq_true]
    | reset => rfl
    | resetToPose pos q => rfl
  · rintro c im t rfl hp
    have hs : ¬ s.init = .initialized := fun h' => by
      have := hi.mp h'
      rw [Option.isNone_iff_eq_none] at this
      exact hp this
    have hcb : ∀ k, (s.imgCallback k im t).2 = [] := by
      intro k; unfold imgCallback
      cases im with
      | none => rfl
      | some im => simp [hs]
    simp only [step]
    cases c
    · simp [hcb]
    · by_cases hc : 1 < nCam + 1
      · simp only [if_true]; rw [dif_pos hc]; exact hcb _
      · simp only [if_true]; rw [dif_neg hc]
  · rintro c im t rfl x hx
    have hcb : ∀ k, ∀ x ∈ (s.imgCallback k im t).2, (∃ imgs, x = .addImages imgs t) ∨ x = .update := by
      intro k x hx; unfold imgCallback at hx
      cases im with
      | none => simp at hx
      | some im =>
        by_cases hs : s.init = .initialized
        · simp only [hs, if_true] at hx
          by_cases ha : (s.store k im t).allValid = true
          · simp only [ha, if_true, List.mem_cons, List.not_mem_nil, or_false] at hx
            rcases hx with rfl | rfl
            · exact Or.inl ⟨_, rfl⟩
            · exact Or.inr rfl
          · simp [ha] at hx
        · simp [hs] at hx
    simp only [step] at hx
    cases c
    · simp only [Bool.false_eq_true, if_false] at hx; exact hcb _ x hx
    · simp only [if_true] at hx
      by_cases hc : 1 < nCam + 1
      · rw [dif_pos hc] at hx; exact hcb _ x hx
      · rw [dif_neg hc] at hx; simp at hx

/-- Specification: the message is an IMU message. -/
def Ev.isImu : Ev Img → Bool
  | .imu _ _ _ => true
  | _ => false

lemma next_waiting {p : Option Req} (hp : p ≠ none) {e : Ev Img} (he : e.isImu = false) : Req.next p e = p := by
  cases p with
  | none => exact absurd rfl hp
  | some r => cases e <;> simp [Req.next, Ev.isImu] at he ⊢

/-- While a reset is outstanding nothing at all reaches the filter, whatever arrives, until the next IMU message; that message
carries out exactly the outstanding reset at its own time stamp and leaves the node initialised.  At start-up an accelerometer
initialisation is outstanding. -/
theorem C54_waiting (timeOffset : ℝ) (qMW : Quat) (pose : PoseMeas) (es es' : List (Ev Img)) (r : Req) (hp : pending es = some r)
    (hes' : ∀ e ∈ es', e.isImu = false) (acc gyr : V3) (t : ℝ) :
    let s := (run timeOffset (construct qMW pose : St nCam Img) es).1
    (run timeOffset s (es' ++ [.imu acc gyr t])).2 =
      [match (r : Req) with | .accel => .resetWithAccel acc t | .pose pos q => .resetWithPose pos q.inv t] ∧
    (run timeOffset s (es' ++ [.imu acc gyr t])).1.init = .initialized ∧ pending (es ++ es' ++ [.imu acc gyr t]) = none := by
  intro s
  have key : ∀ (l : List (Ev Img)) (pre : List (Ev Img)), pending pre = some r → (∀ e ∈ l, e.isImu = false) →
      (run timeOffset (run timeOffset (construct qMW pose : St nCam Img) pre).1 l).2 = [] ∧ pending (pre ++ l) = some r := by
    intro l
    induction l with
    | nil => intro pre hpre _; simp [run, hpre]
    | cons e l ih =>
      intro pre hpre hl
      have he := hl e (by simp)
      have hstep : (step timeOffset (run timeOffset (construct qMW pose : St nCam Img) pre).1 e).2 = [] := by
        obtain ⟨h1, h2, _⟩ := C54_response (nCam := nCam) timeOffset qMW pose pre e
        cases e with
        | imu acc gyr t => simp [Ev.isImu] at he
        | image c im t => exact h2 c im t rfl (by rw [hpre]; simp)
        | transform pos q t => rw [h1 (by intros; simp), hpre]; rfl
        | odometry pos q cov t => rw [h1 (by intros; simp), hpre]; rfl
        | velocity v t => rw [h1 (by intros; simp), hpre]; rfl
        | reset => rfl
        | resetToPose pos q => rfl
      have hpe : pending (pre ++ [e]) = some r := by
        have : pending (pre ++ [e]) = Req.next (pending pre) e := by simp [pending]
        rw [this, hpre]; exact next_waiting (by simp) he
      obtain ⟨i1, i2⟩ := ih (pre ++ [e]) hpe (fun x hx => hl x (by simp [hx]))
      have e1 : (run timeOffset (construct qMW pose : St nCam Img) (pre ++ [e])).1 =
          (step timeOffset (run timeOffset (construct qMW pose : St nCam Img) pre).1 e).1 := by
        rw [run_append]; simp [run]
      rw [e1] at i1
      refine ⟨?_, by rw [List.append_assoc] at i2; exact i2⟩
      simp [run, hstep, i1]
  obtain ⟨k1, k2⟩ := key es' es hp hes'
  have e2 : (run timeOffset s es').1 = (run timeOffset (construct qMW pose : St nCam Img) (es ++ es')).1 := by rw [run_append]
  obtain ⟨h1, _, _⟩ := C54_response (nCam := nCam) timeOffset qMW pose (es ++ es') (.imu acc gyr t)
  have h1 := h1 (by intros; simp)
  rw [k2] at h1
  have e3 : (run timeOffset s (es' ++ [.imu acc gyr t])) =
      ((step timeOffset (run timeOffset (construct qMW pose : St nCam Img) (es ++ es')).1 (.imu acc gyr t)).1,
        (step timeOffset (run timeOffset (construct qMW pose : St nCam Img) (es ++ es')).1 (.imu acc gyr t)).2) := by
    rw [run_append, k1, e2]; simp [run]
  rw [e3]
  refine ⟨?_, ?_, by simp [pending, Req.next]⟩
  · simp only [h1]; cases r <;> rfl
  · simp only [step, imuCallback]
    cases hs : (run timeOffset (construct qMW pose : St nCam Img) (es ++ es')).1.init <;> simp [hs]

/-- A request made while none is outstanding becomes outstanding; this and `C54_waiting` show that it is carried out by the next
IMU message with the requested pose. -/
theorem C54_request (es : List (Ev Img)) (h : pending es = none) (pos : V3) (q : Quat) :
    pending (es ++ [.resetToPose pos q]) = some (.pose pos q) ∧ pending (es ++ [.reset]) = some .accel := by
  have e1 : ∀ e, pending (es ++ [e]) = Req.next (pending es) e := by intro e; simp [pending]
  rw [e1, e1, h]; exact ⟨rfl, rfl⟩

/-- Non-vacuity: initialise, request a pose, receive an image, a second request and a velocity, then an IMU message. -/
example : pending ([.imu 0 0 1, .resetToPose ⟨1, 2, 3⟩ Quat.one] : List (Ev ℕ)) = some (.pose ⟨1, 2, 3⟩ Quat.one) ∧
    (∀ e ∈ ([.image false (some 7) 2, .reset, .velocity ⟨1, 0, 0⟩ 2] : List (Ev ℕ)), e.isImu = false) := by
  refine ⟨rfl, ?_⟩
  simp [Ev.isImu]

/-- Finding: a request made while another reset is outstanding is dropped, although the service reports success: here a
`reset_to_pose` that follows a `reset` is lost. -/
theorem C54_finding_ignored (pos : V3) (q : Quat) (acc gyr acc' gyr' : V3) (t t' timeOffset : ℝ) (qMW : Quat) (pose : PoseMeas) :
    (run timeOffset (construct qMW pose : St nCam Img) [.imu acc gyr t, .reset, .resetToPose pos q, .imu acc' gyr' t']).2 =
      [.resetWithAccel acc t, .resetWithAccel acc' t'] := by
  simp [run, step, imuCallback, requestReset, requestResetToPose, construct]

/-- Finding: the covariance of an odometry message stays attached to all later transform messages, which carry none. -/
theorem C54_finding_covariance (acc gyr pos pos' : V3) (q q' : Quat) (cov : Matrix PoseIx PoseIx ℝ) (t t' t'' timeOffset : ℝ) (qMW : Quat)
    (pose : PoseMeas) :
    (run timeOffset (construct qMW pose : St nCam Img) [.imu acc gyr t, .odometry pos q cov t', .transform pos' q' t'']).2 =
      [.resetWithAccel acc t, .addPose ⟨pos, q.inv, cov⟩ (t' + timeOffset), .update, .addPose ⟨pos', q'.inv, cov⟩ (t'' + timeOffset), .update] := by
  simp [run, step, imuCallback, odometryCallback, transformCallback, construct]

end Node

end Rovio
