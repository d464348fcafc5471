import Verif.Props.LifeLive
import Verif.Props.ImgMoves

/-!
# C78: the zero-velocity update at the end of an image always has a result
-/

namespace Rovio.ImgFull

open Rovio.Img Matrix Spec

variable {n nCam nPose : ℕ}

/-- **C78, from pixels: the zero-velocity update.**  However long the filter has run, on whatever IMU measurements, velocities, measured poses, images and resets to proper states: the
next image does what it would do with the zero-velocity update switched off, and if that update is due, it then has a result, which is what the filter goes on with.  It is never
given up for a division by zero. -/
theorem C78_life_zero_velocity (I : USet) (hI : I.Lawful) (order : Finset (Fin n) → List (Fin n)) (ho : ∀ S, ∀ i ∈ order S, i ∈ S) (cfg : Cfg)
    (hst : -1 ≤ cfg.minAbsST) (F : Full n (nCam + 1) nPose) (hp : Even F.base.p) (hmc : ∀ c, (F.mc.cams c).WF) (hB : Backprojects F) (hC : IsCov F.C) (h01 : F.C 0 1 = 0)
    (h02 : F.C 0 2 = 0) (fcfg : FCfg n (nCam + 1) nPose) (hn : fcfg.NoiseOk) (hv : StrictPos fcfg.velR) (hz : StrictPos fcfg.zeroR) (gate : Gate 2)
    (R : Matrix (Fin 2) (Fin 2) ℝ) (hR : IsCov R) (mem : FSt n (nCam + 1) nPose → Mem) (k : ℝ → Slot MLP → Mem) (hF : ∀ s c, (F.detect (mem s) s c).Sane) (fuel : ℕ)
    (es : List (PInput n (nCam + 1) nPose)) (u u' : PoseUpd nPose) (hu : u.qVM.IsUnit) (he : ∀ e ∈ es, SoundOrPose u (fun init => SoundReset init ∧ Sound init) e)
    (s s' : FSt n (nCam + 1) nPose) (hs : IsCov s.cov) (hx : Sound s)
    (h : lifePose I order cfg (fun u => F.withFilter fcfg gate R u) fcfg mem k fuel es (s, u) = some (s', u')) (t : ℝ) (r : FSt n (nCam + 1) nPose × PoseUpd nPose)
    (h' : lifePose I order cfg (fun u => F.withFilter fcfg gate R u) fcfg mem k fuel [.input (.image t)] (s', u') = some r) :
    ∃ s₀, lifePose I order { cfg with zeroVelocity := false } (fun u => F.withFilter fcfg gate R u) fcfg mem k fuel [.input (.image t)] (s', u') = some (s₀, u') ∧
      (¬ ZeroVelocityDue cfg r.1 → r = (s₀, u')) ∧
      (ZeroVelocityDue cfg r.1 → ∃ z, Rovio.FSt.zeroVel fcfg (fun _ => true) ⟨here s₀, s₀.cov, u'⟩ = some z ∧ here r.1 = z.s ∧ r.1.cov = z.P) := by
  have hc := (C77_poses I hI order ho cfg hst F hp hmc hC h01 h02 fcfg hn gate R hR mem k fuel es u u' hu (fun e h => by
    have := he e h
    cases e with
    | input e => cases e <;> first | trivial | exact this.1
    | pose m => exact this) s s' hs ⟨hx.att, hx.vea, hx.poa⟩ h).1
  obtain ⟨h1, -, h3⟩ := life_runs (F := F) (L := fun u => ekf gate R u) hI ho hB (fun u K x P r => ekf_good K x P r) hF es (s, u) (s', u') (u₀ := u)
    (fun init t h => (he _ h).2) (fun m h => (he _ h).1) ⟨rfl, rfl, rfl, rfl⟩ hu hx h
  have hone : ∀ cfg : Cfg, lifePose I order cfg (fun u => F.withFilter fcfg gate R u) fcfg mem k fuel [.input (.image t)] (s', u') =
      (imageUpdate I order cfg ((F.withFilter fcfg gate R u').env mem k) fuel { s' with t := t }).map fun s => (s, u') := fun cfg => by
    simp only [lifePose, List.foldlM_cons, List.foldlM_nil, stepPose, Input.happening, step, Option.bind_eq_bind, Option.pure_def]
    cases imageUpdate I order cfg ((F.withFilter fcfg gate R u').env mem k) fuel { s' with t := t } <;> rfl
  rw [hone] at h'
  obtain ⟨s1, h1', hr⟩ := Option.map_eq_some_iff.mp h'
  obtain ⟨s₀, h0, -, rfl⟩ := imageUpdate_off h1'
  have hlife : lifePose I order { cfg with zeroVelocity := false } (fun u => F.withFilter fcfg gate R u) fcfg mem k fuel [.input (.image t)] (s', u') = some (s₀, u') := by
    rw [hone, h0]; rfl
  have hr' : r = (zeroVelocity cfg ((F.withFilter fcfg gate R u').env mem k) s₀, u') := hr.symm
  obtain ⟨ti, tj, -⟩ := zeroVelocity_timers cfg ((F.withFilter fcfg gate R u').env mem k) s₀
  have hd : ZeroVelocityDue cfg r.1 ↔ ZeroVelocityDue cfg s₀ := by
    rw [hr']; simp only [ZeroVelocityDue, ti, tj]
  refine ⟨s₀, hlife, fun hn => ?_, fun hdue => ?_⟩
  · rw [hr', zeroVelocity_not_due _ (fun h => hn (hd.2 h))]
  · obtain ⟨hres, -⟩ := C78_life_steps I hI order ho { cfg with zeroVelocity := false } hst F hp hmc hB hC h01 h02 fcfg hn hv hz gate R hR mem k hF fuel [.input (.image t)] u' u' h3
      (fun e h => by rw [List.mem_singleton] at h; subst h; trivial) s' s₀ hc h1 hlife
    obtain ⟨z, hz'⟩ := Option.isSome_iff_exists.mp hres.zeroVelocity
    refine ⟨z, hz', ?_⟩
    have e := zeroVelocity_due cfg F fcfg gate R u' mem k s₀
    rw [if_pos (hd.1 hdue)] at e
    have e' : zeroUpdate fcfg u' (here s₀) s₀.cov = (z.s, z.P) := by unfold zeroUpdate; rw [hz']; rfl
    rw [e', Prod.mk.injEq] at e
    rw [hr']
    exact e

/-- **C78, from pixels: the zero-velocity update, with the iterated update of features.** -/
theorem C78_life_zero_velocity_iterated (I : USet) (hI : I.Lawful) (order : Finset (Fin n) → List (Fin n)) (ho : ∀ S, ∀ i ∈ order S, i ∈ S) (cfg : Cfg)
    (hst : -1 ≤ cfg.minAbsST) (F : Full n (nCam + 1) nPose) (hp : Even F.base.p) (hmc : ∀ c, (F.mc.cams c).WF) (hB : Backprojects F) (hC : IsCov F.C) (h01 : F.C 0 1 = 0)
    (h02 : F.C 0 2 = 0) (c : IterCfg) (fcfg : FCfg n (nCam + 1) nPose) (hn : fcfg.NoiseOk) (hv : StrictPos fcfg.velR) (hz : StrictPos fcfg.zeroR) (gate : Gate 2)
    (R : Matrix (Fin 2) (Fin 2) ℝ) (hR : IsCov R) (mem : FSt n (nCam + 1) nPose → Mem) (k : ℝ → Slot MLP → Mem) (hF : ∀ s c, (F.detect (mem s) s c).Sane) (fuel : ℕ)
    (es : List (PInput n (nCam + 1) nPose)) (u u' : PoseUpd nPose) (hu : u.qVM.IsUnit) (he : ∀ e ∈ es, SoundOrPose u (fun init => SoundReset init ∧ Sound init) e)
    (s s' : FSt n (nCam + 1) nPose) (hs : IsCov s.cov) (hx : Sound s)
    (h : lifePose I order cfg (fun u => F.iterated c fcfg gate R u) fcfg mem k fuel es (s, u) = some (s', u')) (t : ℝ) (r : FSt n (nCam + 1) nPose × PoseUpd nPose)
    (h' : lifePose I order cfg (fun u => F.iterated c fcfg gate R u) fcfg mem k fuel [.input (.image t)] (s', u') = some r) :
    ∃ s₀, lifePose I order { cfg with zeroVelocity := false } (fun u => F.iterated c fcfg gate R u) fcfg mem k fuel [.input (.image t)] (s', u') = some (s₀, u') ∧
      (¬ ZeroVelocityDue cfg r.1 → r = (s₀, u')) ∧
      (ZeroVelocityDue cfg r.1 → ∃ z, Rovio.FSt.zeroVel fcfg (fun _ => true) ⟨here s₀, s₀.cov, u'⟩ = some z ∧ here r.1 = z.s ∧ r.1.cov = z.P) := by
  have hc := (C77_poses_iterated I hI order ho cfg hst F hp hmc hC h01 h02 c fcfg hn gate R hR mem k fuel es u u' hu (fun e h => by
    have := he e h
    cases e with
    | input e => cases e <;> first | trivial | exact this.1
    | pose m => exact this) s s' hs ⟨hx.att, hx.vea, hx.poa⟩ h).1
  obtain ⟨h1, -, h3⟩ := life_runs (F := F) (L := fun _ => iekf c F.eigen gate R) hI ho hB (fun u K x P r => iekf_good F.eigen r) hF es (s, u) (s', u') (u₀ := u)
    (fun init t h => (he _ h).2) (fun m h => (he _ h).1) ⟨rfl, rfl, rfl, rfl⟩ hu hx h
  have hone : ∀ cfg : Cfg, lifePose I order cfg (fun u => F.iterated c fcfg gate R u) fcfg mem k fuel [.input (.image t)] (s', u') =
      (imageUpdate I order cfg ((F.iterated c fcfg gate R u').env mem k) fuel { s' with t := t }).map fun s => (s, u') := fun cfg => by
    simp only [lifePose, List.foldlM_cons, List.foldlM_nil, stepPose, Input.happening, step, Option.bind_eq_bind, Option.pure_def]
    cases imageUpdate I order cfg ((F.iterated c fcfg gate R u').env mem k) fuel { s' with t := t } <;> rfl
  rw [hone] at h'
  obtain ⟨s1, h1', hr⟩ := Option.map_eq_some_iff.mp h'
  obtain ⟨s₀, h0, -, rfl⟩ := imageUpdate_off h1'
  have hlife : lifePose I order { cfg with zeroVelocity := false } (fun u => F.iterated c fcfg gate R u) fcfg mem k fuel [.input (.image t)] (s', u') = some (s₀, u') := by
    rw [hone, h0]; rfl
  have hr' : r = (zeroVelocity cfg ((F.iterated c fcfg gate R u').env mem k) s₀, u') := hr.symm
  obtain ⟨ti, tj, -⟩ := zeroVelocity_timers cfg ((F.iterated c fcfg gate R u').env mem k) s₀
  have hd : ZeroVelocityDue cfg r.1 ↔ ZeroVelocityDue cfg s₀ := by
    rw [hr']; simp only [ZeroVelocityDue, ti, tj]
  refine ⟨s₀, hlife, fun hn => ?_, fun hdue => ?_⟩
  · rw [hr', zeroVelocity_not_due _ (fun h => hn (hd.2 h))]
  · obtain ⟨hres, -⟩ := C78_life_steps_iterated I hI order ho { cfg with zeroVelocity := false } hst F hp hmc hB hC h01 h02 c fcfg hn hv hz gate R hR mem k hF fuel [.input (.image t)] u' u' h3
      (fun e h => by rw [List.mem_singleton] at h; subst h; trivial) s' s₀ hc h1 hlife
    obtain ⟨z, hz'⟩ := Option.isSome_iff_exists.mp hres.zeroVelocity
    refine ⟨z, hz', ?_⟩
    have e := zeroVelocity_due cfg F fcfg gate R u' mem k s₀
    rw [show zeroVelocity cfg ((F.withFilter fcfg gate R u').env mem k) s₀ = zeroVelocity cfg ((F.iterated c fcfg gate R u').env mem k) s₀ from rfl] at e
    rw [if_pos (hd.1 hdue)] at e
    have e' : zeroUpdate fcfg u' (here s₀) s₀.cov = (z.s, z.P) := by unfold zeroUpdate; rw [hz']; rfl
    rw [e', Prod.mk.injEq] at e
    rw [hr']
    exact e

/-! ## Non-vacuity -/

/-- Nothing has moved for five seconds. -/
noncomputable abbrev stillSt (x : State 3 2 1) (prev : Fin 2 → List Level) (q : MLP) : FSt 3 2 1 := { liveSt true x prev q with sinceImage := 5, sinceInertial := 5 }

lemma still_wf (x : State 3 2 1) (prev : Fin 2 → List Level) (q : MLP) : WellFormed (stillSt x prev q) := live_wf true x prev q

lemma still_sound (x : State 3 2 1) (hx : UnitState x) (prev : Fin 2 → List Level) (q : MLP) : Sound (stillSt x prev q) := (live_sound true x hx prev q).change rfl rfl

-- a velocity, then an image: the zero-velocity update is due, and its result is the filter's
example (F : Full 3 2 1) (fcfg : FCfg 3 2 1) (hn : fcfg.NoiseOk) (hv : StrictPos fcfg.velR) (hz : StrictPos fcfg.zeroR) (gate : Gate 2) (x : State 3 2 1) (hx : UnitState x)
    (prev : Fin 2 → List Level) (q : MLP) (m : Mem) (v : V3) :
    ∃ fuel r s₀ z, lifePose AddArgs.listUSet (fun S => (List.finRange 3).filter (· ∈ S)) (zvCfg true) (fun u => (liveEyes F).withFilter fcfg gate 1 u) fcfg (fun _ => m) (fun _ _ => m) fuel
        [.input (.velocity v), .input (.image 6)] (stillSt x prev q, demoNoFeedback) = some r ∧ ZeroVelocityDue (zvCfg true) r.1 ∧
      Rovio.FSt.zeroVel fcfg (fun _ => true) ⟨here s₀, s₀.cov, demoNoFeedback⟩ = some z ∧ here r.1 = z.s ∧ r.1.cov = z.P := by
  obtain ⟨fuel, r, h, -⟩ := C78_life AddArgs.listUSet_lawful (demo_order 3) (zvCfg true) (by simp only [zvCfg, demoCfg]; norm_num) (by simp only [zvCfg, demoCfg]; norm_num)
    (by simp only [zvCfg, demoCfg]; norm_num) (by simp only [zvCfg, demoCfg]; norm_num) (by simp only [zvCfg, demoCfg]; norm_num) (by norm_num)
    (fun u => (liveEyes F).withFilter fcfg gate 1 u) fcfg (fun _ => m) (fun _ _ => m) (fun u s c => live_sane F m s c) [.input (.velocity v), .input (.image 6)] (by simp)
    (stillSt x prev q) (still_wf x prev q) demoNoFeedback
  have hr := h fuel le_rfl
  have hsplit := hr
  simp only [lifePose, List.foldlM_cons, Option.bind_eq_bind] at hsplit
  obtain ⟨⟨s', u'⟩, h1, h2⟩ := Option.bind_eq_some_iff.mp hsplit
  have hs' : s'.sinceImage = 5 ∧ s'.sinceInertial = 5 ∧ s'.imageCounter = 0 ∧ u' = demoNoFeedback := by
    simp only [stepPose, Input.happening, step, Option.map_some, Option.some.injEq, Prod.mk.injEq] at h1
    obtain ⟨h1, rfl⟩ := h1
    rw [← h1]
    refine ⟨?_, ?_, rfl, rfl⟩
    · show (5 : ℝ) + 0 = 5; norm_num
    · show (if false = true then (0 : ℝ) else 5 + 0) = 5; norm_num
  obtain ⟨t1, t2, t3, rfl⟩ := hs'
  have h1' : lifePose AddArgs.listUSet (fun S => (List.finRange 3).filter (· ∈ S)) (zvCfg true) (fun u => (liveEyes F).withFilter fcfg gate 1 u) fcfg (fun _ => m) (fun _ _ => m) fuel
      [.input (.velocity v)] (stillSt x prev q, demoNoFeedback) = some (s', demoNoFeedback) := by
    simp only [lifePose, List.foldlM_cons, List.foldlM_nil, Option.bind_eq_bind, h1]; rfl
  have h2' : lifePose AddArgs.listUSet (fun S => (List.finRange 3).filter (· ∈ S)) (zvCfg true) (fun u => (liveEyes F).withFilter fcfg gate 1 u) fcfg (fun _ => m) (fun _ _ => m) fuel
      [.input (.image 6)] (s', demoNoFeedback) = some r := by
    simpa only [lifePose, List.foldlM_cons, List.foldlM_nil, Option.bind_eq_bind] using h2
  have hdue : ZeroVelocityDue (zvCfg true) r.1 := by
    obtain ⟨r', h3, h4⟩ := Option.bind_eq_some_iff.mp h2
    simp only [List.foldlM_nil, Option.pure_def, Option.some.injEq] at h4
    subst h4
    simp only [stepPose, Input.happening, step] at h3
    obtain ⟨s1, h5, rfl⟩ := Option.map_eq_some_iff.mp h3
    obtain ⟨a, b, -⟩ := C38_gate _ _ _ _ _ _ _ h5
    refine ⟨rfl, rfl, ?_, ?_⟩
    · rw [a]
      simp only [imageFires, t3, t1]
      norm_num [zvCfg, demoCfg]
    · rw [b]
      show (zvCfg true).minTimeZeroVelocity < s'.sinceInertial
      rw [t2]
      norm_num [zvCfg, demoCfg]
  obtain ⟨s₀, -, -, hd⟩ := C78_life_zero_velocity AddArgs.listUSet AddArgs.listUSet_lawful (fun S => (List.finRange 3).filter (· ∈ S)) (by simp) (zvCfg true)
    (by simp only [zvCfg, demoCfg]; norm_num) (liveEyes F) (by simp only [demoEyes]; decide) (fun c => frontEye_wf) (live_back F) isCov_id
    (Matrix.one_apply_ne (by decide)) (Matrix.one_apply_ne (by decide)) fcfg hn hv hz gate 1 isCov_id (fun _ => m) (fun _ _ => m) (live_sane F m) fuel [.input (.velocity v)]
    demoNoFeedback demoNoFeedback Quat.isUnit_one (fun e he => by rw [List.mem_singleton] at he; subst he; trivial) (stillSt x prev q) s' isCov_id (still_sound x hx prev q) h1' 6 r h2'
  obtain ⟨z, hz1, hz2, hz3⟩ := hd hdue
  exact ⟨fuel, r, s₀, z, hr, hdue, hz1, hz2, hz3⟩

-- the same with the iterated update
example (F : Full 3 2 1) (c : IterCfg) (fcfg : FCfg 3 2 1) (hn : fcfg.NoiseOk) (hv : StrictPos fcfg.velR) (hz : StrictPos fcfg.zeroR) (gate : Gate 2) (x : State 3 2 1) (hx : UnitState x)
    (prev : Fin 2 → List Level) (q : MLP) (m : Mem) (v : V3) :
    ∃ fuel r s₀ z, lifePose AddArgs.listUSet (fun S => (List.finRange 3).filter (· ∈ S)) (zvCfg true) (fun u => (liveEyes F).iterated c fcfg gate 1 u) fcfg (fun _ => m) (fun _ _ => m) fuel
        [.input (.velocity v), .input (.image 6)] (stillSt x prev q, demoNoFeedback) = some r ∧ ZeroVelocityDue (zvCfg true) r.1 ∧
      Rovio.FSt.zeroVel fcfg (fun _ => true) ⟨here s₀, s₀.cov, demoNoFeedback⟩ = some z ∧ here r.1 = z.s ∧ r.1.cov = z.P := by
  obtain ⟨fuel, r, h, -⟩ := C78_life AddArgs.listUSet_lawful (demo_order 3) (zvCfg true) (by simp only [zvCfg, demoCfg]; norm_num) (by simp only [zvCfg, demoCfg]; norm_num)
    (by simp only [zvCfg, demoCfg]; norm_num) (by simp only [zvCfg, demoCfg]; norm_num) (by simp only [zvCfg, demoCfg]; norm_num) (by norm_num)
    (fun u => (liveEyes F).iterated c fcfg gate 1 u) fcfg (fun _ => m) (fun _ _ => m) (fun u s c => live_sane F m s c) [.input (.velocity v), .input (.image 6)] (by simp)
    (stillSt x prev q) (still_wf x prev q) demoNoFeedback
  have hr := h fuel le_rfl
  have hsplit := hr
  simp only [lifePose, List.foldlM_cons, Option.bind_eq_bind] at hsplit
  obtain ⟨⟨s', u'⟩, h1, h2⟩ := Option.bind_eq_some_iff.mp hsplit
  have hs' : s'.sinceImage = 5 ∧ s'.sinceInertial = 5 ∧ s'.imageCounter = 0 ∧ u' = demoNoFeedback := by
    simp only [stepPose, Input.happening, step, Option.map_some, Option.some.injEq, Prod.mk.injEq] at h1
    obtain ⟨h1, rfl⟩ := h1
    rw [← h1]
    refine ⟨?_, ?_, rfl, rfl⟩
    · show (5 : ℝ) + 0 = 5; norm_num
    · show (if false = true then (0 : ℝ) else 5 + 0) = 5; norm_num
  obtain ⟨t1, t2, t3, rfl⟩ := hs'
  have h1' : lifePose AddArgs.listUSet (fun S => (List.finRange 3).filter (· ∈ S)) (zvCfg true) (fun u => (liveEyes F).iterated c fcfg gate 1 u) fcfg (fun _ => m) (fun _ _ => m) fuel
      [.input (.velocity v)] (stillSt x prev q, demoNoFeedback) = some (s', demoNoFeedback) := by
    simp only [lifePose, List.foldlM_cons, List.foldlM_nil, Option.bind_eq_bind, h1]; rfl
  have h2' : lifePose AddArgs.listUSet (fun S => (List.finRange 3).filter (· ∈ S)) (zvCfg true) (fun u => (liveEyes F).iterated c fcfg gate 1 u) fcfg (fun _ => m) (fun _ _ => m) fuel
      [.input (.image 6)] (s', demoNoFeedback) = some r := by
    simpa only [lifePose, List.foldlM_cons, List.foldlM_nil, Option.bind_eq_bind] using h2
  have hdue : ZeroVelocityDue (zvCfg true) r.1 := by
    obtain ⟨r', h3, h4⟩ := Option.bind_eq_some_iff.mp h2
    simp only [List.foldlM_nil, Option.pure_def, Option.some.injEq] at h4
    subst h4
    simp only [stepPose, Input.happening, step] at h3
    obtain ⟨s1, h5, rfl⟩ := Option.map_eq_some_iff.mp h3
    obtain ⟨a, b, -⟩ := C38_gate _ _ _ _ _ _ _ h5
    refine ⟨rfl, rfl, ?_, ?_⟩
    · rw [a]
      simp only [imageFires, t3, t1]
      norm_num [zvCfg, demoCfg]
    · rw [b]
      show (zvCfg true).minTimeZeroVelocity < s'.sinceInertial
      rw [t2]
      norm_num [zvCfg, demoCfg]
  obtain ⟨s₀, -, -, hd⟩ := C78_life_zero_velocity_iterated AddArgs.listUSet AddArgs.listUSet_lawful (fun S => (List.finRange 3).filter (· ∈ S)) (by simp) (zvCfg true)
    (by simp only [zvCfg, demoCfg]; norm_num) (liveEyes F) (by simp only [demoEyes]; decide) (fun c => frontEye_wf) (live_back F) isCov_id
    (Matrix.one_apply_ne (by decide)) (Matrix.one_apply_ne (by decide)) c fcfg hn hv hz gate 1 isCov_id (fun _ => m) (fun _ _ => m) (live_sane F m) fuel [.input (.velocity v)]
    demoNoFeedback demoNoFeedback Quat.isUnit_one (fun e he => by rw [List.mem_singleton] at he; subst he; trivial) (stillSt x prev q) s' isCov_id (still_sound x hx prev q) h1' 6 r h2'
  obtain ⟨z, hz1, hz2, hz3⟩ := hd hdue
  exact ⟨fuel, r, s₀, z, hr, hdue, hz1, hz2, hz3⟩

end Rovio.ImgFull
