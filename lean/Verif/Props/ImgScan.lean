import Verif.Lemmas.ImgScan

/-! # Properties C33, C34, C37: the scan over features and cameras during one image -/

namespace Rovio.Img

open Stat

variable {P W K : Type} {n nCam : ℕ}

/-- State at the start of the scan: `commonPre` of the state before the image, with an empty record of visits. -/
noncomputable def start (cfg : Cfg) (env : Env P W K n nCam) (s : St P W K n nCam) : St P W K n nCam :=
  commonPre cfg env { s with log := [] }

lemma start_fields (cfg : Cfg) (env : Env P W K n nCam) (s : St P W K n nCam) :
    (start cfg env s).id = 0 ∧ (start cfg env s).cam = 0 ∧ (start cfg env s).log = [] ∧ (start cfg env s).fsm = s.fsm ∧
    (start cfg env s).ext = s.ext ∧ (start cfg env s).t = s.t ∧ (start cfg env s).w = s.w := by
  unfold start commonPre
  simp only
  split
  · split <;> simp
  · simp

/-- All features carry a camera index in range (what `addBestCandidates` writes, include/rovio/ImgUpdate.hpp:992). -/
def CamsOk (s : St P W K n nCam) : Prop := ∀ j, s.valid j = true → 0 ≤ s.camID j ∧ s.camID j < nCam

lemma scan_result (cfg : Cfg) (env : Env P W K n nCam) (hn : 0 < nCam) (s : St P W K n nCam) (hs : CamsOk s) :
    ∃ r, loop cfg env (n * nCam + 1) (start cfg env s) = some r ∧ Inv cfg (start cfg env s) r ∧ ¬ r.id < n := by
  obtain ⟨e1, e2, e3, e4, _⟩ := start_fields cfg env s
  have H : ∀ j, (start cfg env s).valid j = true → 0 ≤ (start cfg env s).camID j ∧ (start cfg env s).camID j < nCam := by
    intro j hj
    have h1 : (start cfg env s).camID j = s.camID j := by simp [St.camID, e4]
    have h2 : (start cfg env s).valid j = s.valid j := by simp [St.valid, e4]
    rw [h1]; rw [h2] at hj; exact hs j hj
  have hI := inv_start (cfg := cfg) hn e1 e2 e3
  obtain ⟨r, hr⟩ := loop_some (env := env) H (n * nCam + 1) _ hI (by omega)
  obtain ⟨h1, h2⟩ := inv_run H (loop_run _ _ _ hr) hI
  exact ⟨r, hr, h1, h2⟩

/-- C33: for every set of valid slots with cameras in range and whatever matching, the filter and the removal do, the
processing of one image ends; the visits go upwards through the slots and, within a slot, round the cameras starting with
the feature's own one, so no (feature, camera) pair is visited twice; only features valid at the start are visited, and only
in usable cameras; and every feature still valid at the end has been visited in every usable camera.  Without removal of
negative features these are all the features valid at the start. -/
theorem C33_each_pair_once (cfg : Cfg) (env : Env P W K n nCam) (hn : 0 < nCam) (s : St P W K n nCam) (hs : CamsOk s) :
    ∃ r, loop cfg env (n * nCam + 1) (start cfg env s) = some r ∧ r.id = n ∧
      (r.log.map fun v => Spec.rank nCam s.camID v.i v.c).Pairwise (· < ·) ∧
      (r.log.map fun v => (v.i : ℕ)).Pairwise (· ≤ ·) ∧
      (r.log.map fun v => (v.i, v.c)).Nodup ∧
      (∀ v ∈ r.log, s.valid v.i = true ∧ Spec.Usable cfg.cross (s.camID v.i) v.c) ∧
      (∀ i c, r.valid i = true → Spec.Usable cfg.cross (s.camID i) c → ∃ v ∈ r.log, v.i = i ∧ v.c = c ∧ v.result ≠ none) ∧
      (∀ i, r.valid i = true → s.valid i = true) ∧
      (cfg.removeNegative = false → ∀ i, r.valid i = s.valid i) := by
  obtain ⟨r, hr, hI, hid⟩ := scan_result cfg env hn s hs
  obtain ⟨e1, e2, e3, e4, _⟩ := start_fields cfg env s
  have hc : (start cfg env s).camID = s.camID := by funext j; simp [St.camID, e4]
  have hv : (start cfg env s).valid = s.valid := by funext j; simp [St.valid, e4]
  have hso := hI.sorted
  rw [hc] at hso
  refine ⟨r, hr, le_antisymm hI.id_le (not_lt.mp hid), hso, ?_, ?_, ?_, ?_, ?_, ?_⟩
  · rw [List.pairwise_map] at hso ⊢
    refine hso.imp ?_
    intro a b hab
    by_contra hlt
    have h1 := offset_lt (a := s.camID b.i) b.c
    have h2 := offset_lt (a := s.camID a.i) a.c
    unfold Spec.rank at hab
    have h3 : ((b.i : ℕ) + 1) * nCam ≤ a.i * nCam := Nat.mul_le_mul_right _ (by omega)
    have h4 : ((b.i : ℕ) + 1) * nCam = b.i * nCam + nCam := by ring
    omega
  · rw [List.pairwise_map] at hso
    unfold List.Nodup
    rw [List.pairwise_map]
    refine hso.imp ?_
    intro a b hab heq
    simp only [Prod.mk.injEq] at heq
    rw [heq.1, heq.2] at hab
    exact lt_irrefl _ hab
  · intro v hv'
    have := hI.sound v hv'
    rwa [hc, hv] at this
  · intro i c hi hu
    obtain ⟨v, h1, h2, h3⟩ := hI.complete i c hi (by rwa [hc]) (by
      unfold Spec.rank pos
      have h1 := offset_lt (a := (start cfg env s).camID i) c
      have h2 : ((i:ℕ) + 1) * nCam ≤ r.id * nCam := Nat.mul_le_mul_right _ (by have := i.isLt; omega)
      have h4 : ((i : ℕ) + 1) * nCam = i * nCam + nCam := by ring
      omega)
    refine ⟨v, h1, h2, h3, fun hnone => ?_⟩
    have := hI.removed v h1 hnone
    rw [h2, hi] at this
    simp at this
  · intro i hi
    have := hI.valid i hi
    rwa [hv] at this
  · intro hk i
    have := hI.keep hk i
    rwa [hv] at this

/-- C34: during one image the statistics of a visited feature advance exactly once (and then carry the outcome of each
visit as status, `unknown` for cameras in which the feature was not looked for), those of all other slots do not change at
all; visited are only features valid at the start, and among them all that are still valid at the end — without removal of
negative features all of them. -/
theorem C34_advance_once (cfg : Cfg) (env : Env P W K n nCam) (hn : 0 < nCam) (s : St P W K n nCam) (hs : CamsOk s) :
    ∃ r, loop cfg env (n * nCam + 1) (start cfg env s) = some r ∧
      (∀ i, (∃ v ∈ r.log, v.i = i) → (r.ext i).lastPatch = (s.ext i).lastPatch ∧
        (r.ext i).stat = Spec.withStatus (increaseStatistics (s.ext i).stat s.t) fun c => (Spec.outcome r.log i c).getD .unknown) ∧
      (∀ i, (∀ v ∈ r.log, v.i ≠ i) → r.ext i = s.ext i) ∧
      (∀ i, (∃ v ∈ r.log, v.i = i) → s.valid i = true) ∧
      (∀ i, r.valid i = true → ∃ v ∈ r.log, v.i = i) ∧
      (cfg.removeNegative = false → ∀ i, s.valid i = true → ∃ v ∈ r.log, v.i = i) := by
  obtain ⟨r, hr, hI, hid⟩ := scan_result cfg env hn s hs
  obtain ⟨r', hr', _, _, _, _, h1, h2, h3, h4⟩ := C33_each_pair_once cfg env hn s hs
  rw [hr] at hr'; cases hr'
  obtain ⟨e1, e2, e3, e4, e5, e6, _⟩ := start_fields cfg env s
  have hvis : ∀ i, r.valid i = true → ∃ v ∈ r.log, v.i = i := by
    intro i hi
    have := hs i (h3 i hi)
    obtain ⟨v, hv, hvi, _⟩ := h2 i ⟨(s.camID i).toNat, by omega⟩ hi (Or.inr (by simp; omega))
    exact ⟨v, hv, hvi⟩
  refine ⟨r, hr, ?_, ?_, ?_, hvis, ?_⟩
  · intro i hi
    have a := hI.seen i hi
    have b := hI.lastPatch i
    rw [e5, e6] at a
    rw [e5] at b
    exact ⟨b, a⟩
  · intro i hi
    have := hI.unseen i hi
    rwa [e5] at this
  · rintro i ⟨v, hv, rfl⟩
    exact (h1 v hv).1
  · intro hk i hi
    exact hvis i (by rw [h4 hk]; exact hi)

/-! ### Concrete cases -/

/-- A feature coordinate of camera `c`. -/
def demoFC (c : ℤ) : FC := ⟨none, 0, true, ⟨Quat.one⟩, true, c, M2.one, true, M2.one, true, true, false⟩

/-- A configuration. -/
noncomputable def demoCfg (cross removeNeg : Bool) : Cfg :=
  { cross := cross, direct := true, removeNegative := removeNeg, patchRejectionTh := 10, upper := 9 / 10, lower := 8 / 10,
    minTrackedAndFree := 3 / 4, removalFactor := 11 / 10, startDetectionTh := 8 / 10, minTimePatch := 1, minAbsST := 5,
    minRelST := 3 / 4, visualMotion := true, zeroVelocity := true, minTimeZeroVelocity := 1, rateMoving := 1 / 2,
    minCountNoMotion := 5 }

/-- An environment in which every feature is found in every camera and updated successfully; feature `i` has distance
`d i`. -/
noncomputable def demoEnv (n nCam : ℕ) (d : Fin n → ℝ) : Env ℝ Unit Unit n nCam where
  inPrev _ _ _ := true
  align _ _ _ := none
  inNew _ _ _ := true
  err _ _ _ _ := 0
  update s _ _ := ((), (), fun j => (s.fsm.slots j).coord, true)
  dist _ i := d i
  resetCov _ _ := ()
  inPost _ _ _ := true
  moving _ _ := some false
  repatch _ _ := some 7
  score p := p
  detect _ c := ⟨0, fun _ => 0, fun _ => false, fun _ => 0, fun _ => 0, fun _ => none,
    ⟨fun _ => none, fun _ => none, fun _ => (⟨Quat.one⟩, false)⟩, c.val, 0, 10, 1, 1, 1, false, 0⟩
  median _ _ := 1
  initFeature _ _ _ _ := ((), ())
  finish _ _ := ()
  zvu _ _ c := ((), (), c)

/-- A state with `n` slots, valid where `v` says, cameras `c`. -/
noncomputable def demoSt (n nCam : ℕ) (v : Fin n → Bool) (c : Fin n → ℤ) : St ℝ Unit Unit n nCam where
  w := ()
  cov := ()
  fsm := ⟨fun i => ⟨v i, i.val, demoFC (c i), 6⟩, n⟩
  ext := fun _ => ⟨init 10 100 100 0, 0⟩
  meas := fun _ => none
  id := 0
  cam := 0
  t := 1
  imageCounter := 0
  sinceImage := 0
  sinceInertial := 0
  log := []

/-- Three slots, the middle one free, two cameras, cross-camera measurements: hypotheses are met; slot 2 (own camera 1) is
visited in both cameras and slot 1 in none. -/
example : ∃ r, loop (demoCfg true true) (demoEnv 3 2 fun _ => 1) (3 * 2 + 1)
      (start (demoCfg true true) (demoEnv 3 2 fun _ => 1) (demoSt 3 2 (fun i => i ≠ 1) (fun i => if i = 2 then 1 else 0))) = some r ∧
    (∀ v ∈ r.log, v.i ≠ 1) := by
  obtain ⟨r, h, _, _, _, _, h1, _⟩ := C33_each_pair_once (demoCfg true true) (demoEnv 3 2 fun _ => 1) (by norm_num)
    (demoSt 3 2 (fun i => i ≠ 1) (fun i => if i = 2 then 1 else 0)) (by
      intro j _; simp only [St.camID, demoSt, demoFC]; split <;> norm_num)
  refine ⟨r, h, fun v hv hvi => ?_⟩
  have := (h1 v hv).1
  rw [hvi] at this
  simp [St.valid, demoSt] at this

example : ∃ r, loop (demoCfg false false) (demoEnv 3 2 fun _ => 1) (3 * 2 + 1)
      (start (demoCfg false false) (demoEnv 3 2 fun _ => 1) (demoSt 3 2 (fun i => i ≠ 1) (fun i => if i = 2 then 1 else 0))) = some r ∧
    (r.ext 2).stat.totCount = 1 ∧ (r.ext 1).stat.totCount = 0 := by
  obtain ⟨r, h, h1, h2, h3, _, h5⟩ := C34_advance_once (demoCfg false false) (demoEnv 3 2 fun _ => 1) (by norm_num)
    (demoSt 3 2 (fun i => i ≠ 1) (fun i => if i = 2 then 1 else 0)) (by
      intro j _; simp only [St.camID, demoSt, demoFC]; split <;> norm_num)
  refine ⟨r, h, ?_, ?_⟩
  · rw [(h1 2 (h5 rfl 2 (by simp [St.valid, demoSt]))).2]
    rfl
  · rw [h2 1 (fun v hv hvi => ?_)]
    · rfl
    · have := h3 1 ⟨v, hv, hvi⟩
      simp [St.valid, demoSt] at this

/-! ### A feature removed before its slot is reached does not advance -/

lemma run_not_visited {cfg : Cfg} {env : Env P W K n nCam} {s s' : St P W K n nCam} {j : Fin n} (hr : Run cfg env s s')
    (hv : s.valid j = false) (hl : ∀ v ∈ s.log, v.i ≠ j) : s'.valid j = false ∧ ∀ v ∈ s'.log, v.i ≠ j := by
  induction hr with
  | done s h => exact ⟨hv, hl⟩
  | step s s1 s2 h hs _ ih =>
    cases hi : s.valid ⟨s.id, h⟩ with
    | false =>
      simp only [visitOnce, hi, Bool.false_eq_true, if_false, Option.some.injEq] at hs
      subst hs
      obtain ⟨f1, _, _, f4, _⟩ := advance_fields (cfg := cfg) s
      exact ih (by simpa [St.valid, f1] using hv) (by rw [f4]; exact hl)
    | true =>
      obtain ⟨c, res, s3, _, rfl, C⟩ := visit_core hi hs
      obtain ⟨f1, _, _, f4, _⟩ := advance_fields (cfg := cfg) s3
      have hne : (⟨s.id, h⟩ : Fin n) ≠ j := fun hh => by rw [hh, hv] at hi; simp at hi
      refine ih ?_ ?_
      · have : (advance cfg s3).valid j = s3.valid j := by simp [St.valid, f1]
        rw [this]
        by_contra hc
        have := C.valid j (by simpa using hc)
        rw [hv] at this; simp at this
      · rw [f4, C.log]
        intro v hv'
        rcases List.mem_append.mp hv' with h1 | h1
        · exact hl v h1
        · rw [List.mem_singleton.mp h1]; exact hne

/-- Finding (exception to "exactly once" for features valid at the start): with removal of negative features enabled, the
update of slot 0 removes slot 1 whose distance has become negative, before the scan reaches it: its statistics do not
advance although it was valid at the start. -/
theorem C34_finding_removed_before_visit :
    ∃ r, loop (demoCfg false true) (demoEnv 2 1 fun i => if i = 1 then -1 else 1) (2 * 1 + 1)
        (start (demoCfg false true) (demoEnv 2 1 fun i => if i = 1 then -1 else 1) (demoSt 2 1 (fun _ => true) fun _ => 0)) = some r ∧
      (demoSt 2 1 (fun _ => true) fun _ => 0).valid 1 = true ∧ r.valid 1 = false ∧ (r.ext 1).stat.totCount = 0 ∧
      (r.ext 0).stat.totCount = 1 := by
  set cfg := demoCfg false true with hcfg
  set env := demoEnv 2 1 fun i => if i = 1 then -1 else 1 with henv
  set s := demoSt 2 1 (fun _ => true) fun _ => 0 with hs
  obtain ⟨r, hr, hI, hid⟩ := scan_result cfg env (by norm_num) s (by
    intro j _; simp only [St.camID, hs, demoSt, demoFC]; norm_num)
  obtain ⟨e1, e2, e3, e4, e5, e6, e7⟩ := start_fields cfg env s
  refine ⟨r, hr, by simp [hs, St.valid, demoSt], ?_⟩
  have hrun := loop_run _ _ _ hr
  cases hrun with
  | done _ h => rw [e1] at h; simp at h
  | step _ s1 _ h hv hrest =>
    have hfin : (⟨(start cfg env s).id, h⟩ : Fin 2) = 0 := by apply Fin.ext; simp [e1]
    rw [hfin] at hv
    have hval : (start cfg env s).valid 0 = true := by unfold St.valid; rw [e4]; rfl
    have hcam : (start cfg env s).camID 0 = 0 := by unfold St.camID; rw [e4]; rfl
    have hact : activeCam 1 (start cfg env s).cam ((start cfg env s).camID 0) = some 0 := by
      rw [e2, hcam]; simp [activeCam]
    have hprobe : probe cfg env ((start cfg env s).enter 0) 0 0 = .inl ((start cfg env s).enter 0) := by
      simp [probe, henv, demoEnv, hcfg, demoCfg]
    simp only [visitOnce, hval, if_true, hact, hprobe, Option.some.injEq] at hv
    set s2 := (start cfg env s).enter 0 with hs2
    obtain ⟨n1, n2, n3, n4, n5, n6, n7, n8⟩ := enter_fields (start cfg env s) 0
    obtain ⟨r1, r2, r3, r4, r5, r6, r7, r8⟩ := removeNegative_fields (cfg := cfg) (env := env) (applyUpdate env s2 0 0).1
    obtain ⟨a1, a2, a3, a4, a5, a6, a7⟩ := applyUpdate_fields (env := env) s2 0 0
    have hs1v : s1.valid 1 = false ∧ (∀ v ∈ s1.log, v.i ≠ 1) := by
      rw [← hv]
      unfold postVisit
      simp only
      have h0 : (removeNegative cfg env (applyUpdate env s2 0 0).1).valid 0 = true := by
        rw [r8]
        refine ⟨by rw [a1]; simpa [St.valid, n1, hs2] using hval, ?_⟩
        simp only [henv, demoEnv, hcfg, demoCfg, true_and]; norm_num
      rw [h0]
      simp only [if_true]
      obtain ⟨f1, _, _, f4, _⟩ := advance_fields (cfg := cfg) ((removeNegative cfg env (applyUpdate env s2 0 0).1).setStatus 0 0
        (verdict env (removeNegative cfg env (applyUpdate env s2 0 0).1) (applyUpdate env s2 0 0).2 0 0))
      constructor
      · have hh := r8 1
        unfold St.valid
        rw [f1, setStatus_fsm]
        by_contra hc
        have := (hh.mp (by simpa [St.valid] using hc)).2
        simp only [henv, demoEnv, hcfg, demoCfg, true_and, if_true] at this
        norm_num at this
      · rw [f4]
        intro v hv'
        have hlog : (removeNegative cfg env (applyUpdate env s2 0 0).1).log = [] := by rw [r5, a7, hs2, n5, e3]
        simp only [St.setStatus, hlog, List.nil_append, List.mem_singleton] at hv'
        rw [hv']; simp
    obtain ⟨g1, g2⟩ := run_not_visited hrest hs1v.1 hs1v.2
    refine ⟨g1, ?_, ?_⟩
    · rw [hI.unseen 1 g2, e5]; rfl
    · have hvis : ∃ v ∈ r.log, v.i = 0 := by
        have h0v : r.valid 0 = true := by
          -- slot 0 keeps its positive distance
          have key : ∀ a b : St ℝ Unit Unit 2 1, Run cfg env a b → a.valid 0 = true → b.valid 0 = true := by
            intro a b hab
            induction hab with
            | done => exact id
            | step a a1 a2 ha hstep _ ih =>
              intro h0
              apply ih
              cases hai : a.valid ⟨a.id, ha⟩ with
              | false =>
                simp only [visitOnce, hai, Bool.false_eq_true, if_false, Option.some.injEq] at hstep
                subst hstep
                simpa [St.valid, (advance_fields (cfg := cfg) a).1] using h0
              | true =>
                simp only [visitOnce, hai, if_true] at hstep
                cases hac : activeCam 1 a.cam (a.camID ⟨a.id, ha⟩) with
                | none => simp [hac] at hstep
                | some c =>
                  have hp : probe cfg env (a.enter ⟨a.id, ha⟩) ⟨a.id, ha⟩ c = .inl (a.enter ⟨a.id, ha⟩) := by
                    simp [probe, henv, demoEnv, hcfg, demoCfg]
                  simp only [hac, hp, Option.some.injEq] at hstep
                  rw [← hstep]
                  obtain ⟨_, _, _, _, _, _, _, q8⟩ := removeNegative_fields (cfg := cfg) (env := env)
                    (applyUpdate env (a.enter ⟨a.id, ha⟩) ⟨a.id, ha⟩ c).1
                  have hkeep : (removeNegative cfg env (applyUpdate env (a.enter ⟨a.id, ha⟩) ⟨a.id, ha⟩ c).1).valid 0 = true := by
                    rw [q8]
                    refine ⟨by rw [(applyUpdate_fields (env := env) _ _ _).1]; simpa [St.valid, (enter_fields a _).1] using h0, ?_⟩
                    simp only [henv, demoEnv, hcfg, demoCfg, true_and]; norm_num
                  unfold postVisit
                  simp only
                  split
                  · unfold St.valid; rw [(advance_fields _).1, setStatus_fsm]; exact hkeep
                  · unfold St.valid; rw [(advance_fields _).1]; exact hkeep
          exact key _ _ (loop_run _ _ _ hr) hval
        obtain ⟨v, hv', hvi, _⟩ := hI.complete 0 0 h0v (Or.inr (by simp [hcam])) (by
          have : r.id = 2 := le_antisymm hI.id_le (not_lt.mp hid)
          have h1 := offset_lt (a := (start cfg env s).camID 0) (0 : Fin 1)
          unfold Spec.rank pos
          simp only [Fin.val_zero]; omega)
        exact ⟨v, hv', hvi⟩
      rw [hI.seen 0 hvis, e5]
      rfl

/-! ### C37 -/

lemma removeNegative_cov (cfg : Cfg) (env : Env P W K n nCam) (s : St P W K n nCam) (hc : cfg.removeNegative = true) :
    (removeNegative cfg env s).cov =
      ((List.finRange n).filter fun i => s.valid i && decide (env.dist s.w i < 1e-8)).foldl env.resetCov s.cov := by
  unfold removeNegative
  rw [if_pos hc]
  have : ∀ (l : List (Fin n)) (s : St P W K n nCam), l.Nodup →
      (l.foldl (fun s i => if s.valid i then (if env.dist s.w i < 1e-8 then s.remove env i else s) else s) s).cov =
      (l.filter fun i => s.valid i && decide (env.dist s.w i < 1e-8)).foldl env.resetCov s.cov := by
    intro l
    induction l with
    | nil => simp
    | cons a l ih =>
      intro s hnd
      rw [List.nodup_cons] at hnd
      simp only [List.foldl_cons]
      cases hv : s.valid a with
      | false =>
        simp only [Bool.false_eq_true, if_false]
        rw [ih s hnd.2, List.filter_cons, hv]; simp
      | true =>
        by_cases hd : env.dist s.w a < 1e-8
        · simp only [if_true, hd]
          obtain ⟨_, _, _, _, _, g6, _, g8⟩ := remove_fields (env := env) s a
          rw [ih _ hnd.2, List.filter_cons, hv]
          simp only [hd, decide_true, Bool.and_self, if_true, List.foldl_cons, g6]
          have hf : (l.filter fun i => (s.remove env a).valid i && decide (env.dist s.w i < 1e-8)) =
              l.filter fun i => s.valid i && decide (env.dist s.w i < 1e-8) := by
            apply List.filter_congr
            intro x hx
            have : x ≠ a := fun h => hnd.1 (h ▸ hx)
            rw [g8]; simp [this]
          rw [hf]; rfl
        · simp only [if_true, hd, if_false]
          rw [ih s hnd.2, List.filter_cons, hv]; simp [hd]
  exact this _ s (List.nodup_finRange n)

/-- C37: after the post-processing of the update of any feature, with removal of negative features enabled, the valid
features are exactly those that were valid and have distance at least 1e-8; the estimate is not touched, and the covariance
blocks reset are those of the removed features. -/
theorem C37_nonpositive_removed (cfg : Cfg) (env : Env P W K n nCam) (s : St P W K n nCam) (ok : Bool) (i : Fin n) (c : Fin nCam)
    (hc : cfg.removeNegative = true) :
    (∀ j, (postVisit cfg env s ok i c).valid j = true ↔ s.valid j = true ∧ ¬ env.dist s.w j < 1e-8) ∧
    (postVisit cfg env s ok i c).w = s.w ∧
    (postVisit cfg env s ok i c).cov =
      ((List.finRange n).filter fun j => s.valid j && decide (env.dist s.w j < 1e-8)).foldl env.resetCov s.cov := by
  obtain ⟨r1, r2, r3, r4, r5, r6, r7, r8⟩ := removeNegative_fields (cfg := cfg) (env := env) s
  have hcov := removeNegative_cov cfg env s hc
  unfold postVisit
  simp only
  split
  · refine ⟨fun j => ?_, ?_, ?_⟩
    · unfold St.valid
      rw [(advance_fields _).1, setStatus_fsm]
      have := r8 j
      rw [hc] at this
      simpa [St.valid] using this
    · rw [(advance_fields _).2.2.2.2]; exact r6
    · unfold advance; split <;> exact hcov
  · refine ⟨fun j => ?_, ?_, ?_⟩
    · unfold St.valid
      rw [(advance_fields _).1]
      have := r8 j
      rw [hc] at this
      simpa [St.valid] using this
    · rw [(advance_fields _).2.2.2.2]; exact r6
    · unfold advance; split <;> exact hcov

/-- C34: the status recorded by the update of a feature that survives it: tracked exactly when the measurement was not
rejected as an outlier and the feature is still inside the image; otherwise failed tracking.  The statuses in other cameras and
of other features, and all other statistics, stay as they are. -/
theorem C34_update_status (cfg : Cfg) (env : Env P W K n nCam) (s : St P W K n nCam) (ok : Bool) (i : Fin n) (c : Fin nCam)
    (hv : (postVisit cfg env s ok i c).valid i = true) :
    (((postVisit cfg env s ok i c).ext i).stat.status c = .tracked ↔ ok = true ∧ env.inPost (removeNegative cfg env s) i c = true) ∧
    (((postVisit cfg env s ok i c).ext i).stat.status c ≠ .tracked → ((postVisit cfg env s ok i c).ext i).stat.status c = .failedTracking) ∧
    (∀ k, k ≠ c → ((postVisit cfg env s ok i c).ext i).stat.status k = (s.ext i).stat.status k) ∧
    (∀ j, j ≠ i → (postVisit cfg env s ok i c).ext j = s.ext j) ∧
    { ((postVisit cfg env s ok i c).ext i).stat with status := (s.ext i).stat.status } = (s.ext i).stat := by
  obtain ⟨r1, r2, r3, r4, r5, r6, r7, r8⟩ := removeNegative_fields (cfg := cfg) (env := env) s
  have hval : (removeNegative cfg env s).valid i = true := by
    by_contra hc
    unfold postVisit at hv
    simp only [hc, Bool.false_eq_true, if_false] at hv
    unfold St.valid at hv hc
    rw [(advance_fields _).1] at hv
    exact hc hv
  have e : (postVisit cfg env s ok i c).ext = ((removeNegative cfg env s).setStatus i c (verdict env (removeNegative cfg env s) ok i c)).ext := by
    unfold postVisit
    simp only [hval, if_true]
    rw [(advance_fields _).2.1]
  rw [e]
  simp only [St.setStatus, Function.update_self, r1, verdict]
  refine ⟨?_, ?_, ?_, ?_, trivial⟩
  · cases ok <;> cases env.inPost (removeNegative cfg env s) i c <;> simp
  · cases ok <;> cases env.inPost (removeNegative cfg env s) i c <;> simp
  · intro k hk; rw [Function.update_of_ne hk]
  · intro j hj; rw [Function.update_of_ne hj]

/-- C37 with the removal disabled: nothing is invalidated. -/
theorem C37_disabled (cfg : Cfg) (env : Env P W K n nCam) (s : St P W K n nCam) (ok : Bool) (i : Fin n) (c : Fin nCam)
    (hc : cfg.removeNegative = false) : ∀ j, (postVisit cfg env s ok i c).valid j = s.valid j := by
  intro j
  have : removeNegative cfg env s = s := by simp [removeNegative, hc]
  unfold postVisit
  simp only [this]
  split
  · unfold St.valid; rw [(advance_fields _).1, setStatus_fsm]
  · unfold St.valid; rw [(advance_fields _).1]

/-- C37 for a whole image: after the scan, either no feature was updated at all, or every feature that is still valid has a
distance of at least 1e-8. -/
theorem C37_after_image (cfg : Cfg) (env : Env P W K n nCam) (s r : St P W K n nCam) (fuel : ℕ)
    (hc : cfg.removeNegative = true) (h : loop cfg env fuel (start cfg env s) = some r) :
    (∀ v ∈ r.log, v.result = some .notInFrame ∨ v.result = some .failedAlignment) ∧ r.w = s.w ∨
    ∀ i, r.valid i = true → ¬ env.dist r.w i < 1e-8 := by
  obtain ⟨e1, e2, e3, e4, e5, e6, e7⟩ := start_fields cfg env s
  have key : ∀ a b : St P W K n nCam, Run cfg env a b →
      ((∀ v ∈ a.log, v.result = some .notInFrame ∨ v.result = some .failedAlignment) ∧ a.w = s.w ∨
        ∀ i, a.valid i = true → ¬ env.dist a.w i < 1e-8) →
      ((∀ v ∈ b.log, v.result = some .notInFrame ∨ v.result = some .failedAlignment) ∧ b.w = s.w ∨
        ∀ i, b.valid i = true → ¬ env.dist b.w i < 1e-8) := by
    intro a b hab
    induction hab with
    | done => exact id
    | step a a1 a2 ha hstep _ ih =>
      intro hq
      apply ih
      cases hai : a.valid ⟨a.id, ha⟩ with
      | false =>
        simp only [visitOnce, hai, Bool.false_eq_true, if_false, Option.some.injEq] at hstep
        subst hstep
        obtain ⟨f1, f2, f3, f4, f5⟩ := advance_fields (cfg := cfg) a
        simpa [St.valid, f1, f4, f5] using hq
      | true =>
        simp only [visitOnce, hai, if_true] at hstep
        cases hac : activeCam nCam a.cam (a.camID ⟨a.id, ha⟩) with
        | none => simp [hac] at hstep
        | some c =>
          simp only [hac] at hstep
          obtain ⟨n1, n2, n3, n4, n5, n6, n7, n8⟩ := enter_fields a ⟨a.id, ha⟩
          cases hp : probe cfg env (a.enter ⟨a.id, ha⟩) ⟨a.id, ha⟩ c with
          | inl s2 =>
            simp only [hp, Option.some.injEq] at hstep
            subst hstep
            right
            obtain ⟨c1, c2, _⟩ := C37_nonpositive_removed cfg env (applyUpdate env s2 ⟨a.id, ha⟩ c).1
              (applyUpdate env s2 ⟨a.id, ha⟩ c).2 ⟨a.id, ha⟩ c hc
            intro i hi
            rw [c2]; exact ((c1 i).mp hi).2
          | inr st =>
            simp only [hp, Option.some.injEq] at hstep
            subst hstep
            obtain ⟨f1, f2, f3, f4, f5⟩ := advance_fields (cfg := cfg) ((a.enter ⟨a.id, ha⟩).setStatus ⟨a.id, ha⟩ c st)
            have hw : (advance cfg ((a.enter ⟨a.id, ha⟩).setStatus ⟨a.id, ha⟩ c st)).w = a.w := by rw [f5]; exact n8
            rcases hq with ⟨q1, q2⟩ | q
            · left
              refine ⟨?_, by rw [hw]; exact q2⟩
              rw [f4]
              intro v hv
              simp only [St.setStatus, n5, List.mem_append, List.mem_singleton] at hv
              rcases hv with hv | rfl
              · exact q1 v hv
              · simp only [Option.some.injEq]
                unfold probe at hp
                split at hp
                · left; cases hp; rfl
                · split at hp
                  · simp at hp
                  · split at hp
                    · split at hp
                      · split at hp
                        · right; cases hp; rfl
                        · simp at hp
                      · right; cases hp; rfl
                    · right; cases hp; rfl
            · right
              intro i hi
              rw [hw]
              apply q i
              simpa [St.valid, f1, n1] using hi
  exact key _ _ (loop_run _ _ _ h) (Or.inl ⟨by simp [e3], e7⟩)

/-- Distances -1, 1, 0: exactly the middle feature survives. -/
example : ∀ j : Fin 3, (postVisit (demoCfg false true) (demoEnv 3 1 ![-1, 1, 0]) (demoSt 3 1 (fun _ => true) fun _ => 0) true 0 0).valid j = true ↔
    j = 1 := by
  intro j
  rw [(C37_nonpositive_removed _ _ _ _ _ _ rfl).1]
  fin_cases j <;> simp [demoEnv, St.valid, demoSt] <;> norm_num

/-- Non-vacuity of `C34_update_status`: the surviving middle feature is tracked when its measurement is accepted, and has failed
tracking when it is an outlier. -/
example : ∀ ok, (((postVisit (demoCfg false true) (demoEnv 3 1 ![-1, 1, 0]) (demoSt 3 1 (fun _ => true) fun _ => 0) ok 1 0).ext 1).stat.status 0 =
    .tracked ↔ ok = true) := by
  intro ok
  rw [(C34_update_status _ _ _ ok 1 0 ?_).1]
  · simp [demoEnv]
  · rw [(C37_nonpositive_removed _ _ _ _ _ _ rfl).1]
    simp [demoEnv, St.valid, demoSt]; norm_num

end Rovio.Img
