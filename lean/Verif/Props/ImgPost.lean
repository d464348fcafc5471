import Verif.Lemmas.ImgPost
import Verif.Props.ImgScan
import Mathlib.Tactic.FinCases

/-! # Properties C35, C36, C38, C39, C69, C70: after the scan of an image -/

namespace Rovio.Img

open Stat

variable {P W K : Type} {n nCam : ℕ}

/-! ### C35: forced removal -/

lemma truncZ_bounds (x : ℝ) : x - 1 < truncZ x ∧ (truncZ x : ℝ) ≤ max x 0 := by
  unfold truncZ
  split
  · exact ⟨Int.sub_one_lt_floor x, (Int.floor_le x).trans (le_max_left _ _)⟩
  · rename_i h
    refine ⟨by have := Int.le_ceil x; linarith, ?_⟩
    have : ⌈x⌉ ≤ 0 := Int.ceil_le.mpr (by push_cast; linarith)
    exact le_trans (by exact_mod_cast this) (le_max_right _ _)

lemma truncZ_int (z : ℤ) : truncZ (z : ℝ) = z := by unfold truncZ; simp

/-- C35: with statistics that some history of operations produces, a removal factor above 1, thresholds `upper > 0`,
`lower ≥ 0` and a requested share of at most 1, the forced-removal loop ends (the same result for all sufficient fuel); a
feature tracked in some camera stays, no feature is added, nothing but the validity of slots changes, and the number `T` of
tracked features the caller counted (at least those tracked now) plus the free slots reaches the requested share up to
rounding down to an integer. -/
theorem C35_forced_removal (cfg : Cfg) (env : Env P W K n nCam) (s : St P W K n nCam)
    (hstat : ∀ i, s.valid i = true → Spec.Reachable (s.ext i).stat)
    (hrf : 1 < cfg.removalFactor) (hu : 0 < cfg.upper) (hl : 0 ≤ cfg.lower) (hshare : cfg.minTrackedAndFree ≤ 1)
    (T : ℕ) (hT : Spec.tracked s ≤ T) (hTn : T ≤ n) (req : ℤ) (hreq : requiredFree n cfg T = some req) :
    ∃ fuel0 r, (∀ fuel, fuel0 ≤ fuel → forced cfg env req fuel cfg.removalFactor 0 s = some r) ∧
      (∀ i, s.valid i = true → (∃ c, (s.ext i).stat.status c = .tracked) → r.valid i = true) ∧
      (∀ i, r.valid i = true → s.valid i = true) ∧ r.ext = s.ext ∧
      (∀ i, r.fsm.slots i = { s.fsm.slots i with valid := (r.fsm.slots i).valid }) ∧
      (n : ℝ) * cfg.minTrackedAndFree - 1 < T + Spec.free r ∧
      (∀ z : ℤ, (n : ℝ) * cfg.minTrackedAndFree = z → (n : ℝ) * cfg.minTrackedAndFree ≤ T + Spec.free r) := by
  have hreq' : req = truncZ ((n : ℝ) * cfg.minTrackedAndFree - T) := by
    unfold requiredFree cInt at hreq
    split at hreq
    · exact (Option.some.inj hreq).symm
    · simp at hreq
  have hle : req ≤ (n : ℤ) - countTracked s := by
    have h1 := (truncZ_bounds ((n : ℝ) * cfg.minTrackedAndFree - T)).2
    rw [← hreq'] at h1
    have h2 : (n : ℝ) * cfg.minTrackedAndFree ≤ n := by
      calc _ ≤ (n : ℝ) * 1 := mul_le_mul_of_nonneg_left hshare (Nat.cast_nonneg n)
        _ = n := mul_one _
    have h3 : ((n : ℝ) * cfg.minTrackedAndFree - T) ⊔ 0 ≤ (n : ℝ) - T := max_le (by linarith) (by
      have : (T : ℝ) ≤ n := by exact_mod_cast hTn
      linarith)
    have h4 : (req : ℝ) ≤ ((n - T : ℤ) : ℝ) := by push_cast; linarith
    have h5 : req ≤ (n : ℤ) - T := by exact_mod_cast h4
    rw [tracked_eq]
    have : (Spec.tracked s : ℤ) ≤ T := by exact_mod_cast hT
    omega
  obtain ⟨fuel, r, hr⟩ := forced_terminates (cfg := cfg) (env := env) req s (fun j hj => reachable_bounded (hstat j hj)) hrf hu hl
    cfg.removalFactor (by linarith) hle
  obtain ⟨hsub, hfree⟩ := forced_sub req fuel cfg.removalFactor 0 s r hr
  have hf : (req : ℝ) ≤ Spec.free r := by
    have : req ≤ (Spec.free r : ℤ) := by rw [free_eq]; exact hfree
    exact_mod_cast this
  refine ⟨fuel, r, fun f hf => ?_, fun i hi ht => hsub.tracked i hi ((trackedInSomeFrame_iff _).mpr ht), hsub.valid, hsub.ext, hsub.slots, ?_, ?_⟩
  · obtain ⟨d, rfl⟩ := Nat.exists_eq_add_of_le hf
    exact forced_mono _ _ _ _ _ _ _ hr
  · have h1 := (truncZ_bounds ((n : ℝ) * cfg.minTrackedAndFree - T)).1
    rw [← hreq'] at h1
    linarith
  · intro z hz
    have h1 : (n : ℝ) * cfg.minTrackedAndFree - T = ((z - T : ℤ) : ℝ) := by push_cast; rw [hz]
    rw [h1, truncZ_int] at hreq'
    rw [hz]
    have h2 : ((z - T : ℤ) : ℝ) ≤ Spec.free r := by rw [← hreq']; exact hf
    push_cast at h2
    linarith

/-- One feature, never seen so far: an example of the hypotheses in which the loop has to remove it. -/
example : ∃ fuel0 r, (∀ fuel, fuel0 ≤ fuel → forced { demoCfg false false with minTrackedAndFree := 1 } (demoEnv 1 1 fun _ => 1) 1 fuel (11 / 10) 0
    (demoSt 1 1 (fun _ => true) fun _ => 0) = some r) ∧ r.valid 0 = false := by
  have htr : Spec.tracked (demoSt 1 1 (fun _ => true) fun _ => 0) = 0 := by
    unfold Spec.tracked
    rw [Finset.card_eq_zero, Finset.filter_eq_empty_iff]
    intro i _
    simp [demoSt, init, resetStatistics]
  obtain ⟨fuel0, r, h1, _, _, _, _, _, h6⟩ := C35_forced_removal { demoCfg false false with minTrackedAndFree := 1 } (demoEnv 1 1 fun _ => 1)
    (demoSt 1 1 (fun _ => true) fun _ => 0) (fun i _ => ⟨10, 100, 100, 0, [], by norm_num, by norm_num, by norm_num, rfl⟩)
    (by simp only [demoCfg]; norm_num) (by simp only [demoCfg]; norm_num) (by simp only [demoCfg]; norm_num) (by simp)
    0 (by rw [htr]) (by norm_num) 1 (by simp [requiredFree, cInt, truncZ])
  refine ⟨fuel0, r, h1, ?_⟩
  have := h6 1 (by simp)
  simp only [Nat.cast_one, mul_one, Nat.cast_zero, zero_add] at this
  have h1f : 1 ≤ Spec.free r := by exact_mod_cast this
  by_contra hc
  have : Spec.free r = 0 := by
    unfold Spec.free
    rw [Finset.card_eq_zero, Finset.filter_eq_empty_iff]
    intro i _
    have : i = 0 := Subsingleton.elim _ _
    subst this
    exact hc
  omega

/-- Finding: with a removal factor of at most 1 the loop never ends in any state in which free slots are missing and every
valid feature is tracked or good — whatever the number of iterations. -/
theorem C35_finding_factor_at_most_one (cfg : Cfg) (env : Env P W K n nCam) (s : St P W K n nCam) (req : ℤ)
    (hstat : ∀ i, s.valid i = true → Spec.Reachable (s.ext i).stat)
    (hrf : 0 ≤ cfg.removalFactor) (hrf1 : cfg.removalFactor ≤ 1) (hu : 0 ≤ cfg.upper) (hl : 0 ≤ cfg.lower)
    (hgood : ∀ i, s.valid i = true → trackedInSomeFrame (s.ext i).stat = true ∨ isGoodFeature (s.ext i).stat cfg.upper cfg.lower = true)
    (hmiss : (Spec.free s : ℤ) < req) : ∀ fuel, forced cfg env req fuel cfg.removalFactor 0 s = none := by
  rw [free_eq] at hmiss
  have hmono : ∀ (x : ℝ) i, 0 ≤ x → x ≤ 1 → s.valid i = true → isGoodFeature (s.ext i).stat cfg.upper cfg.lower = true →
      isGoodFeature (s.ext i).stat (cfg.upper * x) (cfg.lower * x) = true := by
    intro x i hx0 hx1 hv hg
    rw [C07_acceptance] at hg ⊢
    obtain ⟨j, hj⟩ := hg
    refine ⟨j, ?_⟩
    have hb := reachable_bounded (hstat i hv)
    have hg0 : 0 ≤ getGlobalQuality (s.ext i).stat ∧ getGlobalQuality (s.ext i).stat ≤ 1 := by
      obtain ⟨lq, lv, mg, t, ops, h1, h2, h3, he⟩ := hstat i hv
      have := C05_qualities_in_unit_interval lq lv mg h1 h2 h3 t ops
      rw [← he] at this
      exact this.2.2.2.2.2
    have h1 := mul_nonneg hu (sub_nonneg.mpr hg0.2)
    have h2 := mul_nonneg hl hg0.1
    have h3 : cfg.upper * x * (1 - getGlobalQuality (s.ext i).stat) + cfg.lower * x * getGlobalQuality (s.ext i).stat =
        x * (cfg.upper * (1 - getGlobalQuality (s.ext i).stat) + cfg.lower * getGlobalQuality (s.ext i).stat) := by ring
    rw [h3]
    calc _ ≤ 1 * (cfg.upper * (1 - getGlobalQuality (s.ext i).stat) + cfg.lower * getGlobalQuality (s.ext i).stat) :=
          mul_le_mul_of_nonneg_right hx1 (by linarith)
      _ < _ := by rw [one_mul]; exact hj
  have key : ∀ fuel (x : ℝ) (k : ℕ), 0 ≤ x → x ≤ 1 → forced cfg env req fuel x k s = none := by
    intro fuel
    induction fuel with
    | zero => intro x k _ _; unfold forced; simp [hmiss]
    | succ fuel ih =>
      intro x k hx0 hx1
      unfold forced
      simp only [hmiss, if_true]
      by_cases hk : k < n
      · simp only [hk, dif_pos]
        have hsame : forceOne cfg env x s ⟨k, hk⟩ = s := by
          unfold forceOne
          cases hv : s.valid ⟨k, hk⟩ with
          | false => simp
          | true =>
            simp only [if_true]
            rw [if_neg]
            rintro ⟨h1, h2⟩
            rcases hgood _ hv with h | h
            · rw [h1] at h; simp at h
            · rw [hmono x _ hx0 hx1 hv h] at h2; simp at h2
        rw [hsame]
        split
        · exact ih _ _ (mul_nonneg hx0 hrf) (mul_le_one₀ hx1 hrf hrf1)
        · exact ih _ _ hx0 hx1
      · simp [hk]
  exact fun fuel => key fuel _ _ hrf hrf1

/-- The hypotheses of the finding are met by one fresh feature, factor 1 and a share of 1. -/
example : ∀ fuel, forced { demoCfg false false with minTrackedAndFree := 1, removalFactor := 1 } (demoEnv 1 1 fun _ => 1) 1 fuel 1 0
    (demoSt 1 1 (fun _ => true) fun _ => 0) = none := by
  refine C35_finding_factor_at_most_one { demoCfg false false with minTrackedAndFree := 1, removalFactor := 1 } (demoEnv 1 1 fun _ => 1)
    (demoSt 1 1 (fun _ => true) fun _ => 0) 1 (fun i _ => ⟨10, 100, 100, 0, [], by norm_num, by norm_num, by norm_num, rfl⟩)
    (by simp) (by simp) (by simp only [demoCfg]; norm_num) (by simp only [demoCfg]; norm_num) ?_ ?_
  · intro i _
    right
    rw [C07_acceptance]
    refine ⟨0, ?_⟩
    simp [demoSt, demoCfg, init, resetStatistics, getLocalQuality, getLocalVisibility, getGlobalQuality, Stat.countTracked,
      trackedInSomeFrame, filtDown]
    norm_num
  · simp [Spec.free, demoSt]

/-- Finding: if more slots are requested than can be free with the tracked features left alone (a share above 1), the loop
never ends. -/
theorem C35_finding_share_above_one (cfg : Cfg) (env : Env P W K n nCam) (s : St P W K n nCam) (req : ℤ)
    (hreq : (n : ℤ) - Spec.tracked s < req) : ∀ fuel, forced cfg env req fuel cfg.removalFactor 0 s = none := by
  intro fuel
  cases h : forced cfg env req fuel cfg.removalFactor 0 s with
  | none => rfl
  | some r =>
    exfalso
    obtain ⟨hsub, hfree⟩ := forced_sub req fuel cfg.removalFactor 0 s r h
    have : Spec.tracked s ≤ r.fsm.getValidCount := by
      rw [← tracked_eq, countTracked_eq, validCount_eq]
      apply Finset.card_le_card
      intro i hi
      simp only [Finset.mem_filter, Finset.mem_univ, true_and] at hi ⊢
      exact hsub.tracked i hi.1 hi.2
    omega

/-- With a share of 2 and one tracked feature the request is 1, more than the 0 slots that can be freed. -/
example : requiredFree 1 { demoCfg false false with minTrackedAndFree := 2 } 1 = some 1 := by
  unfold requiredFree cInt
  have : ((1:ℕ) : ℝ) * 2 - (1:ℕ) = ((1 : ℤ) : ℝ) := by norm_num
  simp only [this, truncZ_int]
  norm_num

/-- A feature that was lost once and is tracked again, with a quality range of 2. -/
noncomputable def lostAndFound : FeatureStatistics 1 :=
  run (init 2 100 100 0) [.setStatus 0 .failedTracking, .increase 1, .setStatus 0 .tracked]

/-- Finding: the tracked features are counted before bad features are removed.  Slot 0 is tracked but bad, slot 1 is good
but not tracked; with a requested share of all slots, removal of bad features and forced removal end with one feature that
is not tracked: tracked plus free slots fall short of the request. -/
theorem C35_finding_counted_before_removal :
    ∃ (cfg : Cfg) (env : Env ℝ Unit Unit 2 1) (s r : St ℝ Unit Unit 2 1) (req : ℤ), 1 < cfg.removalFactor ∧ 0 < cfg.upper ∧
      0 ≤ cfg.lower ∧ cfg.minTrackedAndFree ≤ 1 ∧ (∀ i, Spec.Reachable (s.ext i).stat) ∧
      requiredFree 2 cfg (Spec.tracked s) = some req ∧
      (∀ fuel, forced cfg env req fuel cfg.removalFactor 0 (removeBad cfg env s) = some r) ∧
      (Spec.tracked r + Spec.free r : ℝ) < ((2:ℕ) : ℝ) * cfg.minTrackedAndFree := by
  let cfg : Cfg := { demoCfg false false with upper := 4 / 5, lower := 4 / 5, minTrackedAndFree := 1, removalFactor := 2 }
  let env := demoEnv 2 1 fun _ => 1
  let s : St ℝ Unit Unit 2 1 := { demoSt 2 1 (fun _ => true) (fun _ => 0) with ext := ![⟨lostAndFound, 0⟩, ⟨init 2 100 100 0, 0⟩] }
  have hbad : isGoodFeature (s.ext 0).stat cfg.upper cfg.lower = false := by
    rw [Bool.eq_false_iff, ne_eq, C07_acceptance]
    rintro ⟨i, hi⟩
    have : i = 0 := Subsingleton.elim _ _
    subst this
    simp [s, cfg, lostAndFound, run, step, init, resetStatistics, increaseStatistics, getLocalQuality, getLocalVisibility,
      qualityStep, visibilityStep, visible, filtDown, filtUp] at hi
    norm_num at hi
    linarith
  have hgood : isGoodFeature (s.ext 1).stat cfg.upper cfg.lower = true := by
    rw [C07_acceptance]
    refine ⟨0, ?_⟩
    simp [s, cfg, init, resetStatistics, getLocalQuality, getLocalVisibility, getGlobalQuality, Stat.countTracked,
      trackedInSomeFrame, filtDown]
    norm_num
  have htr0 : ∃ c, (s.ext 0).stat.status c = .tracked := ⟨0, by simp [s, lostAndFound, run, step]⟩
  have htr1 : ¬ ∃ c, (s.ext 1).stat.status c = .tracked := by
    rintro ⟨c, hc⟩; simp [s, init, resetStatistics] at hc
  have hT : Spec.tracked s = 1 := by
    unfold Spec.tracked
    rw [Finset.card_eq_one]
    refine ⟨0, ?_⟩
    ext i
    simp only [Finset.mem_filter, Finset.mem_univ, true_and, Finset.mem_singleton]
    fin_cases i
    · simp only [Fin.zero_eta, iff_true]; exact ⟨rfl, htr0⟩
    · simp only [Fin.mk_one, one_ne_zero, iff_false, not_and]; exact fun _ => htr1
  obtain ⟨b1, b2, b3, b4, b5, b6, b7, b8⟩ := removeBad_fields (cfg := cfg) (env := env) s
  have hv0 : ((removeBad cfg env s).fsm.slots 0).valid = false := by
    by_contra hc
    have := ((b8 0).mp (by simpa [St.valid] using hc)).2
    rw [hbad] at this; simp at this
  have hv1 : ((removeBad cfg env s).fsm.slots 1).valid = true := (b8 1).mpr ⟨rfl, hgood⟩
  have hfree : Spec.free (removeBad cfg env s) = 1 := by
    unfold Spec.free
    rw [Finset.card_eq_one]
    refine ⟨0, ?_⟩
    ext i
    simp only [Finset.mem_filter, Finset.mem_univ, true_and, Finset.mem_singleton]
    fin_cases i
    · simp only [Fin.zero_eta, iff_true]; exact hv0
    · simp only [Fin.mk_one, one_ne_zero, iff_false]; rw [hv1]; simp
  have htr : Spec.tracked (removeBad cfg env s) = 0 := by
    unfold Spec.tracked
    rw [Finset.card_eq_zero, Finset.filter_eq_empty_iff]
    intro i _
    rw [b1]
    fin_cases i
    · simp only [Fin.zero_eta, not_and]; intro h; rw [hv0] at h; simp at h
    · simp only [Fin.mk_one, not_and]; exact fun _ => htr1
  refine ⟨cfg, env, s, removeBad cfg env s, 1, by norm_num [cfg], by norm_num [cfg], by norm_num [cfg], by norm_num [cfg], ?_, ?_, ?_, ?_⟩
  · intro i
    fin_cases i
    · exact ⟨2, 100, 100, 0, _, by norm_num, by norm_num, by norm_num, rfl⟩
    · exact ⟨2, 100, 100, 0, [], by norm_num, by norm_num, by norm_num, rfl⟩
  · rw [hT]
    unfold requiredFree cInt
    have : ((2:ℕ) : ℝ) * cfg.minTrackedAndFree - (1:ℕ) = ((1 : ℤ) : ℝ) := by norm_num [cfg]
    simp only [this, truncZ_int]
    norm_num
  · intro fuel
    unfold forced
    have h := free_eq (removeBad cfg env s)
    rw [hfree] at h
    rw [if_neg (by omega)]
  · rw [htr, hfree]; norm_num [cfg]

/-! ### C36: detection -/

/-- C36: if at least the start-threshold share of the slots is valid, detection changes nothing. -/
theorem C36_threshold (I : USet) (order : Finset (Fin n) → List (Fin n)) (cfg : Cfg) (env : Env P W K n nCam) (s : St P W K n nCam)
    (h : cfg.startDetectionTh * n ≤ s.fsm.getValidCount) : detectAll I order cfg env s = some s := by
  unfold detectAll
  rw [if_neg (not_lt.mpr h)]

/-- C36, one camera: with sane detection arguments detection never fails; it adds at most (free slots)/(cameras left,
including this one) features, all belonging to this camera, with statistics reset at the current time and marked as tracked
in this camera; all other slots and their statistics stay as they are; the capacity is not exceeded. -/
theorem C36_budget {I : USet} {order : Finset (Fin n) → List (Fin n)} (hI : I.Lawful)
    (hord : ∀ S, (order S).Nodup ∧ ∀ i, i ∈ order S ↔ i ∈ S) (cfg : Cfg) (env : Env P W K n nCam) (med : Fin nCam → ℝ)
    (s : St P W K n nCam) (c : Fin nCam) (hsane : (env.detect s c).Sane) :
    ∃ r, detectCam I order cfg env med s c = some r ∧
      (Spec.added s r).card ≤ Spec.free s / (nCam - (c : ℕ)) ∧
      (∀ i ∈ Spec.added s r, (r.fsm.slots i).coord.camID = (c : ℕ) ∧ (r.ext i).lastPatch = s.t ∧
        (r.ext i).stat = Spec.withStatus (resetStatistics (s.ext i).stat s.t) fun c' => if c' = c then .tracked else .unknown) ∧
      (∀ i, i ∉ Spec.added s r → r.fsm.slots i = s.fsm.slots i ∧ r.ext i = s.ext i) ∧
      r.fsm.getValidCount = s.fsm.getValidCount + (Spec.added s r).card ∧ r.fsm.getValidCount ≤ n := by
  obtain ⟨r, h1, h2, h3, h4, h5, _⟩ := detectCam_spec (cfg := cfg) (env := env) hI hord med s c hsane
  refine ⟨r, h1, ?_, ?_, h5, h3, r.fsm.getValidCount_le⟩
  · rw [(budget_nonneg s c).1] at h2
    have hf := free_eq s
    have hle := s.fsm.getValidCount_le
    have : Spec.free s = n - s.fsm.getValidCount := by omega
    rw [this]
    exact_mod_cast h2
  · intro i hi
    obtain ⟨a, b⟩ := h4 i hi
    refine ⟨a, by rw [b], ?_⟩
    rw [b]
    unfold Spec.withStatus
    simp only [step, resetStatistics]
    congr 1
    funext c'
    by_cases hc : c' = c
    · subst hc; simp
    · simp [hc]

/-- C36: the last camera may fill all slots that are still free. -/
theorem C36_last_camera (nCam' : ℕ) (s : St P W K n (nCam' + 1)) :
    Spec.free s / ((nCam' + 1) - ((Fin.last nCam' : Fin (nCam' + 1)) : ℕ)) = Spec.free s := by
  simp

/-- Features tracked and reachable statistics, cameras in range: what detection needs and keeps. -/
def WellFormed (s : St P W K n nCam) : Prop := CamsOk s ∧ ∀ i, Spec.Reachable (s.ext i).stat

/-- C36, all cameras: detection never fails, keeps every feature there was (slot, statistics), leaves at most `n` features,
and the features added belong to cameras that exist. -/
theorem C36_all_cameras {I : USet} {order : Finset (Fin n) → List (Fin n)} (hI : I.Lawful)
    (hord : ∀ S, (order S).Nodup ∧ ∀ i, i ∈ order S ↔ i ∈ S) (cfg : Cfg) (env : Env P W K n nCam)
    (hsane : ∀ s c, (env.detect s c).Sane) (s : St P W K n nCam) (hs : WellFormed s) :
    ∃ r, detectAll I order cfg env s = some r ∧ WellFormed r ∧
      (∀ i, s.valid i = true → r.fsm.slots i = s.fsm.slots i ∧ r.ext i = s.ext i) ∧ r.fsm.getValidCount ≤ n := by
  have key : ∀ (med : Fin nCam → ℝ) (l : List (Fin nCam)) (s : St P W K n nCam), WellFormed s →
      ∃ r, l.foldlM (detectCam I order cfg env med) s = some r ∧ WellFormed r ∧
        ∀ i, s.valid i = true → r.fsm.slots i = s.fsm.slots i ∧ r.ext i = s.ext i := by
    intro med l
    induction l with
    | nil => intro s hs; exact ⟨s, rfl, hs, fun _ _ => ⟨rfl, rfl⟩⟩
    | cons c l ih =>
      intro s hs
      obtain ⟨s1, h1, h2, h3, h4, h5, _⟩ := detectCam_spec (cfg := cfg) (env := env) hI hord med s c (hsane s c)
      have hs1 : WellFormed s1 := by
        constructor
        · intro i hi
          by_cases ha : i ∈ Spec.added s s1
          · rw [(h4 i ha).1]
            have := c.isLt
            omega
          · unfold St.valid at hi
            unfold St.camID
            rw [(h5 i ha).1] at hi ⊢
            exact hs.1 i hi
        · intro i
          by_cases ha : i ∈ Spec.added s s1
          · rw [(h4 i ha).2]
            exact Reachable.step (Reachable.step (hs.2 i) (.reset s.t)) (.setStatus c .tracked)
          · rw [(h5 i ha).2]; exact hs.2 i
      obtain ⟨r, f1, f2, f3⟩ := ih s1 hs1
      refine ⟨r, by rw [List.foldlM_cons, h1]; exact f1, f2, fun i hi => ?_⟩
      have ha : i ∉ Spec.added s s1 := by
        unfold Spec.added
        simp only [Finset.mem_filter, Finset.mem_univ, true_and, not_and]
        intro h; unfold St.valid at hi; rw [h] at hi; simp at hi
      have h6 := h5 i ha
      have := f3 i (by unfold St.valid; rw [h6.1]; exact hi)
      exact ⟨this.1.trans h6.1, this.2.trans h6.2⟩
  unfold detectAll
  split
  · obtain ⟨r, h1, h2, h3⟩ := key (env.median s) (List.finRange nCam) s hs
    exact ⟨r, h1, h2, h3, r.fsm.getValidCount_le⟩
  · exact ⟨s, rfl, hs, fun _ _ => ⟨rfl, rfl⟩, s.fsm.getValidCount_le⟩

lemma demo_sane (n nCam : ℕ) (d : Fin n → ℝ) (s : St ℝ Unit Unit n nCam) (c : Fin nCam) : ((demoEnv n nCam d).detect s c).Sane where
  nb_pos := by simp [demoEnv]
  nb_le := by simp [demoEnv]
  z_nonneg := by simp [demoEnv]
  z_le := by simp [demoEnv]
  exp_nonneg := by simp [demoEnv]

lemma demo_order (n : ℕ) : ∀ S : Finset (Fin n), ((List.finRange n).filter (· ∈ S)).Nodup ∧ ∀ i, i ∈ (List.finRange n).filter (· ∈ S) ↔ i ∈ S :=
  fun S => ⟨(List.nodup_finRange n).filter _, by simp⟩

lemma demo_wf (n nCam : ℕ) (v : Fin n → Bool) (c : Fin n → ℤ) (hc : ∀ i, 0 ≤ c i ∧ c i < nCam) : WellFormed (demoSt n nCam v c) :=
  ⟨fun j _ => hc j, fun _ => ⟨10, 100, 100, 0, [], by norm_num, by norm_num, by norm_num, rfl⟩⟩

/-- An environment whose detector offers the two equally good candidates of `twinArgs` in every camera. -/
noncomputable def twinEnv (n nCam : ℕ) (cam : CamI) : Env ℕ Unit Unit n nCam where
  inPrev _ _ _ := true
  align _ _ _ := none
  inNew _ _ _ := true
  err _ _ _ _ := 0
  update s _ _ := ((), (), fun j => (s.fsm.slots j).coord, true)
  dist _ _ := 1
  resetCov _ _ := ()
  inPost _ _ _ := true
  moving _ _ := some false
  repatch _ _ := none
  score _ := 1
  detect _ _ := AddArgs.twinArgs cam false
  median _ _ := 1
  initFeature _ _ _ _ := ((), ())
  finish _ _ := ()
  zvu _ _ c := ((), (), c)

/-- Hypotheses of C36: four free slots, two cameras; camera 0 may add at most two features. -/
example (cam : CamI) (s : St ℕ Unit Unit 4 2) (hs : ∀ i, s.valid i = false) :
    ∃ r, detectCam AddArgs.listUSet (fun S => (List.finRange 4).filter (· ∈ S)) (demoCfg true true) (twinEnv 4 2 cam) (fun _ => 1) s 0 = some r ∧
      (Spec.added s r).card ≤ 2 := by
  obtain ⟨r, h1, h2, _⟩ := C36_budget AddArgs.listUSet_lawful (demo_order 4) (demoCfg true true) (twinEnv 4 2 cam) (fun _ => 1) s 0
    (AddArgs.twin_sane cam false)
  refine ⟨r, h1, ?_⟩
  have : Spec.free s = 4 := by
    unfold Spec.free
    have : ∀ i, (s.fsm.slots i).valid = false := hs
    simp [this]
  rw [this] at h2
  simpa using h2

example : ∃ r, detectAll AddArgs.listUSet (fun S => (List.finRange 3).filter (· ∈ S)) (demoCfg true true) (demoEnv 3 2 fun _ => 1)
    (demoSt 3 2 (fun i => i = 0) fun _ => 1) = some r ∧ r.valid 0 = true := by
  obtain ⟨r, h1, _, h3, _⟩ := C36_all_cameras AddArgs.listUSet_lawful (demo_order 3) (demoCfg true true) (demoEnv 3 2 fun _ => 1)
    (demo_sane 3 2 _) (demoSt 3 2 (fun i => i = 0) fun _ => 1) (demo_wf 3 2 _ _ (by simp))
  refine ⟨r, h1, ?_⟩
  have := (h3 0 (by simp [St.valid, demoSt])).1
  unfold St.valid; rw [this]; simp [demoSt]

/-! ### C69: reference patches -/

/-- C69: the patch refresh after an image never fails with cameras in range; it replaces the patch of a slot exactly if
some new patch passes all conditions of `MayReplace`; then the patch is that new one, the warp of the coordinates is the
identity and the time of the last replacement is now.  Otherwise the slot is untouched.  Nothing else changes. -/
theorem C69_refresh (cfg : Cfg) (env : Env P W K n nCam) (s : St P W K n nCam) (hs : CamsOk s) :
    ∃ r, refreshAll cfg env s = some r ∧
      (∀ i p, Spec.MayReplace cfg env s i p → (r.fsm.slots i).patch = p ∧ (r.fsm.slots i).coord = (s.fsm.slots i).coord.setWarpIdentity ∧
        (r.fsm.slots i).valid = true ∧ (r.fsm.slots i).idx = (s.fsm.slots i).idx ∧
        (r.ext i).lastPatch = s.t ∧ (r.ext i).stat = (s.ext i).stat) ∧
      (∀ i, (∀ p, ¬ Spec.MayReplace cfg env s i p) → r.fsm.slots i = s.fsm.slots i ∧ r.ext i = s.ext i) ∧
      r.w = s.w ∧ r.cov = s.cov ∧ r.t = s.t := by
  obtain ⟨r, h1, h2, h3, h4, h5, _⟩ := refreshAll_eq (cfg := cfg) (env := env) s hs
  refine ⟨r, h1, ?_, ?_, h4, h5, h3⟩
  · intro i p hp
    rcases h2 i with ⟨q, hq, e1, e2⟩ | ⟨hn, _⟩
    · have : q = p := by
        have a := hq.2.2.2.1
        rw [hp.2.2.2.1] at a
        exact (Option.some.inj a).symm
      subst this
      rw [e1, e2]
      exact ⟨rfl, rfl, hp.1, rfl, rfl, rfl⟩
    · exact absurd ⟨p, hp⟩ hn
  · intro i hn
    rcases h2 i with ⟨q, hq, _⟩ | ⟨_, e1, e2⟩
    · exact absurd hq (hn q)
    · exact ⟨e1, e2⟩

/-- A tracked feature in camera 0, two seconds after the last replacement (one second minimum); the new score 7 passes 5
and 3/4 of the old score 6. -/
example : ∃ r, refreshAll (demoCfg false false) (demoEnv 1 1 fun _ => 1)
    { demoSt 1 1 (fun _ => true) (fun _ => 0) with t := 2, ext := fun _ => ⟨run (init 10 100 100 0) [.setStatus 0 .tracked], 0⟩ } = some r ∧
    (r.fsm.slots 0).patch = 7 := by
  obtain ⟨r, h1, h2, _⟩ := C69_refresh (demoCfg false false) (demoEnv 1 1 fun _ => 1)
    { demoSt 1 1 (fun _ => true) (fun _ => 0) with t := 2, ext := fun _ => ⟨run (init 10 100 100 0) [.setStatus 0 .tracked], 0⟩ }
    (by intro j _; simp [St.camID, demoSt, demoFC])
  refine ⟨r, h1, (h2 0 7 ⟨rfl, ⟨0, by simp [demoSt, demoFC], by simp [run, step]⟩, ?_, by simp [demoEnv], ?_, ?_⟩).1⟩
  · simp [demoCfg]
  · simp [demoCfg, demoEnv]; norm_num
  · simp [demoCfg, demoEnv, demoSt]; norm_num

/-! ### The whole image update ends -/

/-- C35 for a complete image: from a well-formed state (cameras in range, statistics some history produces), with sensible
settings, processing an image ends in a well-formed state; in particular neither the scan nor the forced removal can run
forever and no index leaves its array. -/
theorem C35_image_update_total {I : USet} {order : Finset (Fin n) → List (Fin n)} (hI : I.Lawful)
    (hord : ∀ S, (order S).Nodup ∧ ∀ i, i ∈ order S ↔ i ∈ S) (cfg : Cfg) (env : Env P W K n nCam) (hn : 0 < nCam)
    (hsane : ∀ s c, (env.detect s c).Sane) (hrf : 1 < cfg.removalFactor) (hu : 0 < cfg.upper) (hl : 0 ≤ cfg.lower)
    (hshare0 : 0 ≤ cfg.minTrackedAndFree) (hshare : cfg.minTrackedAndFree ≤ 1) (hn32 : n ≤ 2147483647)
    (s : St P W K n nCam) (hs : WellFormed s) :
    ∃ fuel0 r, (∀ fuel, fuel0 ≤ fuel → imageUpdate I order cfg env fuel s = some r) ∧ WellFormed r := by
  obtain ⟨s0, hr, hInv, hid⟩ := scan_result cfg env hn s hs.1
  obtain ⟨s0', hr', g1, g2, _⟩ := C34_advance_once cfg env hn s hs.1
  rw [hr] at hr'; cases hr'
  obtain ⟨_, _, _, e4, _⟩ := start_fields cfg env s
  have hs0 : WellFormed s0 := by
    constructor
    · intro i hi
      have h1 := hInv.valid i hi
      have h2 := hInv.camID i
      have h3 : (start cfg env s).camID i = s.camID i := by simp [St.camID, e4]
      rw [h2, h3]
      exact hs.1 i (by simpa [St.valid, e4] using h1)
    · intro i
      by_cases hv : ∃ v ∈ s0.log, v.i = i
      · rw [(g1 i hv).2]
        exact Reachable.withStatus (Reachable.step (hs.2 i) (.increase s.t)) _
      · rw [g2 i (fun v hv' h => hv ⟨v, hv', h⟩)]
        exact hs.2 i
  obtain ⟨s1, h1, h2, _⟩ := refreshAll_eq (cfg := cfg) (env := env) s0 hs0.1
  have hs1 : WellFormed s1 ∧ Spec.tracked s1 = Spec.tracked s0 := by
    have hboth : ∀ i, (s1.fsm.slots i).valid = (s0.fsm.slots i).valid ∧ (s1.fsm.slots i).coord.camID = (s0.fsm.slots i).coord.camID ∧
        (s1.ext i).stat = (s0.ext i).stat := by
      intro i
      rcases h2 i with ⟨p, _, a, b⟩ | ⟨_, a, b⟩
      · rw [a, b]; exact ⟨rfl, rfl, rfl⟩
      · rw [a, b]; exact ⟨rfl, rfl, rfl⟩
    refine ⟨⟨fun i hi => ?_, fun i => ?_⟩, ?_⟩
    · unfold St.valid at hi; unfold St.camID
      rw [(hboth i).1] at hi
      rw [(hboth i).2.1]
      exact hs0.1 i hi
    · rw [(hboth i).2.2]; exact hs0.2 i
    · unfold Spec.tracked
      congr 1
      ext i
      simp only [Finset.mem_filter, Finset.mem_univ, true_and]
      rw [(hboth i).1, (hboth i).2.2]
  obtain ⟨b1, b2, b3, b4, b5, b6, b7, b8⟩ := removeBad_fields (cfg := cfg) (env := env) s1
  have hs2 : WellFormed (removeBad cfg env s1) := by
    refine ⟨fun i hi => ?_, fun i => by rw [b1]; exact hs1.1.2 i⟩
    rw [b7]
    exact hs1.1.1 i ((b8 i).mp hi).1
  have htr : Spec.tracked (removeBad cfg env s1) ≤ Spec.tracked s0 := by
    rw [← hs1.2]
    apply Finset.card_le_card
    intro i hi
    simp only [Finset.mem_filter, Finset.mem_univ, true_and] at hi ⊢
    rw [b1] at hi
    exact ⟨((b8 i).mp hi.1).1, hi.2⟩
  have hTn : Spec.tracked s0 ≤ n := by
    have := Finset.card_filter_le (Finset.univ : Finset (Fin n)) fun i => (s0.fsm.slots i).valid = true ∧ ∃ c, (s0.ext i).stat.status c = .tracked
    simpa [Spec.tracked] using this
  obtain ⟨req, hreq⟩ : ∃ req, requiredFree n cfg (Spec.tracked s0) = some req := by
    refine ⟨truncZ ((n : ℝ) * cfg.minTrackedAndFree - (Spec.tracked s0 : ℕ)), ?_⟩
    unfold requiredFree cInt
    rw [if_pos]
    obtain ⟨c1, c2⟩ := truncZ_bounds ((n : ℝ) * cfg.minTrackedAndFree - (Spec.tracked s0 : ℕ))
    have hT' : ((Spec.tracked s0 : ℕ) : ℝ) ≤ n := by exact_mod_cast hTn
    have hT0 : (0:ℝ) ≤ (Spec.tracked s0 : ℕ) := Nat.cast_nonneg _
    have hn' : (n : ℝ) ≤ 2147483647 := by exact_mod_cast hn32
    have hm0 : 0 ≤ (n : ℝ) * cfg.minTrackedAndFree := mul_nonneg (Nat.cast_nonneg n) hshare0
    have hm1 : (n : ℝ) * cfg.minTrackedAndFree ≤ n := by
      calc _ ≤ (n : ℝ) * 1 := mul_le_mul_of_nonneg_left hshare (Nat.cast_nonneg n)
        _ = n := mul_one _
    constructor
    · have : ((-2147483648 : ℤ) : ℝ) < (truncZ ((n : ℝ) * cfg.minTrackedAndFree - (Spec.tracked s0 : ℕ)) : ℝ) := by push_cast; linarith
      exact le_of_lt (by exact_mod_cast this)
    · have hmax : ((n : ℝ) * cfg.minTrackedAndFree - (Spec.tracked s0 : ℕ)) ⊔ 0 ≤ 2147483647 := max_le (by linarith) (by norm_num)
      have : (truncZ ((n : ℝ) * cfg.minTrackedAndFree - (Spec.tracked s0 : ℕ)) : ℝ) ≤ ((2147483647 : ℤ) : ℝ) := by push_cast; linarith
      exact_mod_cast this
  obtain ⟨fuel0, s3, k1, k2, k3, k4, k5, _⟩ := C35_forced_removal cfg env (removeBad cfg env s1) (fun i _ => hs2.2 i) hrf hu hl hshare
    (Spec.tracked s0) htr hTn req hreq
  have hs3 : WellFormed s3 := by
    refine ⟨fun i hi => ?_, fun i => by rw [k4]; exact hs2.2 i⟩
    have : s3.camID i = (removeBad cfg env s1).camID i := by unfold St.camID; rw [k5 i]
    rw [this]
    exact hs2.1 i (k3 i hi)
  obtain ⟨s4, m1, m2, _⟩ := C36_all_cameras hI hord cfg env hsane s3 hs3
  refine ⟨fuel0, zeroVelocity cfg env { s4 with w := env.finish s4.t s4.w }, fun fuel hf => ?_, ?_⟩
  · unfold imageUpdate
    have hr2 : loop cfg env (n * nCam + 1) (commonPre cfg env { s with log := [] }) = some s0 := hr
    simp only [Option.bind_eq_bind, hr2, Option.bind_some]
    exact commonPost_intro h1 (by rw [tracked_eq]; exact hreq) (k1 fuel hf) m1
  · unfold zeroVelocity
    split
    · exact ⟨m2.1, m2.2⟩
    · exact ⟨m2.1, m2.2⟩

example : ∃ fuel0 r, (∀ fuel, fuel0 ≤ fuel → imageUpdate AddArgs.listUSet (fun S => (List.finRange 3).filter (· ∈ S)) (demoCfg true true)
    (demoEnv 3 2 fun _ => 1) fuel (demoSt 3 2 (fun i => i ≠ 1) fun _ => 1) = some r) ∧ WellFormed r :=
  C35_image_update_total AddArgs.listUSet_lawful (demo_order 3) (demoCfg true true) (demoEnv 3 2 fun _ => 1) (by norm_num) (demo_sane 3 2 _)
    (by simp only [demoCfg]; norm_num) (by simp only [demoCfg]; norm_num) (by simp only [demoCfg]; norm_num)
    (by simp only [demoCfg]; norm_num) (by simp only [demoCfg]; norm_num) (by norm_num) _ (demo_wf 3 2 _ _ (by simp))

/-! ### C38: zero-velocity updates -/

lemma start_timers (cfg : Cfg) (env : Env P W K n nCam) (s : St P W K n nCam) :
    (start cfg env s).sinceImage = (if imageFires cfg env s then 0 else s.sinceImage) ∧
    (start cfg env s).sinceInertial = s.sinceInertial ∧ (start cfg env s).imageCounter = s.imageCounter + 1 := by
  unfold start commonPre imageFires
  simp only
  cases hc : (cfg.visualMotion && decide (s.imageCounter + 1 > 1)) with
  | false => simp
  | true =>
    simp only [if_true, Bool.true_and]
    split
    · refine ⟨?_, rfl, rfl⟩
      norm_num
    · exact ⟨rfl, rfl, rfl⟩

lemma scan_off (cfg : Cfg) (env : Env P W K n nCam) (fuel : ℕ) : ∀ s, scan { cfg with zeroVelocity := false } env fuel s = scan cfg env fuel s := by
  induction fuel with
  | zero => intro s; rfl
  | succ k ih =>
    intro s
    simp only [scan]
    simp only [ih]
    rfl

lemma loop_off (cfg : Cfg) (env : Env P W K n nCam) (fuel : ℕ) : ∀ s, loop { cfg with zeroVelocity := false } env fuel s = loop cfg env fuel s := by
  induction fuel with
  | zero => intro s; rfl
  | succ k ih =>
    intro s
    simp only [loop]
    simp only [ih, scan_off]
    rfl

lemma forced_off (cfg : Cfg) (env : Env P W K n nCam) (req : ℤ) (fuel : ℕ) :
    ∀ f k s, forced { cfg with zeroVelocity := false } env req fuel f k s = forced cfg env req fuel f k s := by
  induction fuel with
  | zero => intro f k s; unfold forced; rfl
  | succ m ih =>
    intro f k s
    conv_lhs => unfold forced
    conv_rhs => unfold forced
    simp only [ih]
    rfl

/-- Without zero-velocity updates an image does everything else the same. -/
lemma imageUpdate_off {I : USet} {order : Finset (Fin n) → List (Fin n)} {cfg : Cfg} {env : Env P W K n nCam} {fuel : ℕ} {s r : St P W K n nCam}
    (h : imageUpdate I order cfg env fuel s = some r) :
    ∃ s4, imageUpdate I order { cfg with zeroVelocity := false } env fuel s = some s4 ∧ SameTimers (start cfg env s) s4 ∧ r = zeroVelocity cfg env s4 := by
  unfold imageUpdate at h ⊢
  simp only [Option.bind_eq_bind] at h ⊢
  have hl : loop { cfg with zeroVelocity := false } env (n * nCam + 1) (commonPre { cfg with zeroVelocity := false } env { s with log := [] }) =
      loop cfg env (n * nCam + 1) (commonPre cfg env { s with log := [] }) := loop_off _ _ _ _
  rw [hl]
  cases h0 : loop cfg env (n * nCam + 1) (commonPre cfg env { s with log := [] }) with
  | none => simp [h0] at h
  | some s0 =>
    simp only [h0, Option.bind_some] at h ⊢
    obtain ⟨s1, req, s3, s4, h1, h2, h3, h4, h5⟩ := commonPost_some h
    have a0 : SameTimers (start cfg env s) s0 := run_timers (loop_run _ _ _ h0)
    have a1 := a0.trans (refreshAll_timers h1)
    have hb := removeBad_rest (cfg := cfg) (env := env) s1
    have hb' := (removeBad_fields (cfg := cfg) (env := env) s1).2.2.2.1
    have a2 := a1.trans (c := removeBad cfg env s1) ⟨hb.1, hb.2.1, hb.2.2.1, hb'⟩
    have a3 := a2.trans (forced_timers _ _ _ _ _ _ h3)
    have a4 := a3.trans (detectAll_timers h4)
    refine ⟨{ s4 with w := env.finish s4.t s4.w }, ?_, a4, h5⟩
    rw [commonPost_intro (cfg := { cfg with zeroVelocity := false }) h1 h2 (by rw [forced_off]; exact h3) h4]
    rfl
/-- C38, one image: the image timer is reset exactly if the image motion detector fires and otherwise kept, the inertial
timer is kept, and compared with the same image under settings without zero-velocity updates (result `s'`) the zero-velocity update is applied to
state, covariance and feature coordinates exactly if it and the visual detection are enabled and both timers exceed the configured time; nothing
else differs. -/
theorem C38_gate (I : USet) (order : Finset (Fin n) → List (Fin n)) (cfg : Cfg) (env : Env P W K n nCam) (fuel : ℕ) (s r : St P W K n nCam)
    (h : imageUpdate I order cfg env fuel s = some r) :
    r.sinceImage = (if imageFires cfg env s then 0 else s.sinceImage) ∧ r.sinceInertial = s.sinceInertial ∧
    ∃ s', imageUpdate I order { cfg with zeroVelocity := false } env fuel s = some s' ∧
      ((cfg.zeroVelocity = true ∧ cfg.visualMotion = true ∧ cfg.minTimeZeroVelocity < r.sinceImage ∧ cfg.minTimeZeroVelocity < r.sinceInertial) →
        ∃ coord, env.zvu s'.w s'.cov (fun j => (s'.fsm.slots j).coord) = (r.w, r.cov, coord) ∧
          r = { s' with w := r.w, cov := r.cov, fsm := r.fsm } ∧ r.fsm.maxIdx = s'.fsm.maxIdx ∧
          ∀ j, r.fsm.slots j = { s'.fsm.slots j with coord := { coord j with camID := (s'.fsm.slots j).coord.camID } }) ∧
      (¬ (cfg.zeroVelocity = true ∧ cfg.visualMotion = true ∧ cfg.minTimeZeroVelocity < r.sinceImage ∧ cfg.minTimeZeroVelocity < r.sinceInertial) → r = s') := by
  obtain ⟨s4, hoff, h1, hr⟩ := imageUpdate_off h
  obtain ⟨t1, t2, t3⟩ := start_timers cfg env s
  have hz : (zeroVelocity cfg env s4).sinceImage = s4.sinceImage ∧ (zeroVelocity cfg env s4).sinceInertial = s4.sinceInertial := by
    unfold zeroVelocity; split <;> simp
  subst hr
  refine ⟨by rw [hz.1, h1.1, t1], by rw [hz.2, h1.2.1, t2], s4, hoff, ?_, ?_⟩
  · rw [hz.1, hz.2]
    intro hg
    unfold zeroVelocity
    rw [if_pos (by simp [hg])]
    exact ⟨_, rfl, rfl, rfl, fun j => rfl⟩
  · rw [hz.1, hz.2]
    intro hg
    unfold zeroVelocity
    rw [if_neg (by simpa [and_assoc] using hg)]

/-- C38, histories: after any sequence of predictions and images, the two timers are the elapsed prediction times since the
last detection of the respective detector (since the start if there was none): the records of the inertial detector are
those of the predictions, the image detector can fire at images only. -/
theorem C38_timers (I : USet) (order : Finset (Fin n) → List (Fin n)) (cfg : Cfg) (env : Env P W K n nCam) (fuel : ℕ)
    (es : List (Event W K n)) (s r : St P W K n nCam) (inert img : List (ℝ × Bool))
    (h : history I order cfg env fuel es s = some (r, inert, img)) :
    r.sinceInertial = Spec.since s.sinceInertial inert ∧ r.sinceImage = Spec.since s.sinceImage img ∧
    inert = es.map (fun e => match e with | .predict dt m _ _ _ => (dt, m) | .image _ => (0, false)) ∧
    img.length = es.length ∧ (∀ (k : ℕ) dt m w cov co, es[k]? = some (.predict dt m w cov co) → img[k]? = some (dt, false)) ∧
    (∀ (k : ℕ) t, es[k]? = some (.image t) → ∃ b, img[k]? = some (0, b)) := by
  induction es generalizing s inert img with
  | nil =>
    simp only [history, Option.some.injEq, Prod.mk.injEq] at h
    obtain ⟨rfl, rfl, rfl⟩ := h
    simp [Spec.since]
  | cons e es ih =>
    cases e with
    | predict dt m w cov co =>
      simp only [history, Option.map_eq_some_iff, Prod.mk.injEq] at h
      obtain ⟨⟨r', i1, i2⟩, h1, rfl, rfl, rfl⟩ := h
      obtain ⟨a, b, c, d, e, f⟩ := ih _ _ _ h1
      refine ⟨?_, ?_, by rw [c]; simp, by simp [d], ?_, ?_⟩
      · rw [a]
        simp only [predict, Spec.since]
      · rw [b]
        simp only [predict, Spec.since, Bool.false_eq_true, if_false]
      · intro k
        cases k with
        | zero => intro dt' m' w' cov' co' hk; simp at hk; simp [hk.1]
        | succ k => intro dt' m' w' cov' co' hk; simp at hk ⊢; exact e k _ _ _ _ _ hk
      · intro k
        cases k with
        | zero => intro t hk; simp at hk
        | succ k => intro t hk; simp at hk ⊢; simpa using f k t hk
    | image t =>
      simp only [history] at h
      cases hi : imageUpdate I order cfg env fuel { s with t := t } with
      | none => simp [hi] at h
      | some s' =>
        simp only [hi, Option.map_eq_some_iff, Prod.mk.injEq] at h
        obtain ⟨⟨r', i1, i2⟩, h1, rfl, rfl, rfl⟩ := h
        obtain ⟨a, b, c, d, e, f⟩ := ih _ _ _ h1
        obtain ⟨g1, g2, _⟩ := C38_gate _ _ _ _ _ _ _ hi
        refine ⟨?_, ?_, by rw [c]; simp, by simp [d], ?_, ?_⟩
        · rw [a, g2]
          simp [Spec.since]
        · rw [b, g1]
          simp only [Spec.since, add_zero]
        · intro k
          cases k with
          | zero => intro dt' m' w' cov' co' hk; simp at hk
          | succ k => intro dt' m' w' cov' co' hk; simp at hk ⊢; exact e k _ _ _ _ _ hk
        · intro k
          cases k with
          | zero => intro t' _; simp
          | succ k => intro t' hk; simp at hk ⊢; simpa using f k t' hk

lemma motion_fold (env : Env P W K n nCam) (s : St P W K n nCam) :
    motionCounts env s = (Spec.movingCount env s, Spec.inFrameCount env s) := by
  unfold motionCounts
  have : ∀ (l : List (Fin n)) (a : ℕ × ℕ), l.foldl (fun (acc : ℕ × ℕ) i =>
      if s.valid i then
        match env.moving s i with
        | none => acc
        | some m => (acc.1 + (if m then 1 else 0), acc.2 + 1)
      else acc) a = (a.1 + (l.filter fun i => s.valid i && decide (env.moving s i = some true)).length,
        a.2 + (l.filter fun i => s.valid i && decide (env.moving s i ≠ none)).length) := by
    intro l
    induction l with
    | nil => simp
    | cons x l ih =>
      intro a
      rw [List.foldl_cons, ih, List.filter_cons, List.filter_cons]
      cases hv : s.valid x with
      | false => simp
      | true =>
        cases hm : env.moving s x with
        | none => simp
        | some m => cases m <;> simp <;> omega
  refine (this _ _).trans ?_
  unfold Spec.movingCount Spec.inFrameCount
  simp only [zero_add]
  congr 1
  · rw [← List.toFinset_card_of_nodup ((List.nodup_finRange n).filter _)]
    congr 1; ext i; simp [St.valid]
  · rw [← List.toFinset_card_of_nodup ((List.nodup_finRange n).filter _)]
    congr 1; ext i; simp [St.valid]

/-- C38, the image detector: with a positive rate it fires at an image exactly if visual motion detection is enabled, this
is not the first image, and either fewer visible features than the minimum remain, or the moving ones exceed the given
share of the visible ones. -/
theorem C38_motion (cfg : Cfg) (env : Env P W K n nCam) (s : St P W K n nCam) (hr : 0 < cfg.rateMoving) :
    imageFires cfg env s = true ↔ cfg.visualMotion = true ∧ 1 ≤ s.imageCounter ∧
      let s' : St P W K n nCam := { s with imageCounter := s.imageCounter + 1, id := 0, cam := 0, log := [] }
      ((Spec.inFrameCount env s' : ℤ) < cfg.minCountNoMotion ∨ cfg.rateMoving * Spec.inFrameCount env s' < Spec.movingCount env s') := by
  unfold imageFires imageMotion
  simp only [motion_fold, Bool.and_eq_true, Bool.or_eq_true, decide_eq_true_eq]
  generalize ({ s with imageCounter := s.imageCounter + 1, id := 0, cam := 0, log := [] } : St P W K n nCam) = s'
  have hle : Spec.movingCount env s' ≤ Spec.inFrameCount env s' := by
    apply Finset.card_le_card
    intro i hi
    simp only [Finset.mem_filter, Finset.mem_univ, true_and] at hi ⊢
    exact ⟨hi.1, by rw [hi.2]; simp⟩
  have hrate : rateExceeded cfg.rateMoving (Spec.movingCount env s') (Spec.inFrameCount env s') = true ↔
      cfg.rateMoving * Spec.inFrameCount env s' < Spec.movingCount env s' := by
    unfold rateExceeded
    by_cases h0 : Spec.movingCount env s' = 0
    · simp only [h0, if_true, decide_eq_true_eq, Nat.cast_zero]
      constructor
      · rintro ⟨h, _⟩; linarith
      · intro h
        have := mul_nonneg hr.le (Nat.cast_nonneg (α := ℝ) (Spec.inFrameCount env s'))
        linarith
    · simp only [h0, if_false, decide_eq_true_eq]
      have hpos : (0:ℝ) < Spec.movingCount env s' := by exact_mod_cast Nat.pos_of_ne_zero h0
      rw [div_mul_eq_mul_div, div_lt_one hpos]
  rw [hrate]
  constructor
  · rintro ⟨⟨h1, h2⟩, h3⟩; exact ⟨h1, by omega, h3.symm⟩
  · rintro ⟨h1, h2, h3⟩; exact ⟨⟨h1, by omega⟩, h3.symm⟩

/-- Second image, three visible features, none moving, minimum 5: the detector fires. -/
example : imageFires (demoCfg true true) (demoEnv 3 1 fun _ => 1) { demoSt 3 1 (fun _ => true) (fun _ => 0) with imageCounter := 1 } = true := by
  rw [C38_motion _ _ _ (by simp [demoCfg])]
  refine ⟨by simp [demoCfg], le_rfl, Or.inl ?_⟩
  simp [Spec.inFrameCount, demoEnv, demoSt, demoCfg]

/-- A history that the model completes: prediction, prediction with motion, prediction. -/
example : ∃ r, history AddArgs.listUSet (fun _ => []) (demoCfg true true) (demoEnv 3 1 fun _ => 1) 0
      [.predict 1 false () () (fun _ => demoFC 0), .predict 2 true () () (fun _ => demoFC 0), .predict 3 false () () (fun _ => demoFC 0)]
      (demoSt 3 1 (fun _ => true) fun _ => 0) = some (r, [(1, false), (2, true), (3, false)], [(1, false), (2, false), (3, false)]) ∧
    r.sinceInertial = 3 ∧ r.sinceImage = 6 := by
  refine ⟨_, rfl, ?_, ?_⟩
  · simp [predict, demoSt]
  · simp [predict, demoSt]; norm_num

/-! ### C39: linearisation candidates -/

/-- C39: repeated calls of the candidate generator yield, in row order, exactly the grid offsets that pass the ellipse
test, and then report exhaustion. -/
theorem C39_enumeration (m : ℕ) (acc : ℤ → ℤ → Bool) :
    candidates m acc ((2 * m + 1) * (2 * m + 1) + 1) 0 = some ((Spec.grid m).filter fun q => acc q.1 q.2) := by
  rw [candidates_spec m acc _ 0 (Nat.zero_le _) (by omega), gridFrom_zero]

/-- C39: the grid contains each of the `(2m+1)²` offsets with both coordinates of absolute value at most `m` exactly once. -/
theorem C39_grid (m : ℕ) : (Spec.grid m).Nodup ∧ (Spec.grid m).length = (2 * m + 1) ^ 2 ∧
    ∀ u v : ℤ, (u, v) ∈ Spec.grid m ↔ |u| ≤ m ∧ |v| ≤ m := by
  refine ⟨?_, ?_, ?_⟩
  · unfold Spec.grid
    rw [List.nodup_flatMap]
    constructor
    · intro a _
      refine List.Nodup.map ?_ List.nodup_range
      intro b b' h
      simp only [Prod.mk.injEq] at h
      omega
    · refine List.Pairwise.imp ?_ List.nodup_range
      intro a a' hne x hx hx'
      simp only [List.mem_map, List.mem_range] at hx hx'
      obtain ⟨b, _, rfl⟩ := hx
      obtain ⟨b', _, h⟩ := hx'
      simp only [Prod.mk.injEq] at h
      omega
  · unfold Spec.grid
    rw [List.length_flatMap]
    simp [pow_two]
  · intro u v
    unfold Spec.grid
    simp only [List.mem_flatMap, List.mem_map, List.mem_range, Prod.mk.injEq, abs_le]
    constructor
    · rintro ⟨a, ha, b, hb, rfl, rfl⟩; omega
    · rintro ⟨h1, h2⟩
      exact ⟨(u + m).toNat, by omega, (v + m).toNat, by omega, by omega, by omega⟩

/-- C39: the current estimate itself (zero offset) is always among the candidates, for a non-zero coverage ratio. -/
theorem C39_centre (m : ℕ) (range ratio e0 e1 : ℝ) (hr : ratio ≠ 0) :
    ∃ l, candidates m (inEllipse range ratio e0 e1) ((2 * m + 1) * (2 * m + 1) + 1) 0 = some l ∧ (0, 0) ∈ l := by
  refine ⟨_, C39_enumeration m _, ?_⟩
  rw [List.mem_filter]
  refine ⟨((C39_grid m).2.2 0 0).mpr (by simp), ?_⟩
  simp only [inEllipse, Int.cast_zero, zero_mul, decide_eq_true_eq]
  have : (0:ℝ) < ratio ^ 2 := by positivity
  simpa using this

/-- C39: the grid points kept are exactly those whose pixel offset lies inside the uncertainty ellipse of the predicted pixel, that is
at a Mahalanobis distance (with respect to the pixel covariance `Py`, orthonormal eigenvectors `w0`, `w1`) below the coverage ratio. -/
theorem C39_ellipse (Py : Matrix (Fin 2) (Fin 2) ℝ) (w0 w1 : Fin 2 → ℝ) (e0 e1 range ratio : ℝ) (h0 : 0 < e0) (h1 : 0 < e1)
    (hw0 : Py.mulVec w0 = e0 • w0) (hw1 : Py.mulVec w1 = e1 • w1) (h00 : w0 ⬝ᵥ w0 = 1) (h11 : w1 ⬝ᵥ w1 = 1) (h01 : w0 ⬝ᵥ w1 = 0)
    (hdet : IsUnit Py.det) (u v : ℤ) :
    inEllipse range ratio e0 e1 u v = true ↔
      candidateDy range w0 w1 u v ⬝ᵥ Py⁻¹.mulVec (candidateDy range w0 w1 u v) < ratio ^ 2 := by
  have inv : ∀ (w : Fin 2 → ℝ) (e : ℝ), 0 < e → Py.mulVec w = e • w → Py⁻¹.mulVec w = (1 / e) • w := by
    intro w e he h
    have : Py⁻¹.mulVec (Py.mulVec w) = w := by rw [Matrix.mulVec_mulVec, Matrix.nonsing_inv_mul _ hdet, Matrix.one_mulVec]
    rw [h, Matrix.mulVec_smul] at this
    nth_rw 2 [← this]
    rw [smul_smul, one_div, inv_mul_cancel₀ he.ne', one_smul]
  have h10 : w1 ⬝ᵥ w0 = 0 := by rw [dotProduct_comm]; exact h01
  simp only [inEllipse, decide_eq_true_eq, candidateDy, Matrix.mulVec_add, Matrix.mulVec_smul, inv w0 e0 h0 hw0, inv w1 e1 h1 hw1,
    add_dotProduct, dotProduct_add, smul_dotProduct, dotProduct_smul, h00, h11, h01, h10, smul_eq_mul, mul_zero, add_zero, zero_add, mul_one]
  have e : u * range * (1 / e0 * (u * range)) + v * range * (1 / e1 * (v * range)) = (u * range) ^ 2 / e0 + (v * range) ^ 2 / e1 := by ring
  rw [e]

/-- C39: the state increment of a candidate moves the predicted pixel by the grid offset `dy` to first order: with the pixel
Jacobian `J = -H` and an invertible projected covariance, `J δ = dy`. -/
theorem C39_shift {N : ℕ} (Pm : Matrix (Fin N) (Fin N) ℝ) (H : Matrix (Fin 2) (Fin N) ℝ) (dy : Fin 2 → ℝ)
    (hdet : IsUnit (H * Pm * H.transpose).det) : (-H).mulVec (candidateDelta Pm H dy) = dy := by
  unfold candidateDelta
  rw [Matrix.mulVec_mulVec, Matrix.neg_mul, Matrix.mul_neg, neg_neg, ← Matrix.mul_assoc, ← Matrix.mul_assoc,
    Matrix.mul_nonsing_inv _ hdet, Matrix.one_mulVec]

example : candidates 1 (fun u v => u = 0 || v = 0) 10 0 = some [(-1, 0), (0, -1), (0, 0), (0, 1), (1, 0)] := by decide

/-- The hypotheses of `C39_ellipse` hold for a pixel covariance elongated along x. -/
example : (!![4, 0; 0, 1] : Matrix (Fin 2) (Fin 2) ℝ).mulVec ![1, 0] = (4:ℝ) • ![1, 0] ∧
    (!![4, 0; 0, 1] : Matrix (Fin 2) (Fin 2) ℝ).mulVec ![0, 1] = (1:ℝ) • ![0, 1] ∧ IsUnit (!![4, 0; 0, 1] : Matrix (Fin 2) (Fin 2) ℝ).det := by
  refine ⟨?_, ?_, ?_⟩
  · ext i; fin_cases i <;> simp
  · ext i; fin_cases i <;> simp
  · rw [Matrix.det_fin_two_of]; norm_num

example : IsUnit ((1 : Matrix (Fin 2) (Fin 2) ℝ) * 1 * (1 : Matrix (Fin 2) (Fin 2) ℝ).transpose).det := by simp

/-! ### C70: what reaches the filter -/

/-- C70: a feature is handed to the filter in a camera exactly if its patch is inside the previous frame and, unless the
direct method is used, alignment succeeds at coordinates inside the new frame whose patch error does not exceed the
threshold (if one is set); these coordinates are then the stored measurement. -/
theorem C70_measurement (cfg : Cfg) (env : Env P W K n nCam) (s s' : St P W K n nCam) (i : Fin n) (c : Fin nCam) :
    probe cfg env s i c = .inl s' ↔ env.inPrev s i c = true ∧
      ((cfg.direct = true ∧ s' = s) ∨
       (cfg.direct = false ∧ ∃ x, env.align s i c = some x ∧ env.inNew s c x = true ∧
         (cfg.patchRejectionTh < 0 ∨ env.err s i c x ≤ cfg.patchRejectionTh) ∧
         s' = { s with meas := Function.update s.meas i (some x) })) := by
  unfold probe
  cases hp : env.inPrev s i c with
  | false => simp
  | true =>
    cases hd : cfg.direct with
    | true => simp only [Bool.true_eq_false, if_false, if_true, Sum.inl.injEq, true_and, false_and, or_false]; exact eq_comm
    | false =>
      cases ha : env.align s i c with
      | none => simp
      | some x =>
        cases hn : env.inNew s c x with
        | false => simp [hn]
        | true =>
          by_cases hr : cfg.patchRejectionTh ≥ 0 ∧ env.err s i c x > cfg.patchRejectionTh
          · have hno : ¬ (cfg.patchRejectionTh < 0 ∨ env.err s i c x ≤ cfg.patchRejectionTh) := by
              rintro (h | h)
              · linarith [hr.1]
              · linarith [hr.2]
            simp [hn, hr, hno]
          · simp only [Bool.true_eq_false, if_false, Bool.false_eq_true, hn, if_true, hr, Sum.inl.injEq, true_and,
              Option.some.injEq, exists_eq_left', false_and, false_or]
            have : cfg.patchRejectionTh < 0 ∨ env.err s i c x ≤ cfg.patchRejectionTh := by
              by_contra hc
              push Not at hc
              exact hr hc
            simp [this, eq_comm]

/-- C70: the outlier check of the direct method accepts exactly if the iterations converged and, with a threshold set, the
patch at the estimate is in frame with an error of at most the threshold and — if discriminative sampling is on — at
least two of the four samples around it are in frame with an error above the bar (the threshold itself for gains up to 1,
else the gain times the error at the estimate). -/
theorem C70_accept (conv : Bool) (th d gain : ℝ) (inFrame : V2 → Bool) (err : V2 → ℝ) :
    extraOutlierCheck conv th d gain inFrame err = true ↔ conv = true ∧
      (0 ≤ th → inFrame 0 = true ∧ err 0 ≤ th ∧
        (0 < d → 2 ≤ ([⟨-d, 0⟩, ⟨0, -d⟩, ⟨d, 0⟩, ⟨0, d⟩].countP fun q : V2 =>
          inFrame q && decide ((if gain ≤ 1 then th else gain * err 0) < err q)))) := by
  have hs : samples d = [⟨-d, 0⟩, ⟨0, -d⟩, ⟨d, 0⟩, ⟨0, d⟩] := by
    simp [samples, List.range_succ]
    norm_num
  have habove : ∀ q : V2, sampleAbove th gain (err 0) (err q) = decide ((if gain ≤ 1 then th else gain * err 0) < err q) := by
    intro q
    unfold sampleAbove
    by_cases hg : gain ≤ 1
    · simp [hg, not_lt.mpr hg]
    · simp [hg, not_le.mp hg]
  have hcount : ∀ l : List V2, (l.map fun q => if inFrame q then (if sampleAbove th gain (err 0) (err q) then 1 else 0) else 0).sum =
      l.countP fun q => inFrame q && decide ((if gain ≤ 1 then th else gain * err 0) < err q) := by
    intro l
    induction l with
    | nil => simp
    | cons a l ih =>
      rw [List.map_cons, List.sum_cons, ih, List.countP_cons, habove]
      cases inFrame a with
      | false => simp
      | true =>
        simp only [if_true, Bool.true_and]
        split <;> omega
  unfold extraOutlierCheck
  cases conv with
  | false => simp
  | true =>
    simp only [Bool.true_eq_false, if_false, true_and]
    by_cases hth : 0 ≤ th
    · simp only [ge_iff_le, hth, if_true, true_imp_iff]
      cases hf : inFrame 0 with
      | false => simp
      | true =>
        simp only [Bool.true_eq_false, if_false, true_and]
        by_cases he : err 0 > th
        · simp only [he, if_true, Bool.false_eq_true, false_iff, not_and]
          intro h; linarith
        · simp only [he, if_false, not_lt.mp he, true_and]
          by_cases hd : d > 0
          · simp only [hd, if_true, true_imp_iff]
            rw [hcount, hs]
            by_cases hc : (List.countP (fun q : V2 => inFrame q && decide ((if gain ≤ 1 then th else gain * err 0) < err q))
              [⟨-d, 0⟩, ⟨0, -d⟩, ⟨d, 0⟩, ⟨0, d⟩]) < 2
            · simp only [hc, if_true, Bool.false_eq_true, false_iff, not_le]
            · simp only [hc, if_false, true_iff]
              omega
          · simp only [hd, if_false, false_imp_iff]
    · simp only [ge_iff_le, hth, if_false, false_imp_iff]

/-- Error 1 at the estimate, 30 elsewhere, threshold 20: accepted with sampling. -/
example : extraOutlierCheck true 20 (1 / 50) 1 (fun _ => true) (fun q => if q.x = 0 ∧ q.y = 0 then 1 else 30) = true := by
  rw [C70_accept]
  refine ⟨rfl, fun _ => ⟨rfl, ?_, fun _ => ?_⟩⟩
  · have : (0 : V2).x = 0 ∧ (0 : V2).y = 0 := ⟨rfl, rfl⟩
    simp only [this, and_self, if_true]; norm_num
  · simp only [le_refl, if_true, Bool.true_and, List.countP_cons]
    norm_num

end Rovio.Img
