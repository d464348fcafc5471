import Verif.Lemmas.FeatureStatistics

/-!
# Properties C04 - C07: tracking statistics of a feature
-/

namespace Rovio.Stat

variable {nCam : ℕ}

/-- C04: the whole-life count of a status in a camera is the number of logged frames (current one
included) with that status, after every history and for arbitrary time stamps. -/
theorem C04_count_is_log_count (lq lv mg : ℤ) (t0 : ℝ) (ops : List (Op nCam)) (i : Fin nCam) (s : Status) :
    countTrackingStatistics (run (init lq lv mg t0) ops) s i 0
      = (((Log.fresh t0).run ops).frames.filter (fun fr => fr i = s)).length := by
  have h := sim_run (sim_init (nCam := nCam) lq lv mg t0) ops
  have e : ¬ (((i : ℕ) : ℤ) = -1) := by omega
  have e2 : ¬ (((i : ℕ) : ℤ) < 0 ∨ ((i : ℕ) : ℤ) ≥ (nCam : ℤ)) := by omega
  simp only [countTrackingStatistics, ne_eq, e, not_false_eq_true, if_true, e2, dite_false]
  simp only [countOne, if_true, Int.toNat_natCast, Fin.eta, h.cumul, h.status, Log.frames, List.filter_cons]
  split_ifs <;> simp_all

/-- Non-vacuity for C04: one camera, tracked once, then failing: `TRACKED` is counted once. -/
example : countTrackingStatistics
    (run (init (nCam := 1) 10 100 100 0)
      [.setStatus 0 .tracked, .increase 1, .setStatus 0 .failedTracking]) .tracked 0 0 = 1 := by
  refine (C04_count_is_log_count 10 100 100 0 _ (0 : Fin 1) .tracked).trans ?_
  simp [Log.run, Log.step, Log.frames, Log.fresh]

/-- C04: the whole-life counts over the five statuses add up to the number of frames (`countTot`). -/
theorem C04_counts_partition (lq lv mg : ℤ) (t0 : ℝ) (ops : List (Op nCam)) (i : Fin nCam) :
    ∑ s : Status, countTrackingStatistics (run (init lq lv mg t0) ops) s i 0
      = countTot (run (init (nCam := nCam) lq lv mg t0) ops) := by
  simp only [C04_count_is_log_count]
  rw [sum_filter_length _ (fun fr : Frame nCam => fr i)]
  have h := sim_run (sim_init (nCam := nCam) lq lv mg t0) ops
  simp [Log.frames, countTot, h.tot]

example : ∑ s : Status, countTrackingStatistics (run (init (nCam := 2) 10 100 100 0)
      [.setStatus 1 .tracked, .increase 1, .setStatus 0 .failedTracking]) s 1 0 = 2 := by
  rw [show (1 : ℤ) = (((1 : Fin 2) : ℕ) : ℤ) from rfl, C04_counts_partition]
  simp [countTot, run, step, increaseStatistics, init, resetStatistics]

/-- C04: with increasing time stamps, the count over a window of the last `n ≥ 1` frames is the
number of frames with that status among the `n` most recent logged frames (current one included). -/
theorem C04_window_is_log_window (lq lv mg : ℤ) (t0 : ℝ) (ops : List (Op nCam)) (i : Fin nCam)
    (s : Status) (n : ℕ) (hn : 1 ≤ n) (hinc : ((Log.fresh (nCam := nCam) t0).run ops).Incremental) :
    countTrackingStatistics (run (init lq lv mg t0) ops) s i n
      = ((((Log.fresh t0).run ops).frames.take n).filter (fun fr => fr i = s)).length := by
  have h := sim_run (sim_init (nCam := nCam) lq lv mg t0) ops
  obtain ⟨ts, h1, h2, h3⟩ := h.time
  have e : ¬ (((i : ℕ) : ℤ) = -1) := by omega
  have e2 : ¬ (((i : ℕ) : ℤ) < 0 ∨ ((i : ℕ) : ℤ) ≥ (nCam : ℤ)) := by omega
  have e3 : ¬ ((n : ℤ) = 0) := by omega
  simp only [countTrackingStatistics, ne_eq, e, not_false_eq_true, if_true, e2, dite_false]
  simp only [countOne, e3, if_false, Int.toNat_natCast, Fin.eta, h.status, Log.frames]
  obtain ⟨m, rfl⟩ : ∃ m, n = m + 1 := ⟨n - 1, by omega⟩
  rw [h3 hinc i, List.take_succ_cons, List.filter_cons]
  have e4 : (((m + 1 : ℕ) : ℤ) - 1).toNat = m := by omega
  rw [e4]
  have key : ∀ (ts : List ℝ) (fs : List (Frame nCam)) (m : ℕ), ts.length = fs.length →
      (((ts.zip (fs.map (fun fr => fr i))).take m).filter (fun e => e.2 = s)).length
        = ((fs.take m).filter (fun fr => fr i = s)).length := by
    intro ts fs
    induction fs generalizing ts with
    | nil => intro m _; simp
    | cons a fs ih =>
      intro m hl
      cases ts with
      | nil => simp at hl
      | cons b ts =>
        cases m with
        | zero => simp
        | succ m =>
          simp only [List.map_cons, List.zip_cons_cons, List.take_succ_cons, List.filter_cons]
          have := ih ts m (by simpa using hl)
          split_ifs <;> simp_all
  rw [key ts _ m h2]
  split_ifs <;> simp_all

/-- Non-vacuity: two frames 0 < 1, window of 2. -/
example : countTrackingStatistics (run (init (nCam := 1) 10 100 100 0)
      [.setStatus 0 .tracked, .increase 1, .setStatus 0 .failedTracking]) .tracked (0 : Fin 1) (2 : ℕ) = 1 := by
  rw [C04_window_is_log_window 10 100 100 0 _ 0 .tracked 2 (by norm_num)]
  · simp [Log.run, Log.step, Log.frames, Log.fresh]
  · simp [Log.Incremental, Log.run, Log.step, Log.fresh]

/-- C04: window counts over the five statuses add up to the window length, or to the age of the
feature if it is younger. -/
theorem C04_window_partition (lq lv mg : ℤ) (t0 : ℝ) (ops : List (Op nCam)) (i : Fin nCam)
    (n : ℕ) (hn : 1 ≤ n) (hinc : ((Log.fresh (nCam := nCam) t0).run ops).Incremental) :
    ∑ s : Status, countTrackingStatistics (run (init lq lv mg t0) ops) s i n
      = min n (countTot (run (init (nCam := nCam) lq lv mg t0) ops)) := by
  have e : ∀ s, countTrackingStatistics (run (init lq lv mg t0) ops) s i n = _ := fun s =>
    C04_window_is_log_window lq lv mg t0 ops i s n hn hinc
  simp only [e]
  rw [sum_filter_length _ (fun fr : Frame nCam => fr i)]
  have h := sim_run (sim_init (nCam := nCam) lq lv mg t0) ops
  simp [Log.frames, countTot, h.tot]

example : ∑ s : Status, countTrackingStatistics (run (init (nCam := 1) 10 100 100 0)
      [.setStatus 0 .tracked, .increase 1, .setStatus 0 .failedTracking]) s (0 : Fin 1) (5 : ℕ) = 2 := by
  rw [C04_window_partition 10 100 100 0 _ 0 5 (by norm_num)]
  · simp [countTot, run, step, increaseStatistics, init, resetStatistics]
  · simp [Log.Incremental, Log.run, Log.step, Log.fresh]

/-- C04, negative part: with a repeated time stamp the window count is no longer the log count (the
two frames share one map entry): the incremental-time hypothesis is needed. -/
theorem C04_window_needs_incremental :
    ∃ ops : List (Op 1),
      ¬ ((Log.fresh (nCam := 1) 0).run ops).Incremental ∧
      countTrackingStatistics (run (init 10 100 100 0) ops) .tracked (0 : Fin 1) (5 : ℕ) = 1 ∧
      ((((Log.fresh 0).run ops).frames.take 5).filter (fun fr => fr 0 = .tracked)).length = 2 := by
  refine ⟨[.setStatus 0 .tracked, .increase 0, .setStatus 0 .tracked, .increase 0], ?_, ?_, ?_⟩
  · simp [Log.Incremental, Log.run, Log.step, Log.fresh]
  · simp [countTrackingStatistics, countOne, run, step, increaseStatistics, init, resetStatistics,
      TimeMap.set, Function.update_self]
  · simp [Log.run, Log.step, Log.frames, Log.fresh]

/-- C04: the count over all cameras (`camID = -1`) is the sum of the per-camera counts, and any other
camera index outside `0..nCam-1` counts 0. -/
theorem C04_camera_selection (f : FeatureStatistics nCam) (s : Status) (n : ℤ) :
    countTrackingStatistics f s (-1) n = ∑ i : Fin nCam, countTrackingStatistics f s i n ∧
    ∀ c : ℤ, c ≠ -1 → (c < 0 ∨ (nCam : ℤ) ≤ c) → countTrackingStatistics f s c n = 0 := by
  constructor
  · have h : ∀ i : Fin nCam, countTrackingStatistics f s i n = countOne f s n i := by
      intro i
      have e : ¬ (((i : ℕ) : ℤ) = -1) := by omega
      have e2 : ¬ (((i : ℕ) : ℤ) < 0 ∨ ((i : ℕ) : ℤ) ≥ (nCam : ℤ)) := by omega
      simp only [countTrackingStatistics, ne_eq, e, not_false_eq_true, if_true, e2, dite_false]
      simp
    simp only [h]
    simp only [countTrackingStatistics, ne_eq, not_true, if_false]
    rw [Finset.sum_eq_multiset_sum]
    rfl
  · intro c h1 h2
    simp [countTrackingStatistics, h1, h2]

example : countTrackingStatistics (init (nCam := 2) 10 100 100 0) .unknown 7 0 = 0 :=
  (C04_camera_selection _ _ _).2 7 (by norm_num) (by norm_num)

/-- C04: `countTot` is the number of logged frames, `countTracked` the number of those in which some
camera tracked the feature; in particular `countTracked ≤ countTot`. -/
theorem C04_tracked_frames (lq lv mg : ℤ) (t0 : ℝ) (ops : List (Op nCam)) :
    let f := run (init lq lv mg t0) ops
    let l := (Log.fresh t0).run ops
    countTot f = l.frames.length ∧
    countTracked f = (l.frames.filter (fun fr => decide (∃ i, fr i = .tracked))).length ∧
    countTracked f ≤ countTot f := by
  intro f l
  have h := sim_run (sim_init (nCam := nCam) lq lv mg t0) ops
  have e : ∀ fr : Frame nCam, frameTracked fr = decide (∃ i, fr i = .tracked) := by
    intro fr
    by_cases hx : ∃ i, fr i = .tracked
    · obtain ⟨i, hi⟩ := hx
      have : frameTracked fr = true := by
        simp only [frameTracked, List.any_eq_true]; exact ⟨i, by simp, by simp [hi]⟩
      rw [this]; symm; exact decide_eq_true ⟨i, hi⟩
    · have : frameTracked fr = false := by
        simp only [frameTracked, List.any_eq_false]
        intro i _ hi; exact hx ⟨i, by simpa using hi⟩
      rw [this]; symm; exact decide_eq_false hx
  have e' : (fun fr : Frame nCam => decide (∃ i, fr i = .tracked)) = frameTracked :=
    funext fun fr => (e fr).symm
  have htot : countTot f = l.frames.length := by simp [f, l, countTot, Log.frames, h.tot]
  have htr : countTracked f = (l.frames.filter (fun fr => decide (∃ i, fr i = .tracked))).length := by
    rw [e']
    have : trackedInSomeFrame f = frameTracked l.current := by
      simp [f, l, trackedInSomeFrame, frameTracked, h.status]
    simp only [countTracked, this, Log.frames, List.filter_cons]
    have ht : f.trackedCount = (l.past.filter frameTracked).length := h.tracked
    split_ifs <;> simp_all
  exact ⟨htot, htr, by rw [htot, htr]; exact List.length_filter_le _ _⟩

example : countTracked (run (init (nCam := 2) 10 100 100 0)
    [.setStatus 1 .tracked, .increase 1, .setStatus 0 .failedTracking]) = 1 := by
  have := (C04_tracked_frames (nCam := 2) 10 100 100 0
    [.setStatus 1 .tracked, .increase 1, .setStatus 0 .failedTracking]).2.1
  rw [this]
  rw [show ((Log.fresh (nCam := 2) 0).run [.setStatus 1 .tracked, .increase 1, .setStatus 0 .failedTracking]).frames
    = [Function.update (fun _ => Status.unknown) 0 .failedTracking,
       Function.update (fun _ => Status.unknown) 1 .tracked] from rfl]
  rfl

/-- C05: with ranges of at least 1, every quality measure is in `[0,1]` after every history. -/
theorem C05_qualities_in_unit_interval (lq lv mg : ℤ) (h1 : 1 ≤ lq) (h2 : 1 ≤ lv) (h3 : 1 ≤ mg)
    (t0 : ℝ) (ops : List (Op nCam)) :
    let f := run (init lq lv mg t0) ops
    (∀ i, getLocalQuality f i ∈ Set.Icc (0:ℝ) 1) ∧ (∀ i, getLocalVisibility f i ∈ Set.Icc (0:ℝ) 1) ∧
    getJointLocalVisibility f ∈ Set.Icc (0:ℝ) 1 ∧ getAverageLocalQuality f ∈ Set.Icc (0:ℝ) 1 ∧
    getMaxLocalQuality f ∈ Set.Icc (0:ℝ) 1 ∧ getGlobalQuality f ∈ Set.Icc (0:ℝ) 1 := by
  intro f
  have hb : Bounded f := bounded_run (bounded_reset h1 h2 h3 t0) ops
  have hlq : ∀ i, getLocalQuality f i ∈ Set.Icc (0:ℝ) 1 := fun i => qualityStep_mem hb.rq _ (hb.lq i)
  refine ⟨hlq, ?_, ?_, ?_, ?_, ?_⟩
  · exact fun i => visibilityStep_mem hb.rv (visible (f.status i)) (hb.lv i)
  · exact visibilityStep_mem hb.rv _ hb.jv
  · exact foldl_mem _ _ (fun q a hq => qualityStep_mem hb.rq (f.status a) hq) hb.aq
  · refine foldl_mem _ _ (fun q a hq => ?_) ⟨le_rfl, zero_le_one⟩
    split_ifs
    · exact hlq a
    · exact hq
  · have hT : (0:ℝ) < countTot f := by simp [countTot]; positivity
    have hR : (0:ℝ) < f.minGlobalQualityRange := by exact_mod_cast hb.rg
    have hle : (countTracked f : ℝ) ≤ countTot f := by
      have := (C04_tracked_frames (nCam := nCam) lq lv mg t0 ops).2.2
      exact_mod_cast this
    have a1 : (countTracked f : ℝ) / countTot f ≤ 1 := (div_le_one hT).mpr hle
    have a0 : 0 ≤ (countTracked f : ℝ) / countTot f := by positivity
    have b0 : 0 ≤ min ((countTot f : ℝ) / f.minGlobalQualityRange) 1 :=
      le_min (by positivity) zero_le_one
    have b1 : min ((countTot f : ℝ) / f.minGlobalQualityRange) 1 ≤ 1 := min_le_right _ _
    exact ⟨mul_nonneg a0 b0, mul_le_one₀ a1 b0 b1⟩

example : getLocalQuality (run (init (nCam := 1) 10 100 100 0)
    [.setStatus 0 .failedTracking, .increase 1, .setStatus 0 .tracked]) 0 ∈ Set.Icc (0:ℝ) 1 :=
  (C05_qualities_in_unit_interval 10 100 100 (by norm_num) (by norm_num) (by norm_num) 0 _).1 0

/-- C05, negative part: with a configured range below 1 the bound fails. -/
theorem C05_needs_positive_range :
    ∃ (lv : ℤ), lv < 1 ∧ 1 < getJointLocalVisibility (init (nCam := 1) 10 lv 100 0) := by
  refine ⟨-1, by norm_num, ?_⟩
  have h : inSomeFrame (init (nCam := 1) 10 (-1) 100 0) = false := rfl
  rw [getJointLocalVisibility, h]
  norm_num [init, resetStatistics, filtDown]

/-- C06: what the getters report before `increaseStatistics(t)` is what is stored by it, for every
object and time stamp (so the stamp has no influence on them). -/
theorem C06_getters_preview (f : FeatureStatistics nCam) (t : ℝ) :
    (∀ i, (increaseStatistics f t).localQuality i = getLocalQuality f i) ∧
    (∀ i, (increaseStatistics f t).localVisibility i = getLocalVisibility f i) ∧
    (increaseStatistics f t).jointLocalVisibility = getJointLocalVisibility f ∧
    (increaseStatistics f t).averageLocalQuality = getAverageLocalQuality f ∧
    (increaseStatistics f t).totCount = countTot f ∧
    (increaseStatistics f t).trackedCount = countTracked f := by
  refine ⟨fun i => rfl, fun i => rfl, rfl, rfl, rfl, ?_⟩
  simp only [increaseStatistics, countTracked]
  split_ifs <;> simp

/-- C06: right after `increaseStatistics` (no status set yet) the average and per-camera local
qualities read back exactly what was previewed. -/
theorem C06_readback (f : FeatureStatistics nCam) (t : ℝ) :
    (∀ i, getLocalQuality (increaseStatistics f t) i = getLocalQuality f i) ∧
    getAverageLocalQuality (increaseStatistics f t) = getAverageLocalQuality f ∧
    getMaxLocalQuality (increaseStatistics f t) = getMaxLocalQuality f ∧
    countTracked (increaseStatistics f t) = countTracked f ∧
    countTot (increaseStatistics f t) = countTot f + 1 := by
  have hst : ∀ i, (increaseStatistics f t).status i = .unknown := fun i => rfl
  have hlq : ∀ i, getLocalQuality (increaseStatistics f t) i = getLocalQuality f i := by
    intro i
    rw [getLocalQuality, hst]
    exact (C06_getters_preview f t).1 i
  refine ⟨hlq, ?_, ?_, ?_, rfl⟩
  · rw [← (C06_getters_preview f t).2.2.2.1]
    rw [getAverageLocalQuality]
    generalize (increaseStatistics f t).averageLocalQuality = q
    induction (List.finRange nCam) with
    | nil => rfl
    | cons a l ih => rw [List.foldl_cons, hst]; exact ih
  · simp only [getMaxLocalQuality, hlq]
  · rw [countTracked, (C06_getters_preview f t).2.2.2.2.2]
    have : trackedInSomeFrame (increaseStatistics f t) = false := by
      simp [trackedInSomeFrame, hst]
    simp [this]

/-- C06: a feature that is tracked in camera `i` for `k` consecutive frames approaches quality 1
exponentially, one that fails decays exponentially, one out of view keeps its quality. -/
theorem C06_exponential (f : FeatureStatistics nCam) (i : Fin nCam) (s : Status) (ts : List ℝ) :
    let g := run f (ts.flatMap fun t => [.setStatus i s, .increase t])
    (s = .tracked → 1 - g.localQuality i
        = (1 - 1 / (f.localQualityRange : ℝ)) ^ ts.length * (1 - f.localQuality i)) ∧
    (s = .failedAlignment ∨ s = .failedTracking → g.localQuality i
        = (1 - 1 / (f.localQualityRange : ℝ)) ^ ts.length * f.localQuality i) ∧
    (s = .unknown ∨ s = .notInFrame → g.localQuality i = f.localQuality i) := by
  induction ts generalizing f with
  | nil => simp [run]
  | cons t ts ih =>
    have hs := ih (run f [.setStatus i s, .increase t])
    simp only [List.flatMap_cons]
    rw [run_append]
    obtain ⟨h1, h2, h3⟩ := hs
    have hr : (run f [.setStatus i s, .increase t]).localQualityRange = f.localQualityRange := rfl
    have hq : (run f [.setStatus i s, .increase t]).localQuality i
        = qualityStep f.localQualityRange s (f.localQuality i) := by
      simp [run, step, increaseStatistics]
    refine ⟨fun e => ?_, fun e => ?_, fun e => ?_⟩
    · rw [h1 e, hr, hq, e]
      simp only [qualityStep, filtUp, if_true, List.length_cons]
      norm_num
      ring
    · rw [h2 e, hr, hq]
      rcases e with e | e <;> subst e <;>
        simp [qualityStep, filtDown] <;> norm_num <;> ring
    · rw [h3 e, hq]
      rcases e with e | e <;> subst e <;> simp [qualityStep]

example : (run (init (nCam := 1) 10 100 100 0) ([1, 2].flatMap fun t =>
    [Op.setStatus 0 .failedTracking, .increase t])).localQuality 0 = 0.81 := by
  rw [(C06_exponential (init (nCam := 1) 10 100 100 0) 0 .failedTracking [1, 2]).2.1 (Or.inr rfl)]
  norm_num [init, resetStatistics]

lemma foldl_or_eq {α : Type*} (l : List α) (p : α → Bool) (b : Bool) :
    l.foldl (fun g i => g || p i) b = (b || l.any p) := by
  induction l generalizing b with
  | nil => simp
  | cons a t ih => simp [ih, Bool.or_assoc]

/-- C07: the acceptance rule. -/
theorem C07_acceptance (f : FeatureStatistics nCam) (upper lower : ℝ) :
    isGoodFeature f upper lower = true ↔
      ∃ i, getLocalQuality f i * getLocalVisibility f i
        > upper * (1 - getGlobalQuality f) + lower * getGlobalQuality f := by
  classical
  rw [isGoodFeature, foldl_or_eq]
  have e : upper - (upper - lower) * getGlobalQuality f
      = upper * (1 - getGlobalQuality f) + lower * getGlobalQuality f := by ring
  simp [e]

/-- C07: raising either threshold never turns a rejected feature into an accepted one, after every
history. -/
theorem C07_antitone (lq lv mg : ℤ) (h1 : 1 ≤ lq) (h2 : 1 ≤ lv) (h3 : 1 ≤ mg)
    (t0 : ℝ) (ops : List (Op nCam)) (u u' l l' : ℝ) (hu : u ≤ u') (hl : l ≤ l') :
    isGoodFeature (run (init (nCam := nCam) lq lv mg t0) ops) u' l' = true →
      isGoodFeature (run (init lq lv mg t0) ops) u l = true := by
  rw [C07_acceptance, C07_acceptance]
  rintro ⟨i, hi⟩
  refine ⟨i, lt_of_le_of_lt ?_ hi⟩
  obtain ⟨g0, g1⟩ := (C05_qualities_in_unit_interval (nCam := nCam) lq lv mg h1 h2 h3 t0 ops).2.2.2.2.2
  have := mul_le_mul_of_nonneg_right hu (sub_nonneg.mpr g1)
  have := mul_le_mul_of_nonneg_right hl g0
  linarith

/-- Non-vacuity for C07: a fresh feature that has been tracked in its first frame is accepted
at thresholds (0.5, 0.1). -/
example : isGoodFeature (run (init (nCam := 1) 10 100 100 0) [.setStatus 0 .tracked]) 0.5 0.1 = true := by
  rw [C07_acceptance]
  refine ⟨0, ?_⟩
  norm_num [getLocalQuality, getLocalVisibility, getGlobalQuality, countTracked, countTot, run, step, init,
    resetStatistics, filtUp, trackedInSomeFrame, List.finRange]

/-- C07: thresholds of at least 1 accept no feature, negative ones (for one visible camera) all. -/
theorem C07_extremes (lq lv mg : ℤ) (h1 : 1 ≤ lq) (h2 : 1 ≤ lv) (h3 : 1 ≤ mg)
    (t0 : ℝ) (ops : List (Op nCam)) :
    (∀ u l, 1 ≤ u → 1 ≤ l → isGoodFeature (run (init (nCam := nCam) lq lv mg t0) ops) u l = false) ∧
    (∀ u l, u < 0 → l < 0 → 0 < nCam →
      isGoodFeature (run (init (nCam := nCam) lq lv mg t0) ops) u l = true) := by
  obtain ⟨a1, a2, -, -, -, g0, g1⟩ :=
    C05_qualities_in_unit_interval (nCam := nCam) lq lv mg h1 h2 h3 t0 ops
  constructor
  · intro u l hu hl
    rw [Bool.eq_false_iff, ne_eq, C07_acceptance]
    rintro ⟨i, hi⟩
    have m : getLocalQuality (run (init lq lv mg t0) ops) i * getLocalVisibility (run (init lq lv mg t0) ops) i ≤ 1 :=
      mul_le_one₀ (a1 i).2 (a2 i).1 (a2 i).2
    have := mul_le_mul_of_nonneg_right hu (sub_nonneg.mpr g1)
    have := mul_le_mul_of_nonneg_right hl g0
    linarith
  · intro u l hu hl hn
    rw [C07_acceptance]
    refine ⟨⟨0, hn⟩, ?_⟩
    have m := mul_nonneg (a1 ⟨0, hn⟩).1 (a2 ⟨0, hn⟩).1
    rcases lt_or_eq_of_le g0 with hg | hg
    · have := mul_neg_of_neg_of_pos hl hg
      have := mul_nonneg (neg_nonneg.mpr hu.le) (sub_nonneg.mpr g1)
      linarith
    · rw [← hg]; simp; linarith

end Rovio.Stat
