import Verif.Spec.FeatureStatistics
import Mathlib.Tactic.Linarith
import Mathlib.Tactic.NormNum
import Mathlib.Tactic.Positivity
import Mathlib.Tactic.Ring
import Mathlib.Algebra.Order.Field.Basic

namespace Rovio.Stat

variable {nCam : ℕ}

/-- Some camera tracked the feature in the frame. -/
def frameTracked (fr : Frame nCam) : Bool := (List.finRange nCam).any fun i => fr i = .tracked

/-- Simulation relation between the stored statistics and the log. -/
structure Sim (f : FeatureStatistics nCam) (l : Log nCam) : Prop where
  status : f.status = l.current
  tot : f.totCount = l.past.length
  tracked : f.trackedCount = (l.past.filter frameTracked).length
  cumul : ∀ i s, f.cumulative i s = (l.past.filter (fun fr => fr i = s)).length
  time : ∃ ts, l.times = f.currentTime :: ts ∧ ts.length = l.past.length ∧
    (l.Incremental → ∀ i, f.statistics i = ts.zip (l.past.map (fun fr => fr i)))

lemma sim_reset (f : FeatureStatistics nCam) (t : ℝ) : Sim (resetStatistics f t) (Log.fresh t) :=
  { status := rfl, tot := rfl, tracked := rfl, cumul := fun _ _ => rfl,
    time := ⟨[], rfl, rfl, fun _ _ => rfl⟩ }

lemma sim_init (lq lv mg : ℤ) (t : ℝ) : Sim (init (nCam := nCam) lq lv mg t) (Log.fresh t) :=
  sim_reset _ t

lemma TimeMap.set_lt {m : TimeMap} {k : ℝ} {v : Status} (h : ∀ e ∈ m, e.1 < k) :
    m.set k v = (k, v) :: m := by
  cases m with
  | nil => rfl
  | cons e t =>
    obtain ⟨k', v'⟩ := e
    have h0 : k' < k := h (k', v') (by simp)
    simp [TimeMap.set, h0]

lemma sim_step {f : FeatureStatistics nCam} {l : Log nCam} (h : Sim f l) (op : Op nCam) :
    Sim (step f op) (l.step op) := by
  cases op with
  | setStatus i s =>
    obtain ⟨ts, h1, h2, h3⟩ := h.time
    exact { status := by simp [step, Log.step, h.status], tot := h.tot, tracked := h.tracked,
            cumul := h.cumul, time := ⟨ts, h1, h2, h3⟩ }
  | reset t => exact sim_reset f t
  | increase t =>
    obtain ⟨ts, h1, h2, h3⟩ := h.time
    refine { status := rfl, tot := by simp [step, increaseStatistics, Log.step, h.tot],
             tracked := ?_, cumul := ?_, time := ?_ }
    · simp only [step, increaseStatistics, Log.step, List.filter_cons]
      have : trackedInSomeFrame f = frameTracked l.current := by
        simp [trackedInSomeFrame, frameTracked, h.status]
      rw [this]
      split <;> simp [h.tracked]
    · intro i s
      simp only [step, increaseStatistics, Log.step, List.filter_cons, h.status]
      by_cases hs : s = l.current i
      · simp [hs, h.cumul]
      · have hs' : ¬ (l.current i = s) := fun e => hs e.symm
        simp [hs, hs', h.cumul]
    · refine ⟨f.currentTime :: ts, by simp [step, increaseStatistics, Log.step, h1],
        by simp [Log.step, h2], ?_⟩
      intro hinc i
      simp only [Log.Incremental, Log.step, h1] at hinc
      have hinc1 := (List.pairwise_cons.mp hinc).2
      have hlt := (List.pairwise_cons.mp hinc1).1
      simp only [step, increaseStatistics, Log.step, List.map_cons, List.zip_cons_cons]
      rw [h3 (by simpa [Log.Incremental, h1] using hinc1) i, TimeMap.set_lt, h.status]
      intro e he
      exact hlt _ (List.of_mem_zip he).1

lemma sim_run {f : FeatureStatistics nCam} {l : Log nCam} (h : Sim f l) (ops : List (Op nCam)) :
    Sim (run f ops) (l.run ops) := by
  induction ops generalizing f l with
  | nil => exact h
  | cons op ops ih => exact ih (sim_step h op)

/-! Counting over the five statuses. -/

lemma univ_status : (Finset.univ : Finset Status) =
    {.unknown, .notInFrame, .failedAlignment, .failedTracking, .tracked} := by rfl

lemma sum_ite_status (s0 : Status) : ∑ s : Status, (if s0 = s then 1 else 0) = 1 := by
  simp

lemma sum_filter_length {α : Type*} (l : List α) (g : α → Status) :
    ∑ s : Status, (l.filter (fun x => g x = s)).length = l.length := by
  induction l with
  | nil => simp
  | cons a t ih =>
    have : ∀ s : Status, ((a :: t).filter (fun x => g x = s)).length
        = (if g a = s then 1 else 0) + (t.filter (fun x => g x = s)).length := by
      intro s
      by_cases h : g a = s <;> simp [h]; omega
    simp only [this, Finset.sum_add_distrib, ih, sum_ite_status, List.length_cons]
    omega

/-! Bounds. -/

lemma inv_range_mem {r : ℤ} (hr : 1 ≤ r) : 0 ≤ (1.0 / (r : ℝ)) ∧ (1.0 / (r : ℝ)) ≤ 1 := by
  have h1 : (1:ℝ) ≤ r := by exact_mod_cast hr
  constructor
  · positivity
  · rw [div_le_one (by linarith)]; norm_num; linarith

lemma filtUp_mem {r : ℤ} (hr : 1 ≤ r) {q : ℝ} (h : 0 ≤ q ∧ q ≤ 1) :
    0 ≤ filtUp r q ∧ filtUp r q ≤ 1 := by
  obtain ⟨h0, h1⟩ := inv_range_mem hr
  unfold filtUp
  generalize (1.0 / (r:ℝ)) = e at h0 h1 ⊢
  constructor
  · have := mul_nonneg h.1 (sub_nonneg.mpr h1); linarith
  · have := mul_nonneg (sub_nonneg.mpr h.2) (sub_nonneg.mpr h1); nlinarith

lemma filtDown_mem {r : ℤ} (hr : 1 ≤ r) {q : ℝ} (h : 0 ≤ q ∧ q ≤ 1) :
    0 ≤ filtDown r q ∧ filtDown r q ≤ 1 := by
  obtain ⟨h0, h1⟩ := inv_range_mem hr
  unfold filtDown
  generalize (1.0 / (r:ℝ)) = e at h0 h1 ⊢
  constructor
  · exact mul_nonneg h.1 (sub_nonneg.mpr h1)
  · have := mul_nonneg h.1 h0; nlinarith [h.2]

lemma qualityStep_mem {r : ℤ} (hr : 1 ≤ r) (s : Status) {q : ℝ} (h : 0 ≤ q ∧ q ≤ 1) :
    0 ≤ qualityStep r s q ∧ qualityStep r s q ≤ 1 := by
  unfold qualityStep
  split_ifs
  · exact filtUp_mem hr h
  · exact filtDown_mem hr h
  · exact h

lemma visibilityStep_mem {r : ℤ} (hr : 1 ≤ r) (b : Bool) {q : ℝ} (h : 0 ≤ q ∧ q ≤ 1) :
    0 ≤ visibilityStep r b q ∧ visibilityStep r b q ≤ 1 := by
  unfold visibilityStep
  split_ifs
  · exact filtUp_mem hr h
  · exact filtDown_mem hr h

lemma foldl_mem {α : Type*} (l : List α) (g : ℝ → α → ℝ)
    (hg : ∀ q a, (0 ≤ q ∧ q ≤ 1) → (0 ≤ g q a ∧ g q a ≤ 1)) {q : ℝ} (h : 0 ≤ q ∧ q ≤ 1) :
    0 ≤ l.foldl g q ∧ l.foldl g q ≤ 1 := by
  induction l generalizing q with
  | nil => exact h
  | cons a t ih => exact ih (hg q a h)

/-- The invariant behind C05. -/
structure Bounded (f : FeatureStatistics nCam) : Prop where
  rq : 1 ≤ f.localQualityRange
  rv : 1 ≤ f.localVisibilityRange
  rg : 1 ≤ f.minGlobalQualityRange
  lq : ∀ i, 0 ≤ f.localQuality i ∧ f.localQuality i ≤ 1
  lv : ∀ i, 0 ≤ f.localVisibility i ∧ f.localVisibility i ≤ 1
  aq : 0 ≤ f.averageLocalQuality ∧ f.averageLocalQuality ≤ 1
  jv : 0 ≤ f.jointLocalVisibility ∧ f.jointLocalVisibility ≤ 1
  cnt : f.trackedCount ≤ f.totCount

lemma bounded_reset {f : FeatureStatistics nCam} (h1 : 1 ≤ f.localQualityRange)
    (h2 : 1 ≤ f.localVisibilityRange) (h3 : 1 ≤ f.minGlobalQualityRange) (t : ℝ) :
    Bounded (resetStatistics f t) := by
  refine ⟨h1, h2, h3, ?_, ?_, ?_, ?_, ?_⟩ <;> simp [resetStatistics]

lemma bounded_step {f : FeatureStatistics nCam} (h : Bounded f) (op : Op nCam) : Bounded (step f op) := by
  cases op with
  | setStatus i s => exact ⟨h.rq, h.rv, h.rg, h.lq, h.lv, h.aq, h.jv, h.cnt⟩
  | reset t => exact bounded_reset h.rq h.rv h.rg t
  | increase t =>
    refine ⟨h.rq, h.rv, h.rg, ?_, ?_, ?_, ?_, ?_⟩
    · exact fun i => qualityStep_mem h.rq _ (h.lq i)
    · exact fun i => visibilityStep_mem h.rv _ (h.lv i)
    · exact foldl_mem _ _ (fun q a hq => qualityStep_mem h.rq _ hq) h.aq
    · exact visibilityStep_mem h.rv _ h.jv
    · simp only [step, increaseStatistics]
      have := h.cnt
      split <;> omega

lemma bounded_run {f : FeatureStatistics nCam} (h : Bounded f) (ops : List (Op nCam)) :
    Bounded (run f ops) := by
  induction ops generalizing f with
  | nil => exact h
  | cons op ops ih => exact ih (bounded_step h op)

lemma run_append (f : FeatureStatistics nCam) (a b : List (Op nCam)) :
    run f (a ++ b) = run (run f a) b := by simp [run]

end Rovio.Stat
