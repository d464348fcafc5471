import Verif.Lemmas.Unseen
import Verif.Props.FilterLive

/-!
# Property C97: position and heading never become more certain than they were at the start

Images, IMU and velocity measurements contain no information about absolute position and heading.  The filter never pretends otherwise: initial
uncertainty of position and heading is carried along unchanged and has no influence on the estimate.
-/

namespace Rovio

open Matrix Spec Distance

variable {n nCam nPose k : ℕ}

/-- **C97.** Two filters in the same state, the second with additional uncertainty about position and heading (independent errors, the columns of `L`),
receive the same IMU measurements, images and velocities.  Then both runs are undefined, or both end in the same estimate, and the second still has the
additional uncertainty: the heading errors `L (.att 2)` are the same, and the position errors are the same but for the displacement a heading error
causes. -/
theorem C97_run (cfg : FCfg n (nCam + 1) nPose) : ∀ (es : List (Step n (nCam + 1) nPose)), (∀ e ∈ es, BlindStep e) →
    ∀ (L : Matrix (Ix n (nCam + 1) nPose) (Fin k) ℝ) (x y : FSt n (nCam + 1) nPose), Widened L x y →
      Both (fun x' y' => ∃ (d : Fin 3 → ℝ) (L' : Matrix (Ix n (nCam + 1) nPose) (Fin k) ℝ), Widened L' x' y' ∧
        (∀ j, L' (.att 2) j = L (.att 2) j) ∧ ∀ l j, L' (.pos l) j = L (.pos l) j + d l * L (.att 2) j) (x.run cfg es) (y.run cfg es)
  | [], _, L, _, _, h => .some ⟨0, L, h, fun _ => rfl, fun _ _ => by simp⟩
  | e :: es, he, L, x, y, h => by
    unfold FSt.run
    rw [List.foldlM_cons, List.foldlM_cons]
    have hs := step_wide cfg (he e (by simp)) h
    revert hs
    generalize x.step cfg e = u
    generalize y.step cfg e = v
    intro hs
    cases hs with
    | none => exact .none
    | some hs =>
      obtain ⟨d, L₁, hw, h1, h2⟩ := hs
      rename_i x₁ y₁
      have ih := C97_run cfg es (fun a ha => he a (by simp [ha])) L₁ x₁ y₁ hw
      unfold FSt.run at ih
      simp only [Option.bind_eq_bind, Option.bind_some]
      revert ih
      generalize List.foldlM (FSt.step cfg) x₁ es = u'
      generalize List.foldlM (FSt.step cfg) y₁ es = v'
      intro ih
      cases ih with
      | none => exact .none
      | some ih =>
        obtain ⟨d', L₂, hw', h1', h2'⟩ := ih
        exact .some ⟨fun l => d l + d' l, L₂, hw', fun j => by rw [h1', h1], fun l j => by rw [h2', h2, h1]; ring⟩

/-- A covariance with other variances of position and heading only. -/
def SameButUnseen (p p' : Ix n nCam nPose → ℝ) : Prop := ∀ a, (∀ k, a ≠ .pos k) → a ≠ .att 2 → p a = p' a

/-- The four rows of position and heading. -/
def unseenRow : Fin 4 → Ix n nCam nPose := ![.pos 0, .pos 1, .pos 2, .att 2]

/-- Independent errors of position and heading with the variances `p`. -/
noncomputable def unseenErrors (p : Ix n nCam nPose → ℝ) : Matrix (Ix n nCam nPose) (Fin 4) ℝ :=
  open Classical in Matrix.of fun a j => if a = unseenRow j then Real.sqrt (p a) else 0

/-- The variances without those of position and heading. -/
noncomputable def seenVar (p : Ix n nCam nPose → ℝ) : Ix n nCam nPose → ℝ := fun a =>
  open Classical in if ∃ j, a = unseenRow j then 0 else p a

lemma unseenRow_inj : Function.Injective (unseenRow : Fin 4 → Ix n nCam nPose) := by
  intro i j h
  fin_cases i <;> fin_cases j <;> first | rfl | simp [unseenRow] at h

lemma unseenErrors_unseen (p : Ix n nCam nPose → ℝ) (j : Fin 4) : Unseen fun a => unseenErrors p a j := by
  refine ⟨?_, ?_, fun a ha => ?_⟩
  · fin_cases j <;> simp [unseenErrors, unseenRow]
  · fin_cases j <;> simp [unseenErrors, unseenRow]
  · simp only [unseenErrors, Matrix.of_apply]
    rw [if_neg]
    fin_cases j
    · exact (ha 0).1
    · exact (ha 1).1
    · exact (ha 2).1
    · exact (ha 2).2

lemma diagonal_split [DecidableEq (Ix n nCam nPose)] {p : Ix n nCam nPose → ℝ} (hp : ∀ a, 0 ≤ p a) :
    Matrix.diagonal p = Matrix.diagonal (seenVar p) + unseenErrors p * (unseenErrors p)ᵀ := by
  classical
  ext a b
  rw [Matrix.add_apply, Matrix.mul_apply]
  simp only [unseenErrors, Matrix.of_apply, Matrix.transpose_apply, Matrix.diagonal_apply, seenVar]
  by_cases hab : a = b
  · subst hab
    simp only [if_true]
    by_cases h : ∃ j, a = unseenRow j
    · obtain ⟨j, rfl⟩ := h
      rw [if_pos ⟨j, rfl⟩, Finset.sum_eq_single j, if_pos rfl, Real.mul_self_sqrt (hp _), zero_add]
      · intro i _ hi
        rw [if_neg fun e => hi (unseenRow_inj e).symm, zero_mul]
      · simp
    · rw [if_neg h, Finset.sum_eq_zero, add_zero]
      intro i _
      rw [if_neg fun e => h ⟨i, e⟩, zero_mul]
  · rw [if_neg hab, if_neg hab, zero_add]
    refine (Finset.sum_eq_zero fun j _ => ?_).symm
    by_cases h1 : a = unseenRow j
    · rw [if_neg (fun h2 : b = unseenRow j => hab (h1.trans h2.symm)), mul_zero]
    · rw [if_neg h1, zero_mul]

/-- **C97, estimates.** The configured initial variances of position and heading have no influence: with others, the filter ends with the same estimate, the
same decisions (both runs are defined or none), and the same variances and correlations of everything but position and attitude. -/
theorem C97_estimates (cfg : FCfg n (nCam + 1) nPose) (es : List (Step n (nCam + 1) nPose)) (he : ∀ e ∈ es, BlindStep e)
    (s : State n (nCam + 1) nPose) (u : PoseUpd nPose) (p p' : Ix n (nCam + 1) nPose → ℝ) (hp : ∀ a, 0 ≤ p a) (hp' : ∀ a, 0 ≤ p' a) (h : SameButUnseen p p') :
    Both (fun x y => y.s = x.s ∧ ∀ a b : Ix n (nCam + 1) nPose, (∀ k, a ≠ .pos k ∧ a ≠ .att k) → (∀ k, b ≠ .pos k ∧ b ≠ .att k) → y.P a b = x.P a b)
      (FSt.run cfg ⟨s, Matrix.diagonal p, u⟩ es) (FSt.run cfg ⟨s, Matrix.diagonal p', u⟩ es) := by
  classical
  have e : seenVar p = seenVar p' := by
    funext a
    simp only [seenVar]
    split_ifs with ha
    · rfl
    · exact h a (fun k hk => ha (by subst hk; fin_cases k; exacts [⟨0, rfl⟩, ⟨1, rfl⟩, ⟨2, rfl⟩])) fun hk => ha ⟨3, hk⟩
  have h1 := C97_run cfg es he (unseenErrors p) ⟨s, Matrix.diagonal (seenVar p), u⟩ ⟨s, Matrix.diagonal p, u⟩ ⟨rfl, diagonal_split hp, rfl, unseenErrors_unseen p⟩
  have h2 := C97_run cfg es he (unseenErrors p') ⟨s, Matrix.diagonal (seenVar p'), u⟩ ⟨s, Matrix.diagonal p', u⟩ ⟨rfl, diagonal_split hp', rfl, unseenErrors_unseen p'⟩
  rw [← e] at h2
  have hz : ∀ {k : ℕ} {L : Matrix (Ix n (nCam + 1) nPose) (Fin k) ℝ} {x y : FSt n (nCam + 1) nPose}, Widened L x y → ∀ a b : Ix n (nCam + 1) nPose,
      (∀ k, a ≠ .pos k ∧ a ≠ .att k) → y.P a b = x.P a b := by
    intro k L x y hw a b ha
    rw [hw.P, Matrix.add_apply, Matrix.mul_apply, Finset.sum_eq_zero, add_zero]
    intro j _
    have h0 : L a j = 0 := (hw.unseen j).2.2 a ha
    rw [h0, zero_mul]
  revert h1 h2
  generalize FSt.run cfg ⟨s, Matrix.diagonal (seenVar p), u⟩ es = o
  generalize FSt.run cfg ⟨s, Matrix.diagonal p, u⟩ es = o₁
  generalize FSt.run cfg ⟨s, Matrix.diagonal p', u⟩ es = o₂
  intro h1 h2
  cases h1 with
  | none => cases h2 with | none => exact .none
  | some h1 =>
    cases h2 with
    | some h2 =>
      obtain ⟨d, L, hw, -⟩ := h1
      obtain ⟨d', L', hw', -⟩ := h2
      refine .some ⟨by rw [hw'.s, hw.s], fun a b ha hb => ?_⟩
      rw [hz hw a b ha, hz hw' a b ha]

/-- **C97, variances.** Started with uncorrelated errors with variances `p`, the filter never reports a smaller variance of the position in any direction,
nor of the heading, than it was started with, whatever it measures. -/
theorem C97_never_better (cfg : FCfg n (nCam + 1) nPose) (hc : cfg.NoiseOk) (es : List (Step n (nCam + 1) nPose)) (he : ∀ e ∈ es, BlindStep e)
    (s : State n (nCam + 1) nPose) (u : PoseUpd nPose) (hn : ∀ e ∈ es, e.NoiseOk u) (p : Ix n (nCam + 1) nPose → ℝ) (hp : ∀ a, 0 ≤ p a)
    (x : FSt n (nCam + 1) nPose) (hx : FSt.run cfg ⟨s, Matrix.diagonal p, u⟩ es = some x) :
    (∀ v : Fin 3 → ℝ, ∑ l, p (.pos l) * v l ^ 2 ≤ ∑ l, ∑ l', v l * x.P (.pos l) (.pos l') * v l') ∧ p (.att 2) ≤ x.P (.att 2) (.att 2) := by
  classical
  have h1 := C97_run cfg es he (unseenErrors p) ⟨s, Matrix.diagonal (seenVar p), u⟩ ⟨s, Matrix.diagonal p, u⟩ ⟨rfl, diagonal_split hp, rfl, unseenErrors_unseen p⟩
  rw [hx] at h1
  generalize hq : FSt.run cfg ⟨s, Matrix.diagonal (seenVar p), u⟩ es = o at h1
  cases h1 with
  | some h1 =>
    obtain ⟨d, L, hw, h2, h3⟩ := h1
    rename_i q
    have hpos0 : ∀ a, 0 ≤ seenVar p a := fun a => by
      simp only [seenVar]
      split_ifs
      · exact le_rfl
      · exact hp a
    have hcov : IsCov q.P := by
      refine C77_valid cfg hc es _ q hn ?_ hq
      refine ⟨Matrix.diagonal_transpose _, fun v => ?_⟩
      simp only [dotProduct, Matrix.mulVec_diagonal]
      exact Finset.sum_nonneg fun a _ => by nlinarith [mul_nonneg (hpos0 a) (mul_self_nonneg (v a))]
    have key : ∀ w : Ix n (nCam + 1) nPose → ℝ, ∑ j, (∑ a, w a * L a j) ^ 2 ≤ w ⬝ᵥ x.P.mulVec w := by
      intro w
      have h4 := hcov.nonneg w
      have h5 : w ⬝ᵥ (L * Lᵀ).mulVec w = ∑ j, (∑ a, w a * L a j) ^ 2 := by
        rw [← Matrix.mulVec_mulVec, Matrix.dotProduct_mulVec]
        simp only [dotProduct, Matrix.vecMul, Matrix.mulVec, Matrix.transpose_apply, pow_two]
        exact Finset.sum_congr rfl fun j _ => by congr 1; exact Finset.sum_congr rfl fun a _ => mul_comm _ _
      rw [hw.P, Matrix.add_mulVec, dotProduct_add, h5]
      linarith
    constructor
    · intro v
      have h4 := key fun a => match a with | .pos l => v l | _ => 0
      have hs : ∀ g : Ix n (nCam + 1) nPose → ℝ, ∑ a, (match a with | .pos l => v l | _ => 0 : ℝ) * g a = ∑ l, v l * g (.pos l) := by
        intro g
        refine (Fintype.sum_of_injective (fun l : Fin 3 => (Ix.pos l : Ix n (nCam + 1) nPose)) (fun a b h => by simpa using h) _ _ (fun b hb => ?_) (fun l => rfl)).symm
        cases b with
        | pos l => exact absurd ⟨l, rfl⟩ hb
        | _ => simp
      have hs' : ∀ g : Ix n (nCam + 1) nPose → ℝ, ∑ a, g a * (match a with | .pos l => v l | _ => 0 : ℝ) = ∑ l, g (.pos l) * v l := by
        intro g
        simp only [mul_comm (g _)]
        exact hs g
      simp only [dotProduct, Matrix.mulVec, hs, hs'] at h4
      refine le_trans ?_ (h4.trans (le_of_eq ?_))
      · rw [Fin.sum_univ_four]
        have hj : ∀ l : Fin 3, ∀ j : Fin 4, (unseenRow j : Ix n (nCam + 1) nPose) = .pos l → (∑ l', v l' * L (.pos l') j) ^ 2 = p (.pos l) * v l ^ 2 := by
          intro l j hj
          have : ∀ l', L (.pos l') j = if l' = l then Real.sqrt (p (.pos l)) else 0 := by
            intro l'
            rw [h3]
            simp only [unseenErrors, Matrix.of_apply, hj]
            by_cases hl : l' = l
            · subst hl; simp
            · simp [hl]
          simp only [this, mul_ite, mul_zero, Finset.sum_ite_eq', Finset.mem_univ, if_true]
          rw [mul_pow, Real.sq_sqrt (hp _), mul_comm]
        rw [hj 0 0 rfl, hj 1 1 rfl, hj 2 2 rfl, Fin.sum_univ_three]
        exact le_add_of_nonneg_right (sq_nonneg _)
      · refine Finset.sum_congr rfl fun l _ => ?_
        rw [Finset.mul_sum]
        exact Finset.sum_congr rfl fun l' _ => by ring
    · have h4 := key (Pi.single (.att 2) 1)
      have hs : ∀ g : Ix n (nCam + 1) nPose → ℝ, ∑ a, (Pi.single (M := fun _ => ℝ) (Ix.att 2) 1 : Ix n (nCam + 1) nPose → ℝ) a * g a = g (.att 2) := by
        intro g
        rw [Finset.sum_eq_single (Ix.att 2 : Ix n (nCam + 1) nPose)]
        · simp
        · intro b _ hb; rw [Pi.single_eq_of_ne hb, zero_mul]
        · simp
      simp only [hs] at h4
      rw [Matrix.mulVec_single_one, single_one_dotProduct] at h4
      refine le_trans ?_ h4
      rw [Fin.sum_univ_four]
      have : L (.att 2) 3 ^ 2 = p (.att 2) := by
        rw [h2]
        simp only [unseenErrors, unseenRow, Matrix.of_apply]
        simp [Real.sq_sqrt (hp _)]
      rw [this]
      have := sq_nonneg (L (.att 2) 0)
      have := sq_nonneg (L (.att 2) 1)
      have := sq_nonneg (L (.att 2) 2)
      linarith

/-! ## Non-vacuity -/

lemma demo_blind : ∀ e ∈ demoSteps.filter fun e => !e.isPose, BlindStep e := by
  intro e he
  simp only [demoSteps, List.mem_filter, List.mem_cons, List.not_mem_nil, or_false] at he
  obtain ⟨he, hp⟩ := he
  rcases he with rfl | rfl | rfl | rfl | rfl | rfl | rfl
  · trivial
  · simp [Step.isPose] at hp
  · trivial
  · exact fun _ _ _ _ => rfl
  · exact fun _ _ _ _ => rfl
  · trivial
  · simp [Step.isPose] at hp

/-- A run with a prediction, a velocity, an image correction, feature management and a zero velocity update is defined; after it the variance of the heading
is at least that of the start (1), and with a hundred times the initial variance of the heading the estimate is the same. -/
example : ∃ x, demoFilter.run demoFCfg (demoSteps.filter fun e => !e.isPose) = some x ∧ 1 ≤ x.P (.att 2) (.att 2) ∧
    ∃ y, FSt.run demoFCfg ⟨demoFilter.s, Matrix.diagonal fun a => if a = .att 2 then 100 else 1, demoFilter.u⟩ (demoSteps.filter fun e => !e.isPose) = some y ∧ y.s = x.s := by
  obtain ⟨x, hx, -⟩ := C78_run_succeeds _ demoFCfg_ok strictPos_one strictPos_one (demoSteps.filter fun e => !e.isPose) demoFilter
    (fun e he => demoSteps_live e (List.mem_of_mem_filter he)) demoFilter_live
  have hd : demoFilter = ⟨demoFilter.s, Matrix.diagonal fun _ => 1, demoFilter.u⟩ := by rw [Matrix.diagonal_one]; rfl
  have hx' := hx
  rw [hd] at hx'
  have hn : ∀ e ∈ demoSteps.filter fun e => !e.isPose, e.NoiseOk demoFilter.u := by
    intro e he
    have h := demoSteps_live e (List.mem_of_mem_filter he)
    have he := List.mem_of_mem_filter he
    cases e with
    | image alg => exact fun o P c hc => (h o P c hc).1
    | manage alg =>
      simp only [demoSteps, List.mem_cons, List.not_mem_nil, or_false, reduceCtorEq, Step.manage.injEq, false_or] at he
      subst he
      intro o P r hr
      simp only [List.mem_singleton] at hr
      subst hr
      exact isCov_one
    | pose meas => exact h.2.1
    | _ => trivial
  refine ⟨x, hx, (C97_never_better demoFCfg demoFCfg_ok _ demo_blind _ _ hn (fun _ => 1) (fun _ => zero_le_one) x hx').2, ?_⟩
  have h := C97_estimates demoFCfg _ demo_blind demoFilter.s demoFilter.u (fun _ => 1) (fun a => if a = .att 2 then 100 else 1) (fun _ => zero_le_one)
    (fun a => by split_ifs <;> norm_num) (fun a _ h => (if_neg h).symm)
  rw [hx'] at h
  generalize FSt.run demoFCfg ⟨demoFilter.s, Matrix.diagonal fun a => if a = .att 2 then 100 else 1, demoFilter.u⟩ (demoSteps.filter fun e => !e.isPose) = o at h
  cases h with
  | some h => exact ⟨_, rfl, h.1⟩

end Rovio
