import Verif.Spec.Influence
import Verif.Props.FilterCov
import Verif.Props.ImgMoves

/-! # Lemmas: the size of a correction -/

namespace Rovio

open Matrix Spec State

variable {n nCam nPose : ℕ} {m : ℕ}

/-- The inequality of Cauchy and Schwarz for a covariance. -/
lemma Spec.IsCov.cauchy {ι : Type*} [Fintype ι] {S : Matrix ι ι ℝ} (h : IsCov S) (a b : ι → ℝ) :
    (a ⬝ᵥ S.mulVec b) ^ 2 ≤ (a ⬝ᵥ S.mulVec a) * (b ⬝ᵥ S.mulVec b) := by
  have hs : b ⬝ᵥ S.mulVec a = a ⬝ᵥ S.mulVec b := by
    rw [dotProduct_mulVec, ← mulVec_transpose, h.symm, dotProduct_comm]
  have key : ∀ t : ℝ, 0 ≤ (b ⬝ᵥ S.mulVec b) * (t * t) + (2 * (a ⬝ᵥ S.mulVec b)) * t + a ⬝ᵥ S.mulVec a := by
    intro t
    have := h.nonneg (a + t • b)
    rw [mulVec_add, mulVec_smul, add_dotProduct, dotProduct_add, dotProduct_add, smul_dotProduct, smul_dotProduct, dotProduct_smul, dotProduct_smul, hs] at this
    simp only [smul_eq_mul] at this
    linarith
  have := discrim_le_zero key
  unfold discrim at this
  nlinarith

section

variable {gate : Gate m} {y : Fin m → ℝ} {H : Matrix (Fin m) (Ix n nCam nPose) ℝ} {R : Matrix (Fin m) (Fin m) ℝ} {P : Cov n nCam nPose}

/-- The size of a correction: by the distance of the innovation and what is learned. -/
lemma correct_size (hP : IsCov P) (hR : IsCov R) {r : (Ix n nCam nPose → ℝ) × Cov n nCam nPose} (h : correct gate y H R P = some r) (v : Ix n nCam nPose → ℝ) :
    (v ⬝ᵥ r.1) ^ 2 ≤ (y ⬝ᵥ (innS gate y H R P)⁻¹.mulVec y) * (v ⬝ᵥ P.mulVec v - v ⬝ᵥ r.2.mulVec v) := by
  obtain ⟨hd, h1, h2⟩ := correct_some h
  have hS := innS_cov (gate := gate) (y := y) (H := H) hP hR
  rw [h1, h2]
  generalize gain gate y H R P = K at *
  generalize innS gate y H R P = S at *
  have hi : S * S⁻¹ = 1 := mul_nonsing_inv _ (Ne.isUnit hd)
  have c := hS.cauchy (Kᵀ.mulVec v) (S⁻¹.mulVec y)
  rw [mulVec_mulVec, hi, one_mulVec] at c
  have e1 : Kᵀ.mulVec v ⬝ᵥ y = v ⬝ᵥ K.mulVec y := by rw [mulVec_transpose, ← dotProduct_mulVec]
  have e2 : Kᵀ.mulVec v ⬝ᵥ S.mulVec (Kᵀ.mulVec v) = v ⬝ᵥ (K * S * Kᵀ).mulVec v := by
    rw [mulVec_transpose, ← dotProduct_mulVec, ← mulVec_transpose, mulVec_mulVec, mulVec_mulVec]
  rw [e1, e2, dotProduct_comm (S⁻¹.mulVec y) y] at c
  have e3 : v ⬝ᵥ P.mulVec v - v ⬝ᵥ (P - K * S * Kᵀ).mulVec v = v ⬝ᵥ (K * S * Kᵀ).mulVec v := by
    rw [sub_mulVec, dotProduct_sub]; ring
  rw [e3, dotProduct_neg, neg_sq]
  linarith [mul_comm (v ⬝ᵥ (K * S * Kᵀ).mulVec v) (y ⬝ᵥ S⁻¹.mulVec y)]

/-- With the test of the whole innovation. -/
lemma correct_bound {th : ℝ} (hth : 0 ≤ th) (hP : IsCov P) (hR : IsCov R) {r : (Ix n nCam nPose → ℝ) × Cov n nCam nPose} (h : correct (mahalanobis th) y H R P = some r)
    (v : Ix n nCam nPose → ℝ) : (v ⬝ᵥ r.1) ^ 2 ≤ th * (v ⬝ᵥ P.mulVec v - v ⬝ᵥ r.2.mulVec v) := by
  have hn : 0 ≤ v ⬝ᵥ P.mulVec v - v ⬝ᵥ r.2.mulVec v := by
    have := (correct_cov hP hR h).2.nonneg v
    rwa [sub_mulVec, dotProduct_sub] at this
  by_cases hy : th < y ⬝ᵥ (H * P * Hᵀ + R)⁻¹.mulVec y
  · obtain ⟨-, h1, -⟩ := correct_some h
    have hg : ∀ i, mahalanobis th y (H * P * Hᵀ + R) i = true := fun i => by unfold mahalanobis; exact decide_eq_true hy
    have hH : innH (mahalanobis th) y H R P = 0 := by
      ext i b
      simp only [innH, of_apply, hg, if_true, Matrix.zero_apply]
    have : r.1 = 0 := by
      rw [h1]; unfold gain; rw [hH, transpose_zero, Matrix.mul_zero, Matrix.zero_mul, zero_mulVec, neg_zero]
    rw [this, dotProduct_zero]
    nlinarith
  · have hg : ∀ i, mahalanobis th y (H * P * Hᵀ + R) i = false := fun i => by unfold mahalanobis; exact decide_eq_false hy
    have hS : innS (mahalanobis th) y H R P = H * P * Hᵀ + R := by
      ext i j
      simp [innS, hg]
    have := correct_size hP hR h v
    rw [hS] at this
    exact this.trans (mul_le_mul_of_nonneg_right (not_lt.mp hy) hn)

end

lemma Fea.fix_d {f g : Fea} (h : f.fix = some g) : g.d = f.d := by
  unfold Fea.fix at h
  simp only [Option.bind_eq_bind, Option.pure_def] at h
  obtain ⟨_, _, h⟩ := Option.bind_eq_some_iff.mp h
  cases h; rfl

/-- Normalisation leaves the numbers of the platform. -/
lemma fix_platform {s s' : State n nCam nPose} (h : s.fix = some s') :
    s'.pos = s.pos ∧ s'.vel = s.vel ∧ s'.acb = s.acb ∧ s'.gyb = s.gyb ∧ s'.vep = s.vep ∧ s'.pop = s.pop := by
  unfold State.fix at h
  simp only [Option.bind_eq_bind, Option.pure_def] at h
  obtain ⟨_, _, h⟩ := Option.bind_eq_some_iff.mp h
  cases h; exact ⟨rfl, rfl, rfl, rfl, rfl, rfl⟩

lemma value_fix {s s' : State n nCam nPose} (h : s.fix = some s') (a : Ix n nCam nPose) : value s' a = value s a := by
  obtain ⟨h1, h2, h3, h4, h5, h6⟩ := fix_platform h
  cases a <;> simp only [value, h1, h2, h3, h4, h5, h6]

lemma three_at (f : Fin 3 → ℝ) (k : Fin 3) : (three f).at k = f k := by fin_cases k <;> rfl

lemma V3.add_at (a b : V3) (k : Fin 3) : (a + b).at k = a.at k + b.at k := by fin_cases k <;> rfl

lemma value_boxPlus (s : State n nCam nPose) (δ : Ix n nCam nPose → ℝ) (a : Ix n nCam nPose) :
    value (s.boxPlus (DState.ofFn δ)) a = (value s a).map (· + δ a) := by
  cases a <;> simp only [value, Option.map_some, Option.map_none, Option.some.injEq]
  all_goals
    simp only [State.boxPlus, V3.add_at]
    rename_i k
    fin_cases k <;> rfl

/-- A correction, normalised: the change and its size. -/
lemma FSt.finish_size {x x' : FSt n nCam nPose} {gate : Gate m} {v : Fin m → ℝ} {H : Matrix (Fin m) (Ix n nCam nPose) ℝ} {R : Matrix (Fin m) (Fin m) ℝ}
    {post : State n nCam nPose → State n nCam nPose} (hpost : ∀ s a, value (post s) a = value s a) (hx : IsCov x.P) (hR : IsCov R)
    (hf : x.finish gate v H R post = some x') :
    ∃ (δ : Ix n nCam nPose → ℝ) (B : ℝ), (∀ a, value x'.s a = (value x.s a).map (· + δ a)) ∧ (post (x.s.boxPlus (DState.ofFn δ))).fix = some x'.s ∧
      (∀ th, 0 ≤ th → gate = mahalanobis th → ∀ w : Ix n nCam nPose → ℝ, (w ⬝ᵥ δ) ^ 2 ≤ th * (w ⬝ᵥ x.P.mulVec w - w ⬝ᵥ x'.P.mulVec w)) ∧
      ∀ w : Ix n nCam nPose → ℝ, (w ⬝ᵥ δ) ^ 2 ≤ B * (w ⬝ᵥ x.P.mulVec w - w ⬝ᵥ x'.P.mulVec w) := by
  unfold finish at hf
  cases hc : correct gate v H R x.P with
  | none => simp [hc] at hf
  | some r =>
    obtain ⟨h1, h2⟩ := correct_cov hx hR hc
    have hb := correct_size hx hR hc
    simp only [hc, Option.bind_eq_bind, Option.bind_some, Option.pure_def] at hf
    obtain ⟨s, hs, e⟩ := Option.bind_eq_some_iff.mp hf
    rw [Option.some.injEq] at e
    rw [← e]
    simp only [symm_cov h1]
    exact ⟨r.1, _, fun a => by rw [value_fix hs, hpost, value_boxPlus], hs, fun th hth hg => by subst hg; exact correct_bound hth hx hR hc, hb⟩

/-- The variance of a coordinate. -/
lemma single_quad {ι : Type*} [Fintype ι] [DecidableEq ι] (P : Matrix ι ι ℝ) (a : ι) : Pi.single a 1 ⬝ᵥ P.mulVec (Pi.single a 1) = P a a := by
  rw [single_one_dotProduct, mulVec_single_one]
  rfl

/-- Changes add up: their squares over the weights. -/
lemma add_sq_le {a b s t p q : ℝ} (hs : 0 ≤ s) (ht : 0 ≤ t) (hp : 0 ≤ p) (hq : 0 ≤ q) (h1 : a ^ 2 ≤ s * p) (h2 : b ^ 2 ≤ t * q) :
    (a + b) ^ 2 ≤ (s + t) * (p + q) := by
  have h3 : (2 * (a * b)) ^ 2 ≤ (s * q + t * p) ^ 2 := by
    have e1 : a ^ 2 * b ^ 2 ≤ (s * p) * (t * q) := mul_le_mul h1 h2 (sq_nonneg _) (mul_nonneg hs hp)
    nlinarith [sq_nonneg (s * q - t * p)]
  have h4 : 2 * (a * b) ≤ s * q + t * p := le_of_sq_le_sq h3 (by positivity)
  nlinarith
where
  le_of_sq_le_sq {a b : ℝ} (h : a ^ 2 ≤ b ^ 2) (hb : 0 ≤ b) : a ≤ b := (abs_le_of_sq_le_sq' h hb).2

/-- Between two estimates: every coordinate moved by no more than the weight times what was learned. -/
def Within (w : ℝ) (x : State n nCam nPose) (P : Cov n nCam nPose) (x' : State n nCam nPose) (P' : Cov n nCam nPose) : Prop :=
  ∀ a v, value x a = some v → ∃ v', value x' a = some v' ∧ P' a a ≤ P a a ∧ (v' - v) ^ 2 ≤ w * (P a a - P' a a)

lemma Within.refl {w : ℝ} {x : State n nCam nPose} {P : Cov n nCam nPose} : Within w x P x P := fun a v h => ⟨v, h, le_rfl, by simp⟩

lemma Within.trans {s t : ℝ} (hs : 0 ≤ s) (ht : 0 ≤ t) {x y z : State n nCam nPose} {P Q T : Cov n nCam nPose} (h : Within s x P y Q) (h' : Within t y Q z T) :
    Within (s + t) x P z T := by
  intro a v hv
  obtain ⟨v1, h1, h2, h3⟩ := h a v hv
  obtain ⟨v2, g1, g2, g3⟩ := h' a v1 h1
  refine ⟨v2, g1, g2.trans h2, ?_⟩
  have := add_sq_le hs ht (sub_nonneg.mpr h2) (sub_nonneg.mpr g2) h3 g3
  rw [show v2 - v = (v1 - v) + (v2 - v1) by ring, show P a a - T a a = (P a a - Q a a) + (Q a a - T a a) by ring]
  exact this

/-- A change whose size is bounded in every direction, coordinate by coordinate. -/
lemma Within.of_size {w : ℝ} {x x' : State n nCam nPose} {P P' : Cov n nCam nPose} {δ : Ix n nCam nPose → ℝ} (hr : IsCov (P - P'))
    (hv : ∀ a, value x' a = (value x a).map (· + δ a)) (h : ∀ v : Ix n nCam nPose → ℝ, (v ⬝ᵥ δ) ^ 2 ≤ w * (v ⬝ᵥ P.mulVec v - v ⬝ᵥ P'.mulVec v)) : Within w x P x' P' := by
  intro a v ha
  have h1 := h (Pi.single a 1)
  have h2 := hr.nonneg (Pi.single a 1)
  rw [single_one_dotProduct, single_quad, single_quad] at h1
  rw [single_quad, Matrix.sub_apply, sub_nonneg] at h2
  refine ⟨v + δ a, by rw [hv, ha]; rfl, h2, ?_⟩
  rw [add_sub_cancel_left]
  exact h1

lemma scaleDepth_cov {C : Matrix (Fin 3) (Fin 3) ℝ} (hC : IsCov C) (h01 : C 0 1 = 0) (h02 : C 0 2 = 0) (d : Distance.FeatureDistance) : IsCov (scaleDepth C d) := by
  have h10 : C 1 0 = 0 := by have := congrFun (congrFun hC.symm 1) 0; rw [Matrix.transpose_apply] at this; rw [← this]; exact h01
  have h20 : C 2 0 = 0 := by have := congrFun (congrFun hC.symm 2) 0; rw [Matrix.transpose_apply] at this; rw [← this]; exact h02
  have e : scaleDepth C d = Matrix.diagonal ![Distance.getParameterDerivative d * Distance.getDistance d, 1, 1] * C * (Matrix.diagonal ![Distance.getParameterDerivative d * Distance.getDistance d, 1, 1])ᵀ := by
    rw [Matrix.diagonal_transpose]
    ext k l
    rw [Matrix.mul_diagonal, Matrix.diagonal_mul]
    fin_cases k <;> fin_cases l <;> simp [scaleDepth, h01, h02, h10, h20]
    ring
  rw [e]
  exact hC.conj _

lemma one_cov {ι : Type*} [Fintype ι] [DecidableEq ι] : IsCov (1 : Matrix ι ι ℝ) := by
  have := Spec.IsCov.diagonal (ι := ι) (d := fun _ => 1) fun _ => zero_le_one
  rwa [diagonal_one] at this

lemma ResetBlock.cov {C₀ C : Matrix (Fin 3) (Fin 3) ℝ} (hC : IsCov C₀) (h01 : C₀ 0 1 = 0) (h02 : C₀ 0 2 = 0) (h : ResetBlock C₀ C) : IsCov C := by
  rcases h with rfl | rfl | ⟨d, rfl⟩
  · exact one_cov
  · exact hC
  · exact scaleDepth_cov hC h01 h02 d

lemma value_kept {s : State n nCam nPose} {a : Ix n nCam nPose} {v : ℝ} (h : value s a = some v) : keptRow (fun _ => False) a := by
  cases a <;> trivial

/-- Corrections with matched features keep a covariance, and each moves the platform by no more than what is learned. -/
lemma ByMatches.within {sfv : V3 → Nor} {C₀ : Matrix (Fin 3) (Fin 3) ℝ} {gate : Gate 2} {R : Matrix (Fin 2) (Fin 2) ℝ} {u : PoseUpd nPose} {x₀ x : State n nCam nPose}
    {P₀ P : Cov n nCam nPose} {l : List (Fin n × Fin nCam)} (h : ByMatches sfv C₀ gate R u x₀ P₀ l x P) (hC : IsCov C₀) (h01 : C₀ 0 1 = 0) (h02 : C₀ 0 2 = 0) (hR : IsCov R)
    (hP : IsCov P₀) : IsCov P ∧ ∀ th, 0 ≤ th → gate = mahalanobis th → Within (l.length * th) x₀ P₀ x P := by
  induction h with
  | start => exact ⟨hP, fun _ _ _ => .refl⟩
  | features f _ ih => exact ⟨ih.1, fun th h0 hg a v hv => by obtain ⟨v', h1, h2⟩ := ih.2 th h0 hg a v hv; exact ⟨v', by cases a <;> exact h1, h2⟩⟩
  | @reset l x P i C hC' _ ih =>
    refine ⟨C52_cov ih.1 i (ResetBlock.cov hC h01 h02 hC'), fun th h0 hg a v hv => ?_⟩
    have hk := value_kept hv
    rw [ImgFull.reset_kept (p := fun _ => False) (fun h => h) P C hk hk]
    exact ih.2 th h0 hg a v hv
  | @correct l x P i b A y J z _ _ hf ih =>
    obtain ⟨c1, c2, -⟩ := FSt.finish_cov ih.1 hR hf
    refine ⟨c1, fun th h0 hg => ?_⟩
    obtain ⟨δ, B, h1, -, h3, -⟩ := FSt.finish_size (fun _ _ => rfl) ih.1 hR hf
    have := (ih.2 th h0 hg).trans (by positivity) h0 (.of_size c2 h1 (h3 th h0 hg))
    rw [List.length_append, List.length_singleton]
    push_cast
    rw [add_mul, one_mul]
    exact this

end Rovio
