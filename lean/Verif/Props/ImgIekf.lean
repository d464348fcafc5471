import Verif.Spec.ImgIekf
import Verif.Lemmas.ImgIekf
import Verif.Lemmas.Ekf
import Verif.Props.ImgSees
import Verif.Props.PixelCov
import Verif.Props.ImgPost
import Verif.Props.Assembled

/-!
# C107: the iterated image update, and C77, C95 and C97 with it
-/

namespace Rovio.ImgFull

open Rovio.Img Rovio.Spec Matrix

variable {n nCam nPose : ℕ} {c : IterCfg} {gate : Gate 2} {R : Matrix (Fin 2) (Fin 2) ℝ} {K : Callbacks n nCam nPose} {x : State n nCam nPose} {P : Cov n nCam nPose}

/-! ### One correction -/

lemma correctIter_corrects (hP : IsCov P) (hR : IsCov R) {y : Fin 2 → ℝ} {H : Matrix (Fin 2) (Ix n nCam nPose) ℝ} {d : Ix n nCam nPose → ℝ}
    {a : (Ix n nCam nPose → ℝ) × Cov n nCam nPose × ℝ} (h : correctIter gate R y H P d = some a) :
    Corrects (gate y (H * P * Hᵀ + R)) y H R P d a.1 a.2.1 := by
  classical
  rw [correctIter_eq] at h
  by_cases hd : (innS gate y H R P).det = 0
  · rw [if_pos hd] at h; cases h
  rw [if_neg hd, Option.some.injEq] at h
  subst h
  dsimp only
  have hsym : (innS gate y H R P)ᵀ = innS gate y H R P := (innS_cov hP hR).symm
  have hPs : Pᵀ = P := hP.symm
  have hinv : innS gate y H R P * (innS gate y H R P)⁻¹ = 1 := Matrix.mul_nonsing_inv _ (Ne.isUnit hd)
  have hinv' : (innS gate y H R P)⁻¹ * innS gate y H R P = 1 := Matrix.nonsing_inv_mul _ (Ne.isUnit hd)
  set rej := gate y (H * P * Hᵀ + R) with hrej
  set w' : Fin 2 → ℝ := (innS gate y H R P)⁻¹.mulVec (y + (innH gate y H R P).mulVec d) with hw'
  set W' : Matrix (Fin 2) (Ix n nCam nPose) ℝ := (innS gate y H R P)⁻¹ * (innH gate y H R P * P) with hW'
  have hHrow : ∀ i b, rej i = false → innH gate y H R P i b = H i b := fun i b hi => by
    simp only [innH, Matrix.of_apply, ← hrej, hi]
    rfl
  have hHrow' : ∀ i b, rej i = true → innH gate y H R P i b = 0 := fun i b hi => by
    simp only [innH, Matrix.of_apply, ← hrej, hi]
    rfl
  have hSrow : ∀ i j, rej i = false → rej j = false → innS gate y H R P i j = (H * P * Hᵀ + R) i j := fun i j hi hj => by
    simp only [innS, Matrix.of_apply, ← hrej, hi, hj]
    rfl
  have hSrow' : ∀ i j, rej i = false → rej j = true → innS gate y H R P i j = 0 := fun i j hi hj => by
    have : i ≠ j := fun e => by rw [e, hj] at hi; cases hi
    simp only [innS, Matrix.of_apply, ← hrej, hi, hj, if_neg this]
    rfl
  have h1 : (innS gate y H R P).mulVec w' = y + (innH gate y H R P).mulVec d := by rw [hw', Matrix.mulVec_mulVec, hinv, Matrix.one_mulVec]
  have h2 : innS gate y H R P * W' = innH gate y H R P * P := by rw [hW', ← Matrix.mul_assoc, hinv, Matrix.one_mul]
  refine ⟨fun i => if rej i then 0 else w' i, Matrix.of fun i b => if rej i then 0 else W' i b, fun i hi => ?_, fun i hi => ⟨?_, fun b => ?_⟩, ?_, ?_⟩
  · simp [hi]
  · have e := congrFun h1 i
    simp only [Matrix.mulVec, dotProduct, Pi.add_apply] at e ⊢
    have hr : ∑ b, innH gate y H R P i b * d b = ∑ b, H i b * d b := Finset.sum_congr rfl fun b _ => by rw [hHrow i b hi]
    rw [← hr, ← e]
    refine Finset.sum_congr rfl fun j _ => ?_
    cases hj : rej j with
    | true => simp [hSrow' i j hi hj]
    | false => simp [hSrow i j hi hj]
  · have e := congrFun (congrFun h2 i) b
    rw [Matrix.mul_apply, Matrix.mul_apply] at e
    have hr : ∑ k, innH gate y H R P i k * P k b = ∑ k, H i k * P k b := Finset.sum_congr rfl fun k _ => by rw [hHrow i k hi]
    rw [Matrix.mul_apply, Matrix.mul_apply, ← hr, ← e]
    refine Finset.sum_congr rfl fun j _ => ?_
    rw [Matrix.of_apply]
    cases hj : rej j with
    | true => rw [hSrow' i j hi hj, if_pos rfl, mul_zero, zero_mul]
    | false => rw [hSrow i j hi hj, if_neg Bool.false_ne_true]
  · have e : (P * Hᵀ).mulVec (fun i => if rej i then 0 else w' i) = (gain gate y H R P).mulVec (y + (innH gate y H R P).mulVec d) := by
      unfold gain
      rw [← Matrix.mulVec_mulVec _ (P * (innH gate y H R P)ᵀ), ← hw']
      rw [← Matrix.mulVec_mulVec, ← Matrix.mulVec_mulVec]
      congr 1
      funext b
      simp only [Matrix.mulVec, dotProduct, Matrix.transpose_apply]
      refine Finset.sum_congr rfl fun j _ => ?_
      cases hj : rej j with
      | true => simp [hHrow' j b hj]
      | false => simp [hHrow j b hj]
    rw [e]
    abel
  · have e : P * Hᵀ * (Matrix.of fun i b => if rej i then 0 else W' i b) = P * (innH gate y H R P)ᵀ * W' := by
      rw [Matrix.mul_assoc, Matrix.mul_assoc]
      congr 1
      ext b b'
      rw [Matrix.mul_apply, Matrix.mul_apply]
      refine Finset.sum_congr rfl fun j _ => ?_
      rw [Matrix.transpose_apply, Matrix.transpose_apply, Matrix.of_apply]
      cases hj : rej j with
      | true => rw [hHrow' j b hj, if_pos rfl, mul_zero, zero_mul]
      | false => rw [hHrow j b hj, if_neg Bool.false_ne_true]
    rw [e]
    congr 1
    unfold gain
    rw [hW', Matrix.transpose_mul, Matrix.transpose_mul, Matrix.transpose_transpose, Matrix.transpose_nonsing_inv, hsym, hPs]
    rw [Matrix.mul_assoc (P * (innH gate y H R P)ᵀ) _ (innS gate y H R P), hinv', Matrix.mul_one]

/-! ### Iterations -/

lemma iterStep_some (hP : IsCov P) (hR : IsCov R) {a b : Iter n nCam nPose} (h : iterStep c gate R K x P a = some b) :
    ∃ δ, Iteration c R K x P a.lin δ b.cov ∧ b.lin = a.lin.boxPlus (DState.ofFn δ) ∧ b.conv = decide (vecNorm δ ≤ c.thr) ∧ IsCov b.cov ∧ IsCov (P - b.cov) := by
  unfold iterStep at h
  simp only [Option.bind_eq_bind, Option.pure_def] at h
  obtain ⟨⟨J, stop, r⟩, hJ, h⟩ := Option.bind_eq_some_iff.mp h
  obtain ⟨H, hH, h⟩ := Option.bind_eq_some_iff.mp h
  obtain ⟨⟨y, stop', r'⟩, hy, h⟩ := Option.bind_eq_some_iff.mp h
  obtain ⟨⟨δ, Q, sc⟩, hδ, h⟩ := Option.bind_eq_some_iff.mp h
  rw [Option.some.injEq] at h
  subst h
  obtain ⟨δ', hc⟩ := correctIter_correct hδ
  have hcov := correct_cov hP hR hc
  refine ⟨δ, ⟨_, _, _, J, stop, stop', y, H, _, hJ, hy, fun b => ?_, correctIter_corrects hP hR hδ⟩, rfl, rfl, hcov⟩
  have h' := colMat_some hH b
  dsimp only at h'
  cases hv : J (DState.unit b) with
  | none => rw [hv] at h'; cases h'
  | some v =>
    rw [hv, Option.map_some, Option.some.injEq] at h'
    exact ⟨v, rfl, fun k => (congrFun h' k).symm⟩

/-- Where iterations end: nothing happened, or an iteration at a point reached from the starting point. -/
lemma iterate_some (hP : IsCov P) (hR : IsCov R) {s : State n nCam nPose} : ∀ (k j : ℕ) {a b : Iter n nCam nPose}, Visited c R K x P s j a.lin →
    iterate c gate R K x P k a = some b →
    b = a ∨ ∃ l δ i, Visited c R K x P s i l ∧ i < j + k ∧ Iteration c R K x P l δ b.cov ∧ b.lin = l.boxPlus (DState.ofFn δ) ∧ b.conv = decide (vecNorm δ ≤ c.thr) ∧
      IsCov b.cov ∧ IsCov (P - b.cov)
  | 0, _, _, _, _, h => by
    unfold iterate at h
    exact .inl (Option.some.inj h).symm
  | k + 1, j, a, b, hv, h => by
    unfold iterate at h
    by_cases hc : (a.conv || a.stop) = true
    · rw [if_pos hc] at h
      exact .inl (Option.some.inj h).symm
    rw [if_neg hc] at h
    obtain ⟨a', ha, h⟩ := Option.bind_eq_some_iff.mp h
    obtain ⟨δ, h1, h2, h3, h4, h5⟩ := iterStep_some hP hR ha
    have hv' : Visited c R K x P s (j + 1) a'.lin := by rw [h2]; exact .next hv h1
    rcases iterate_some hP hR k (j + 1) hv' h with rfl | ⟨l, δ', i, hl, hi, hr⟩
    · exact .inr ⟨a.lin, δ, j, hv, by omega, h1, h2, h3, h4, h5⟩
    · exact .inr ⟨l, δ', i, hl, by omega, hr⟩

/-- What a result that passed is. -/
def Passed (c : IterCfg) (R : Matrix (Fin 2) (Fin 2) ℝ) (K : Callbacks n nCam nPose) (x : State n nCam nPose) (P : Cov n nCam nPose) (zs : List (State n nCam nPose))
    (p : Pass n nCam nPose) : Prop :=
  (IsCov p.cov ∧ IsCov (P - p.cov)) ∧ ((∃ z r r', K.check z false r = some (true, r')) ∨
    ∃ s ∈ zs, ∃ l δ i r r', Visited c R K x P s i l ∧ i < c.maxIter ∧ Iteration c R K x P l δ p.cov ∧ p.z = l.boxPlus (DState.ofFn δ) ∧ vecNorm δ ≤ c.thr ∧
      K.check p.z true r = some (true, r'))

lemma tryStart_some (hP : IsCov P) (hR : IsCov R) {zs : List (State n nCam nPose)} {s : State n nCam nPose} (hs : s ∈ zs) {acc acc' : List (Pass n nCam nPose) × Scr}
    (ha : ∀ p ∈ acc.1, Passed c R K x P zs p) (h : tryStart c gate R K x P acc s = some acc') : ∀ p ∈ acc'.1, Passed c R K x P zs p := by
  unfold tryStart at h
  simp only [Option.bind_eq_bind, Option.pure_def] at h
  obtain ⟨b, hb, h⟩ := Option.bind_eq_some_iff.mp h
  obtain ⟨⟨ok, r⟩, hk, h⟩ := Option.bind_eq_some_iff.mp h
  rw [Option.some.injEq] at h
  subst h
  intro p hp
  cases ok with
  | false => exact ha p hp
  | true =>
    simp only [if_true, List.mem_append, List.mem_singleton] at hp
    rcases hp with hp | rfl
    · exact ha p hp
    have hz : IsCov (P - P) := by rw [sub_self]; exact ⟨rfl, fun v => by simp⟩
    rcases iterate_some hP hR c.maxIter 0 (a := ⟨s, false, false, P, 0, acc.2⟩) .start hb with rfl | ⟨l, δ, i, hl, hi, hit, h1, h2, h3, h4⟩
    · exact ⟨⟨hP, hz⟩, .inl ⟨_, _, _, hk⟩⟩
    · refine ⟨⟨h3, h4⟩, ?_⟩
      dsimp only at hk ⊢
      by_cases hn : vecNorm δ ≤ c.thr
      · rw [decide_eq_true hn] at h2
        rw [h2] at hk
        exact .inr ⟨s, hs, l, δ, i, _, _, hl, by omega, hit, h1, hn, hk⟩
      · rw [decide_eq_false hn] at h2
        rw [h2] at hk
        exact .inl ⟨_, _, _, hk⟩

lemma foldStarts_some (hP : IsCov P) (hR : IsCov R) {zs : List (State n nCam nPose)} : ∀ (l : List (State n nCam nPose)), (∀ s ∈ l, s ∈ zs) →
    ∀ {acc acc' : List (Pass n nCam nPose) × Scr}, (∀ p ∈ acc.1, Passed c R K x P zs p) → l.foldlM (tryStart c gate R K x P) acc = some acc' →
    ∀ p ∈ acc'.1, Passed c R K x P zs p
  | [], _, acc, acc', ha, h => by
    simp only [List.foldlM_nil, Option.pure_def, Option.some.injEq] at h
    exact h ▸ ha
  | s :: l, hl, acc, acc', ha, h => by
    simp only [List.foldlM_cons, Option.bind_eq_bind] at h
    obtain ⟨b, hb, h⟩ := Option.bind_eq_some_iff.mp h
    exact foldStarts_some hP hR l (fun s hs => hl s (List.mem_cons_of_mem _ hs)) (tryStart_some hP hR (hl s List.mem_cons_self) ha hb) h

lemma bestOf_some : ∀ {ps : List (Pass n nCam nPose)} {b : Pass n nCam nPose}, bestOf ps = some b → b ∈ ps ∧ ∀ p ∈ ps, b.score ≤ p.score := by
  intro ps b h
  cases ps with
  | nil => cases h
  | cons p ps =>
    unfold bestOf at h
    rw [Option.some.injEq] at h
    subst h
    have key : ∀ (ps : List (Pass n nCam nPose)) (p : Pass n nCam nPose), (ps.foldl (fun b q => if q.score < b.score then q else b) p ∈ p :: ps) ∧
        ∀ q ∈ p :: ps, (ps.foldl (fun b q => if q.score < b.score then q else b) p).score ≤ q.score := by
      intro ps
      induction ps with
      | nil => intro p; simp
      | cons q ps ih =>
        intro p
        simp only [List.foldl_cons]
        by_cases hq : q.score < p.score
        · rw [if_pos hq]
          obtain ⟨h1, h2⟩ := ih q
          refine ⟨List.mem_cons_of_mem _ h1, fun t ht => ?_⟩
          rcases List.mem_cons.1 ht with rfl | ht
          · exact (h2 q List.mem_cons_self).trans hq.le
          · exact h2 t ht
        · rw [if_neg hq]
          obtain ⟨h1, h2⟩ := ih p
          refine ⟨?_, fun t ht => ?_⟩
          · rcases List.mem_cons.1 h1 with h1 | h1
            · rw [h1]; exact List.mem_cons_self
            · exact List.mem_cons_of_mem _ (List.mem_cons_of_mem _ h1)
          · rcases List.mem_cons.1 ht with rfl | ht
            · exact h2 t List.mem_cons_self
            · rcases List.mem_cons.1 ht with rfl | ht
              · exact (h2 p List.mem_cons_self).trans (not_lt.1 hq)
              · exact h2 t (List.mem_cons_of_mem _ ht)
    exact key ps p

lemma starts_some {eigen : M2 → (ℝ × ℝ) × V2 × V2} {H : Matrix (Fin 2) (Ix n nCam nPose) ℝ} {zs : List (State n nCam nPose)} (h : starts c eigen x P H = some zs) :
    ∀ z ∈ zs, StartingPoint c eigen x P H z := by
  classical
  unfold starts at h
  dsimp only at h
  by_cases hd : (H * P * Hᵀ).det = 0
  · rw [if_pos hd] at h; cases h
  rw [if_neg hd, C39_enumeration, Option.map_some, Option.some.injEq] at h
  subst h
  intro z hz
  obtain ⟨⟨u, v⟩, huv, rfl⟩ := List.mem_map.1 hz
  rw [List.mem_filter] at huv
  obtain ⟨hg, he⟩ := huv
  obtain ⟨hu, hv⟩ := ((C39_grid c.uni).2.2 u v).1 hg
  refine ⟨u, v, (H * P * Hᵀ)⁻¹.mulVec
    (((u : ℝ) * c.range) • (eigen (toM2 (H * P * Hᵀ))).2.1 + ((v : ℝ) * c.range) • (eigen (toM2 (H * P * Hᵀ))).2.2 : V2).at, hu, hv, ?_, ?_, ?_⟩
  · exact of_decide_eq_true he
  · rw [Matrix.mulVec_mulVec, Matrix.mul_nonsing_inv _ (Ne.isUnit hd), Matrix.one_mulVec]
  · unfold candidate
    rw [Matrix.mulVec_mulVec]

/-! ### The update -/

/-- The cases of an update. -/
lemma iekf_cases (eigen : M2 → (ℝ × ℝ) × V2 × V2) (r : Scr) :
    (∃ m, iekf c eigen gate R K x P r = (x, P, m, false)) ∨
    ∃ J r1 H zs ps r2 b z, K.cand x r = some (J, r1) ∧ (∀ e, ∃ v, J (DState.unit e) = some v ∧ ∀ k, H k e = v.at k) ∧ starts c eigen x P H = some zs ∧
      zs.foldlM (tryStart c gate R K x P) ([], r1) = some (ps, r2) ∧ bestOf ps = some b ∧ (∀ p ∈ ps, vecNorm (c.diff b.z p.z) ≤ 2 * c.thr) ∧ b.z.fix = some z ∧
      iekf c eigen gate R K x P r = (z, symm b.cov, r2.2, true) := by
  unfold iekf
  dsimp only
  simp only [Option.bind_eq_bind, Option.pure_def]
  cases hJ : K.cand x r with
  | none => exact .inl ⟨_, rfl⟩
  | some w =>
    obtain ⟨J, r1⟩ := w
    simp only [Option.bind_some]
    cases hH : colMat fun b => (J (DState.unit b)).map V2.at with
    | none => exact .inl ⟨_, rfl⟩
    | some H =>
      simp only [Option.bind_some]
      cases hz : starts c eigen x P H with
      | none => exact .inl ⟨_, rfl⟩
      | some zs =>
        simp only [Option.bind_some]
        cases hp : zs.foldlM (tryStart c gate R K x P) ([], r1) with
        | none => exact .inl ⟨_, rfl⟩
        | some w =>
          obtain ⟨ps, r2⟩ := w
          simp only [Option.bind_some]
          cases hb : bestOf ps with
          | none => exact .inl ⟨_, rfl⟩
          | some b =>
            dsimp only
            by_cases ha : (ps.any fun p => decide (2 * c.thr < vecNorm (c.diff b.z p.z))) = true
            · rw [if_pos ha]; exact .inl ⟨_, rfl⟩
            · rw [if_neg ha]
              cases hf : b.z.fix with
              | none => exact .inl ⟨_, rfl⟩
              | some z =>
                refine .inr ⟨J, r1, H, zs, ps, r2, b, z, rfl, fun e => ?_, hz, hp, hb, fun p hp => ?_, hf, rfl⟩
                · have h' := colMat_some hH e
                  cases hv : J (DState.unit e) with
                  | none => rw [hv] at h'; cases h'
                  | some v =>
                    rw [hv, Option.map_some, Option.some.injEq] at h'
                    exact ⟨v, rfl, fun k => (congrFun h' k).symm⟩
                · by_contra hn
                  exact ha (List.any_eq_true.2 ⟨p, hp, decide_eq_true (not_le.1 hn)⟩)

/-- **C107.** An image update that does not succeed leaves estimate and covariance as they were. -/
theorem C107_failure (eigen : M2 → (ℝ × ℝ) × V2 × V2) (r : Scr) (h : (iekf c eigen gate R K x P r).2.2.2 = false) :
    (iekf c eigen gate R K x P r).1 = x ∧ (iekf c eigen gate R K x P r).2.1 = P := by
  rcases iekf_cases (c := c) (gate := gate) (R := R) (K := K) (x := x) (P := P) eigen r with ⟨m, e⟩ | ⟨_, _, _, _, _, _, _, _, _, _, _, _, _, _, _, e⟩
  · rw [e]; exact ⟨rfl, rfl⟩
  · rw [e] at h; cases h

/-- **C107.** The estimate of a successful image update: from one of the starting points, after fewer than the maximal number of iterations, an iteration whose increment was
at most the threshold led to it, the outlier check accepted it, and it was normalised; the covariance is that of this iteration, symmetrised. -/
theorem C107_success (hP : IsCov P) (hR : IsCov R) (hK : AsksConvergence K) (eigen : M2 → (ℝ × ℝ) × V2 × V2) (r : Scr)
    (h : (iekf c eigen gate R K x P r).2.2.2 = true) :
    ∃ J r1 H, K.cand x r = some (J, r1) ∧ (∀ e, ∃ v, J (DState.unit e) = some v ∧ ∀ k, H k e = v.at k) ∧
      ∃ s l δ i Q r2 r3, StartingPoint c eigen x P H s ∧ Visited c R K x P s i l ∧ i < c.maxIter ∧ Iteration c R K x P l δ Q ∧ vecNorm δ ≤ c.thr ∧
        K.check (l.boxPlus (DState.ofFn δ)) true r2 = some (true, r3) ∧ (l.boxPlus (DState.ofFn δ)).fix = some (iekf c eigen gate R K x P r).1 ∧
        (iekf c eigen gate R K x P r).2.1 = symm Q := by
  rcases iekf_cases (c := c) (gate := gate) (R := R) (K := K) (x := x) (P := P) eigen r with ⟨m, e⟩ | ⟨J, r1, H, zs, ps, r2, b, z, hJ, hH, hz, hps, hb, ha, hf, e⟩
  · rw [e] at h; cases h
  · obtain ⟨hbm, -⟩ := bestOf_some hb
    obtain ⟨-, h | ⟨s, hs, l, δ, i, r3, r4, h1, h2, h3, h4, h5, h6⟩⟩ := foldStarts_some hP hR zs (fun _ h => h) (by simp) hps b hbm
    · obtain ⟨z, r, r', h⟩ := h
      exact absurd h (hK z r r')
    · refine ⟨J, r1, H, hJ, hH, s, l, δ, i, b.cov, r3, r4, starts_some hz s hs, h1, h2, h3, h5, h4 ▸ h6, ?_, ?_⟩
      · rw [← h4, hf, e]
      · rw [e]

/-- **C107.** With noise that is a covariance the covariance after an image update is one, and no error of the estimate has become larger. -/
theorem C107_covariance (hP : IsCov P) (hR : IsCov R) (eigen : M2 → (ℝ × ℝ) × V2 × V2) (r : Scr) :
    IsCov (iekf c eigen gate R K x P r).2.1 ∧ ∀ v, v ⬝ᵥ (iekf c eigen gate R K x P r).2.1.mulVec v ≤ v ⬝ᵥ P.mulVec v := by
  rcases iekf_cases (c := c) (gate := gate) (R := R) (K := K) (x := x) (P := P) eigen r with ⟨m, e⟩ | ⟨J, r1, H, zs, ps, r2, b, z, hJ, hH, hz, hps, hb, ha, hf, e⟩
  · rw [e]; exact ⟨hP, fun v => le_rfl⟩
  · obtain ⟨⟨h1, h2⟩, -⟩ := foldStarts_some hP hR zs (fun _ h => h) (by simp) hps b (bestOf_some hb).1
    rw [e]
    dsimp only
    rw [Rovio.FSt.symm_cov h1]
    refine ⟨h1, fun v => ?_⟩
    have h := h2.nonneg v
    rw [sub_mulVec, dotProduct_sub] at h
    linarith

/-- **C107.** If several starting points lead to results that the outlier check accepts, the update succeeds only if all of them are within twice the threshold of the one
that is taken, and that one has the lowest score. -/
theorem C107_agreement (eigen : M2 → (ℝ × ℝ) × V2 × V2) (r : Scr) (h : (iekf c eigen gate R K x P r).2.2.2 = true) {J : DState n nCam nPose → Option V2} {r1 r2 : Scr}
    {H : Matrix (Fin 2) (Ix n nCam nPose) ℝ} {zs : List (State n nCam nPose)} {ps : List (Pass n nCam nPose)} (hJ : K.cand x r = some (J, r1))
    (hH : ∀ e, ∃ v, J (DState.unit e) = some v ∧ ∀ k, H k e = v.at k) (hz : starts c eigen x P H = some zs)
    (hps : zs.foldlM (tryStart c gate R K x P) ([], r1) = some (ps, r2)) :
    ∃ b ∈ ps, b.z.fix = some (iekf c eigen gate R K x P r).1 ∧ (iekf c eigen gate R K x P r).2.1 = symm b.cov ∧
      ∀ p ∈ ps, b.score ≤ p.score ∧ vecNorm (c.diff b.z p.z) ≤ 2 * c.thr := by
  rcases iekf_cases (c := c) (gate := gate) (R := R) (K := K) (x := x) (P := P) eigen r with ⟨m, e⟩ | ⟨J', r1', H', zs', ps', r2', b, z, hJ', hH', hz', hps', hb, ha, hf, e⟩
  · rw [e] at h; cases h
  · rw [hJ, Option.some.injEq, Prod.mk.injEq] at hJ'
    obtain ⟨rfl, rfl⟩ := hJ'
    have eH : H = H' := by
      ext k e
      obtain ⟨v, h1, h2⟩ := hH e
      obtain ⟨v', h1', h2'⟩ := hH' e
      rw [h1, Option.some.injEq] at h1'
      rw [h2, h2', h1']
    subst eH
    rw [hz, Option.some.injEq] at hz'
    subst hz'
    rw [hps, Option.some.injEq, Prod.mk.injEq] at hps'
    obtain ⟨rfl, rfl⟩ := hps'
    obtain ⟨h1, h2⟩ := bestOf_some hb
    exact ⟨b, h1, by rw [hf, e], by rw [e], fun p hp => ⟨h2 p hp, ha p hp⟩⟩

/-! ### With images -/

lemma callbacks_ask (F : Full n nCam nPose) (m : Mem) (cur : Fin nCam → List Level) (mp : MLP) (meas : Option FC) (i : Fin n) (counter : ℕ) :
    AsksConvergence (F.callbacks m cur mp meas i counter) := by
  intro z r r' h
  have h : F.check m cur mp i counter z false r = some (true, r') := h
  unfold Full.check ImgPixel.outlierCheck at h
  simp only [Option.bind_eq_bind, Option.pure_def, Bool.not_false, if_true] at h
  obtain ⟨⟨b, f⟩, -, h⟩ := Option.bind_eq_some_iff.mp h
  obtain ⟨ok, hok, h⟩ := Option.bind_eq_some_iff.mp h
  obtain ⟨_, -, hok⟩ := Option.bind_eq_some_iff.mp hok
  rw [Option.some.injEq] at hok
  obtain ⟨_, -, h⟩ := Option.bind_eq_some_iff.mp h
  rw [Option.some.injEq, Prod.mk.injEq] at h
  rw [h.1] at hok
  cases hok

/-- **C107.** What the outlier check of the direct method accepts, with a rejection threshold: the iterations have converged, the feature is in the frame of the camera, and its
patch there differs from the stored one by at most the threshold on average. -/
theorem C107_check (F : Full n nCam nPose) (hth : 0 ≤ F.base.rejectTh) (m : Mem) (cur : Fin nCam → List Level) (mp : MLP) (meas : Option FC) (i : Fin n) (counter : ℕ)
    (z : State n nCam nPose) (conv : Bool) (r r' : Scr) (h : (F.callbacks m cur mp meas i counter).check z conv r = some (true, r')) :
    conv = true ∧ ∃ (b : Fin nCam) (f : Fea) (g t : FC) (q : MLP), z.imgFeature F.mc F.sfv i counter (F.outOf r.1) = some (b, f) ∧
      ImgPixel.inFrame (F.pix m) (cur b) f.c false = some (g, true) ∧ ImgPixel.extract (F.pix m) (F.pix m).tmp1 (cur b) g false = some (t, q) ∧
      MLP.computeAverageDifference F.base.p q mp F.base.stop F.base.start ≤ F.base.rejectTh := by
  cases conv with
  | false => exact absurd h (callbacks_ask F m cur mp meas i counter z r r')
  | true =>
    refine ⟨rfl, ?_⟩
    have hc : F.check m cur mp i counter z true r = some (true, r') := h
    unfold Full.check at hc
    simp only [Option.bind_eq_bind, Option.pure_def] at hc
    obtain ⟨⟨b, f⟩, hbf, hc⟩ := Option.bind_eq_some_iff.mp hc
    obtain ⟨ok, hok, hc⟩ := Option.bind_eq_some_iff.mp hc
    rw [Bool.true_and, if_neg (by simpa using hth)] at hc
    obtain ⟨_, -, hc⟩ := Option.bind_eq_some_iff.mp hc
    rw [Option.some.injEq, Prod.mk.injEq] at hc
    rw [hc.1] at hok
    unfold ImgPixel.outlierCheck at hok
    simp only [Option.bind_eq_bind, Option.pure_def, Bool.not_true, Bool.false_eq_true, if_false, show (F.pix m).rejectTh = F.base.rejectTh from rfl, ge_iff_le, hth,
      if_true] at hok
    obtain ⟨⟨g, e⟩, hg, hok⟩ := Option.bind_eq_some_iff.mp hok
    cases e with
    | false => simp at hok
    | true =>
      simp only [Bool.not_true, Bool.false_eq_true, if_false] at hok
      obtain ⟨⟨t, q⟩, hq, hok⟩ := Option.bind_eq_some_iff.mp hok
      refine ⟨b, f, g, t, q, hbf, hg, hq, ?_⟩
      by_contra hn
      dsimp only at hok
      rw [if_pos (show MLP.computeAverageDifference (F.pix m).p q mp (F.pix m).stop (F.pix m).start > F.base.rejectTh from not_le.1 hn)] at hok
      simp at hok

/-- A feature at the pixel corner (3, 2) of the sample image is accepted, if the threshold is the difference of its patch. -/
example (G : Full 1 2 1) (sfv : V3 → Nor) (r : Scr) (m : Mem) (mp : MLP) (meas : Option FC) : ∃ (F : Full 1 2 1) (z : State 1 2 1) (r' : Scr), 0 ≤ F.base.rejectTh ∧
    (F.callbacks m (fun _ => demoPyr) mp meas 0 0).check z true r = some (true, r') := by
  let cam := demoCam.toI sfv (fun _ => ⟨Quat.one⟩)
  set c := demoPlain cam with hc
  have hs : c.Settled := ⟨rfl, rfl⟩
  have hl : demoPyr[0]? = some ⟨⟨6, 6, fun y x => 10 * y + x⟩, 0⟩ := rfl
  obtain ⟨o, ho, hos, hof, hoc, how, hoi⟩ := levelTransform_settled (junk := m.junk) hl hl hs
  have hon : o.nearB = true := by
    have : (M2.one).distOne < 1e-6 := by norm_num [M2.distOne, M2.one]
    unfold FC.nearB
    rw [how, show c.warpC = M2.one from rfl]
    simp [this]
  have hoc' : o.c = ⟨3, 2⟩ := by rw [hoc, levelPixel_self]; rfl
  have hin : Patch.InP 2 ⟨6, 6, fun y x => 10 * y + x⟩ o false := by
    unfold Patch.InP
    rw [hon, if_pos rfl, hoc']
    simp only [Patch.PlainIn, halfPatch]
    norm_num
  obtain ⟨E, hE⟩ := Patch.extract_total (old := m.tmp1.patches 0) hos (by norm_num) (by norm_num) hin
  have hfr := Patch.isPatchInFrame_of (p := 2) (wb := false) (by norm_num) (by norm_num) (by norm_num) hos hof hin
  let q : MLP := { m.tmp1 with isValidPatch := Function.update m.tmp1.isValidPatch 0 true, patches := Function.update m.tmp1.patches 0 E }
  let F : Full 1 2 1 := { G with base := { G.base with direct := true, p := 2, start := 0, stop := 0, sampling := 0, rejectTh := |MLP.computeAverageDifference 2 q mp 0 0| }, mc := demoCams sfv, sfv := sfv }
  have h1 : ImgPixel.inFrame (F.pix m) demoPyr c false = some (c, true) := by
    show MLP.isMultilevelPatchInFrame 2 m.junk demoPyr c 0 false = _
    unfold MLP.isMultilevelPatchInFrame
    have hf : c.isInFront = true := rfl
    simp [hf, FC.comWarpC_valid hs.warp, ho, hl, hfr]
  have h2 : ImgPixel.extract (F.pix m) (F.pix m).tmp1 demoPyr c false = some (c, q) := by
    show MLP.extractMultilevelPatchFromImage 2 m.junk m.tmp1 demoPyr c 0 false = _
    unfold MLP.extractMultilevelPatchFromImage MLP.extractLevel
    simp [List.range_succ, ho, hl, hE, q]
  refine ⟨F, { demoState3 sfv with fea := fun _ => ⟨c, ⟨.inverse, 0.5⟩⟩ }, (c, r.2), abs_nonneg _, ?_⟩
  show F.check m (fun _ => demoPyr) mp 0 0 _ true r = _
  have h0 : State.imgFeature ({ demoState3 sfv with fea := fun _ => ⟨c, ⟨.inverse, 0.5⟩⟩ } : State 1 2 1) F.mc F.sfv 0 0 (F.outOf r.1) = some (0, ⟨c, ⟨.inverse, 0.5⟩⟩) := rfl
  have hth : ¬ F.base.rejectTh < 0 := not_lt.2 (abs_nonneg _)
  have hth' : (F.pix m).rejectTh ≥ 0 := abs_nonneg (MLP.computeAverageDifference 2 q mp 0 0)
  have hle : ¬ MLP.computeAverageDifference (F.pix m).p q mp (F.pix m).stop (F.pix m).start > (F.pix m).rejectTh :=
    not_lt.2 (le_abs_self (MLP.computeAverageDifference 2 q mp 0 0))
  have hsm : ¬ (F.pix m).sampling > 0 := lt_irrefl (0 : ℝ)
  have h3 : ImgPixel.outlierCheck (F.pix m) demoPyr mp c true = some true := by
    unfold ImgPixel.outlierCheck
    simp only [Bool.not_true, Bool.false_eq_true, if_false, if_pos hth', h1, h2, Option.bind_eq_bind, Option.bind_some, if_neg hle, if_neg hsm, Option.pure_def]
  unfold Full.check
  rw [h0]
  simp only [Option.bind_eq_bind, Option.bind_some, h3, Bool.true_and, decide_eq_true_eq, if_neg hth, h1, Option.map_some, Option.pure_def]

/-- **C107.** With a rejection threshold an image update succeeds only if, at the corrected estimate (before it is normalised), the feature is in the frame of the camera and
its patch there differs from the stored one by at most the threshold on average. -/
theorem C107_match (F : Full n nCam nPose) (hth : 0 ≤ F.base.rejectTh) (m : Mem) (cur : Fin nCam → List Level) (mp : MLP) (meas : Option FC) (i : Fin n) (counter : ℕ)
    (hP : IsCov P) (hR : IsCov R) (r : Scr) (h : (iekf c F.eigen gate R (F.callbacks m cur mp meas i counter) x P r).2.2.2 = true) :
    ∃ (z : State n nCam nPose) (o : FC) (b : Fin nCam) (f : Fea) (g t : FC) (q : MLP), z.fix = some (iekf c F.eigen gate R (F.callbacks m cur mp meas i counter) x P r).1 ∧
      z.imgFeature F.mc F.sfv i counter (F.outOf o) = some (b, f) ∧
      ImgPixel.inFrame (F.pix m) (cur b) f.c false = some (g, true) ∧ ImgPixel.extract (F.pix m) (F.pix m).tmp1 (cur b) g false = some (t, q) ∧
      MLP.computeAverageDifference F.base.p q mp F.base.stop F.base.start ≤ F.base.rejectTh := by
  obtain ⟨J, r1, H, -, -, s, l, δ, k, Q, r2, r3, -, -, -, -, -, hc, hf, -⟩ := C107_success hP hR (callbacks_ask F m cur mp meas i counter) F.eigen r h
  obtain ⟨-, b, f, g, t, q, h1, h2, h3, h4⟩ := C107_check F hth m cur mp meas i counter _ _ _ _ hc
  exact ⟨_, r2.1, b, f, g, t, q, hf, h1, h2, h3, h4⟩

/-! ### A single starting point -/

lemma starts_one (hu : c.uni = 0) (hcov : c.cover ≠ 0) (eigen : M2 → (ℝ × ℝ) × V2 × V2) {H : Matrix (Fin 2) (Ix n nCam nPose) ℝ} (hd : (H * P * Hᵀ).det ≠ 0) :
    starts c eigen x P H = some [x.boxPlus (DState.ofFn 0)] := by
  classical
  unfold starts
  dsimp only
  rw [if_neg hd, C39_enumeration, Option.map_some, hu]
  have hg : Img.Spec.grid 0 = [((0 : ℤ), (0 : ℤ))] := by simp [Img.Spec.grid]
  have hpos : 0 < c.cover ^ 2 := by positivity
  rw [hg]
  have he : inEllipse c.range c.cover (eigen (toM2 (H * P * Hᵀ))).1.1 (eigen (toM2 (H * P * Hᵀ))).1.2 0 0 = true := by
    unfold inEllipse
    exact decide_eq_true (by simpa using hpos)
  rw [List.filter_cons_of_pos (by exact he), List.filter_nil, List.map_cons, List.map_nil]
  have hv : (((((0 : ℤ) : ℝ) * c.range) • (eigen (toM2 (H * P * Hᵀ))).2.1 + (((0 : ℤ) : ℝ) * c.range) • (eigen (toM2 (H * P * Hᵀ))).2.2 : V2)).at = 0 := by
    ext k
    fin_cases k <;> simp [V2.at]
  unfold candidate
  dsimp only
  rw [hv, Matrix.mulVec_zero, neg_zero]

/-- An update with a single starting point that ends with its first iteration. -/
lemma iekf_once (hu : c.uni = 0) (hcov : c.cover ≠ 0) {k : ℕ} (hm : c.maxIter = k + 1) (hthr : 0 ≤ c.thr) (eigen : M2 → (ℝ × ℝ) × V2 × V2) {r r1 r2 : Scr}
    {J : DState n nCam nPose → Option V2} (hJ : K.cand x r = some (J, r1)) {H : Matrix (Fin 2) (Ix n nCam nPose) ℝ}
    (hH : (colMat fun b => (J (DState.unit b)).map V2.at) = some H) (hd : (H * P * Hᵀ).det ≠ 0) {a : Iter n nCam nPose}
    (hs : iterStep c gate R K x P { lin := x.boxPlus (DState.ofFn 0), conv := false, stop := false, cov := P, score := 0, scr := r1 } = some a)
    (he : k = 0 ∨ (a.conv || a.stop) = true) {ok : Bool} (hc : K.check a.lin a.conv a.scr = some (ok, r2)) {z : State n nCam nPose} (hf : a.lin.fix = some z)
    (hz : c.diff a.lin a.lin = 0) :
    iekf c eigen gate R K x P r = if ok then (z, symm a.cov, r2.2, true) else (x, P, r2.2, false) := by
  have hit : iterate c gate R K x P c.maxIter { lin := x.boxPlus (DState.ofFn 0), conv := false, stop := false, cov := P, score := 0, scr := r1 } = some a := by
    rw [hm]
    simp only [iterate, Bool.or_self, Bool.false_eq_true, if_false, hs, Option.bind_some]
    rcases he with rfl | he
    · rfl
    · cases k with
      | zero => rfl
      | succ k => simp only [iterate, he, if_true]
  unfold iekf
  simp only [Option.bind_eq_bind, Option.pure_def, hJ, Option.bind_some, hH, starts_one hu hcov eigen hd, List.foldlM_cons, List.foldlM_nil, tryStart, hit, hc,
    List.nil_append]
  cases ok with
  | false => simp [bestOf]
  | true =>
    have : ¬ (2 * c.thr < vecNorm (c.diff a.lin a.lin)) := by
      rw [hz]
      simp only [vecNorm, zero_dotProduct, Real.sqrt_zero, not_lt]
      linarith
    simp [bestOf, this, hf]

/-! ### Updates without a measurement -/

lemma gain_zero {y : Fin 2 → ℝ} : gain gate y (0 : Matrix (Fin 2) (Ix n nCam nPose) ℝ) R P = 0 := by
  have : innH gate y (0 : Matrix (Fin 2) (Ix n nCam nPose) ℝ) R P = 0 := by
    ext i b
    simp [innH]
  unfold gain
  rw [this]
  simp

/-- **C107, finding.** If the alignment equations cannot be set up at the estimate (too few pixels: the code then sets innovation and Jacobian to zero and cancels the
iterations), the increment is zero, which counts as converged: unless the outlier check rejects the predicted position, the update is reported as successful, although no
measurement was used; the covariance is left as it was. -/
theorem C107_finding_no_measurement (hP : IsCov P) (hR : StrictPos R) (hu : c.uni = 0) (hcov : c.cover ≠ 0) (hm : c.maxIter ≠ 0) (hthr : 0 ≤ c.thr)
    (eigen : M2 → (ℝ × ℝ) × V2 × V2) {r r1 r2 r3 r4 : Scr} {J : DState n nCam nPose → Option V2} (hJ : K.cand x r = some (J, r1))
    {H : Matrix (Fin 2) (Ix n nCam nPose) ℝ} (hH : (colMat fun b => (J (DState.unit b)).map V2.at) = some H) (hd : (H * P * Hᵀ).det ≠ 0)
    (hjac : K.jac (x.boxPlus (DState.ofFn 0)) r1 = some (fun _ => some 0, true, r2)) (hinn : K.innov (x.boxPlus (DState.ofFn 0)) 0 r2 = some (0, true, r3))
    (hcheck : K.check ((x.boxPlus (DState.ofFn 0)).boxPlus (DState.ofFn 0)) true r3 = some (true, r4)) (hdiff : c.diff x (x.boxPlus (DState.ofFn 0)) = 0)
    (hself : ∀ l : State n nCam nPose, c.diff l l = 0) {z : State n nCam nPose} (hf : ((x.boxPlus (DState.ofFn 0)).boxPlus (DState.ofFn 0)).fix = some z) :
    iekf c eigen gate R K x P r = (z, symm P, r4.2, true) := by
  classical
  obtain ⟨k, hk⟩ := Nat.exists_eq_succ_of_ne_zero hm
  have hcol : (colMat fun b : Ix n nCam nPose => ((fun _ => some 0 : DState n nCam nPose → Option V2) (DState.unit b)).map V2.at) = some 0 := by
    obtain ⟨M, hM⟩ : ∃ M, (colMat fun b : Ix n nCam nPose => ((fun _ => some 0 : DState n nCam nPose → Option V2) (DState.unit b)).map V2.at) = some M := by
      cases h : (colMat fun b : Ix n nCam nPose => ((fun _ => some 0 : DState n nCam nPose → Option V2) (DState.unit b)).map V2.at) with
      | none => simp [colMat] at h
      | some M => exact ⟨M, rfl⟩
    rw [hM]
    congr 1
    ext k b
    have h := colMat_some hM b
    simp only [Option.map_some, Option.some.injEq] at h
    rw [← congrFun h k]
    fin_cases k <;> simp [V2.at]
  have hcor : correctIter gate R (0 : V2).at (0 : Matrix (Fin 2) (Ix n nCam nPose) ℝ) P 0 = some (0, P, (0 : V2).at ⬝ᵥ (innS gate (0 : V2).at (0 : Matrix (Fin 2) (Ix n nCam nPose) ℝ) R P)⁻¹.mulVec (0 : V2).at) := by
    rw [correctIter_eq, if_neg (innS_det hP hR), gain_zero]
    simp
  have hstep : iterStep c gate R K x P { lin := x.boxPlus (DState.ofFn 0), conv := false, stop := false, cov := P, score := 0, scr := r1 } =
      some { lin := (x.boxPlus (DState.ofFn 0)).boxPlus (DState.ofFn 0), conv := true, stop := true, cov := P,
             score := (0 : V2).at ⬝ᵥ (innS gate (0 : V2).at (0 : Matrix (Fin 2) (Ix n nCam nPose) ℝ) R P)⁻¹.mulVec (0 : V2).at, scr := r3 } := by
    unfold iterStep
    simp only [Option.bind_eq_bind, Option.pure_def, hjac, Option.bind_some, hcol, hinn, hdiff, hcor, Bool.or_self, Option.some.injEq, Iter.mk.injEq, true_and, and_true]
    simp [vecNorm, hthr]
  have := iekf_once (c := c) (gate := gate) (R := R) hu hcov hk hthr eigen hJ hH hd hstep (.inr rfl) hcheck hf (hself _)
  rw [this, if_pos rfl]

/-! ### A linear measurement -/

/-- A measurement of the bearing of the only feature, with innovation `y`; with `stop` it cannot be made. -/
def toyK (y : V2) (stop : Bool) : Callbacks 1 2 1 where
  innov _ v r := some (if stop then v else y + v, stop, r)
  jac _ r := some (if stop then fun _ => some 0 else fun δ => some (δ.nor 0), stop, r)
  cand _ r := some (fun δ => some (δ.nor 0), r)
  check _ conv r := some (conv, r)

/-- Settings with a single starting point and one iteration with an increment of at most one. -/
def toyCfg : IterCfg where
  maxIter := 1
  thr := 1
  uni := 0
  range := 1
  cover := 1
  log _ := 0
  norDiff _ _ := 0

/-- The derivative of the toy measurement. -/
def toyH : Matrix (Fin 2) (Ix 1 2 1) ℝ := Matrix.of fun k e => if e = .nor 0 k then 1 else 0

lemma toy_col : (colMat fun b : Ix 1 2 1 => ((fun δ => some (δ.nor 0) : DState 1 2 1 → Option V2) (DState.unit b)).map V2.at) = some toyH := by
  obtain ⟨M, hM⟩ : ∃ M, (colMat fun b : Ix 1 2 1 => ((fun δ => some (δ.nor 0) : DState 1 2 1 → Option V2) (DState.unit b)).map V2.at) = some M := by
    cases h : (colMat fun b : Ix 1 2 1 => ((fun δ => some (δ.nor 0) : DState 1 2 1 → Option V2) (DState.unit b)).map V2.at) with
    | none => simp [colMat] at h
    | some M => exact ⟨M, rfl⟩
  rw [hM]
  congr 1
  ext k b
  have h := colMat_some hM b
  simp only [Option.map_some, Option.some.injEq] at h
  rw [← congrFun h k]
  cases b with
  | nor i l =>
    fin_cases i
    fin_cases k <;> fin_cases l <;> simp [V2.at, toyH, DState.unit, DState.ofFn, Pi.single_apply]
  | _ => fin_cases k <;> simp [V2.at, toyH, DState.unit, DState.ofFn, Pi.single_apply]

lemma toyH_mul (P : Cov 1 2 1) (k : Fin 2) (e : Ix 1 2 1) : (toyH * P) k e = P (.nor 0 k) e := by
  rw [Matrix.mul_apply]
  simp [toyH]

lemma mul_toyH (P : Cov 1 2 1) (k : Fin 2) (e : Ix 1 2 1) : (P * toyHᵀ) e k = P e (.nor 0 k) := by
  rw [Matrix.mul_apply]
  simp [toyH]

lemma toyH_conj {P : Cov 1 2 1} (h : ∀ k l, P (.nor 0 k) (.nor 0 l) = (1 : Matrix (Fin 2) (Fin 2) ℝ) k l) : toyH * P * toyHᵀ = 1 := by
  ext k l
  rw [Matrix.mul_assoc, Matrix.mul_apply]
  simp only [mul_toyH]
  simp only [toyH, Matrix.of_apply, ite_mul, one_mul, zero_mul, Finset.sum_ite_eq', Finset.mem_univ, if_true]
  exact h k l

lemma toy_scene (y : V2) : SceneOnly (toyK y false) where
  innov _ _ _ := rfl
  jac _ _ _ := rfl
  cand _ _ _ := rfl
  check _ _ _ := rfl
  row x r J s r' h a ha v hv := by
    simp only [toyK, Bool.false_eq_true, if_false, Option.some.injEq, Prod.mk.injEq] at h
    rw [← h.1, Option.some.injEq] at hv
    clear h
    subst hv
    cases a with
    | nor i k => cases ha
    | _ => ext <;> simp [DState.unit, DState.ofFn]
  candRow x r J r' h a ha v hv := by
    simp only [toyK, Option.some.injEq, Prod.mk.injEq] at h
    rw [← h.1, Option.some.injEq] at hv
    clear h
    subst hv
    cases a with
    | nor i k => cases ha
    | _ => ext <;> simp [DState.unit, DState.ofFn]

lemma toy_ask (y : V2) (b : Bool) : AsksConvergence (toyK y b) := by
  intro z r r' h
  simp [toyK] at h

/-- The correction of the toy measurement, for a covariance in which the bearing has unit variances. -/
lemma toy_correct {P : Cov 1 2 1} (h : ∀ k l, P (.nor 0 k) (.nor 0 l) = (1 : Matrix (Fin 2) (Fin 2) ℝ) k l) (v : V2) :
    ∃ Q sc, correctIter (fun _ _ _ => false) 1 v.at toyH P 0 = some (fun e => -(1 / 2) * (P e (.nor 0 0) * v.x + P e (.nor 0 1) * v.y), Q, sc) := by
  classical
  have hS : innS (fun _ _ _ => false) v.at toyH 1 P = (2 : ℝ) • (1 : Matrix (Fin 2) (Fin 2) ℝ) := by
    have : innS (fun _ _ _ => false) v.at toyH 1 P = toyH * P * toyHᵀ + 1 := by
      ext i j
      simp [innS]
    rw [this, toyH_conj h, two_smul]
  have hH : innH (fun _ _ _ => false) v.at toyH 1 P = toyH := by
    ext i j
    simp [innH]
  have hinv : ((2 : ℝ) • (1 : Matrix (Fin 2) (Fin 2) ℝ))⁻¹ = (1 / 2 : ℝ) • 1 := by
    refine Matrix.inv_eq_right_inv ?_
    rw [Matrix.smul_mul, Matrix.mul_smul, Matrix.one_mul, smul_smul]
    norm_num
  have hG : gain (fun _ _ _ => false) v.at toyH 1 P = (1 / 2 : ℝ) • (P * toyHᵀ) := by
    unfold gain
    rw [hS, hH, hinv, Matrix.mul_smul, Matrix.mul_one]
  have hd : ((2 : ℝ) • (1 : Matrix (Fin 2) (Fin 2) ℝ)).det ≠ 0 := by
    rw [Matrix.det_smul, Matrix.det_one]
    norm_num
  rw [correctIter_eq, hS, if_neg hd, hG]
  refine ⟨P - (1 / 2 : ℝ) • (P * toyHᵀ) * ((2 : ℝ) • (1 : Matrix (Fin 2) (Fin 2) ℝ)) * ((1 / 2 : ℝ) • (P * toyHᵀ))ᵀ, v.at ⬝ᵥ ((2 : ℝ) • (1 : Matrix (Fin 2) (Fin 2) ℝ))⁻¹ *ᵥ v.at, ?_⟩
  rw [Option.some.injEq, Prod.mk.injEq]
  refine ⟨?_, rfl⟩
  ext e
  rw [Matrix.mulVec_zero, add_zero, add_zero, Pi.neg_apply, Matrix.smul_mulVec, Pi.smul_apply, Matrix.mulVec, dotProduct, Fin.sum_univ_two, mul_toyH, mul_toyH]
  simp [V2.at]

lemma toy_diff (l : State 1 2 1) : toyCfg.diff l l = 0 := by
  ext a
  cases a <;> simp [IterCfg.diff, toyCfg, DState.get, V3.at, V2.at] <;> (rename_i k; fin_cases k <;> simp)

/-- The update with the toy measurement: it succeeds if and only if the increment is at most one. -/
lemma toy_update {P : Cov 1 2 1} (h : ∀ k l, P (.nor 0 k) (.nor 0 l) = (1 : Matrix (Fin 2) (Fin 2) ℝ) k l) (v : V2) (eigen : M2 → (ℝ × ℝ) × V2 × V2) (r : Scr) :
    (iekf toyCfg eigen (fun _ _ _ => false) 1 (toyK v false) (demoState true 0) P r).2.2.2 =
      decide (vecNorm (fun e => -(1 / 2) * (P e (.nor 0 0) * v.x + P e (.nor 0 1) * v.y)) ≤ 1) := by
  obtain ⟨Q, sc, hc⟩ := toy_correct h v
  have hu : ∀ δ, UnitState ((demoState true 0).boxPlus δ) := fun δ => State.boxPlus_unit (demoState_unit _ _) δ
  have hdiff : toyCfg.diff (demoState true 0) ((demoState true 0).boxPlus (DState.ofFn 0)) = 0 := by
    ext a
    cases a <;> simp [IterCfg.diff, toyCfg, DState.get, V3.at, V2.at, State.boxPlus, DState.ofFn, Fea.boxPlus] <;> (rename_i k; fin_cases k <;> simp)
  have hstep : iterStep toyCfg (fun _ _ _ => false) 1 (toyK v false) (demoState true 0) P
      { lin := (demoState true 0).boxPlus (DState.ofFn 0), conv := false, stop := false, cov := P, score := 0, scr := r } =
      some { lin := ((demoState true 0).boxPlus (DState.ofFn 0)).boxPlus (DState.ofFn fun e => -(1 / 2) * (P e (.nor 0 0) * v.x + P e (.nor 0 1) * v.y)),
             conv := decide (vecNorm (fun e => -(1 / 2) * (P e (.nor 0 0) * v.x + P e (.nor 0 1) * v.y)) ≤ 1), stop := false, cov := Q, score := sc, scr := r } := by
    unfold iterStep
    have hv : v + 0 = v := by ext <;> simp
    simp only [Option.bind_eq_bind, Option.pure_def, toyK, Option.bind_some, Bool.false_eq_true, if_false, toy_col, hdiff, hv, hc, Bool.or_self]
    rfl
  have := iekf_once (c := toyCfg) (K := toyK v false) (gate := fun _ _ _ => false) (R := 1) (r := r) (r1 := r) rfl (by simp [toyCfg]) (k := 0) rfl (by simp [toyCfg]) eigen rfl
    toy_col (by rw [toyH_conj h, Matrix.det_one]; norm_num) hstep (.inl rfl) rfl
    (State.fix_eq (State.boxPlus_unit (hu _) _) (State.boxPlus_nor _)) (toy_diff _)
  rw [this]
  dsimp only
  by_cases hn : vecNorm (fun e => -(1 / 2) * (P e (.nor 0 0) * v.x + P e (.nor 0 1) * v.y)) ≤ 1
  · rw [decide_eq_true hn, if_pos rfl]
  · rw [decide_eq_false hn, if_neg (by simp)]

/-- The unit covariance with a position correlated with the first component of the bearing. -/
noncomputable def toyA : Cov 1 2 1 := 1 + Matrix.single (.pos 0) (.nor 0 0) 10

/-- **C107, finding.** The iterations stop by the size of the increment of the whole state, also of estimates no image determines: of two covariances that agree on everything
an image depends on (features and mounting), one lets the same measurement succeed and the other does not, because its position is correlated with the bearing. -/
theorem C107_finding_unseen (eigen : M2 → (ℝ × ℝ) × V2 × V2) (r : Scr) :
    ∃ (K : Callbacks 1 2 1) (P Q : Cov 1 2 1), SceneOnly K ∧ AsksConvergence K ∧ IsCov P ∧ IsCov Q ∧ SameSceneCov true P Q ∧
      (iekf toyCfg eigen (fun _ _ _ => false) 1 K (demoState true 0) P r).2.2.2 = true ∧
      (iekf toyCfg eigen (fun _ _ _ => false) 1 K (demoState true 0) Q r).2.2.2 = false := by
  classical
  have hA : ∀ a b, (toyA * toyAᵀ) a b = (if a = b then 1 else 0) + (if a = .pos 0 ∧ b = .nor 0 0 then 10 else 0) + (if a = .nor 0 0 ∧ b = .pos 0 then 10 else 0) +
      (if a = .pos 0 ∧ b = .pos 0 then 100 else 0) := by
    intro a b
    unfold toyA
    rw [Matrix.transpose_add, Matrix.transpose_one, Matrix.add_mul, Matrix.one_mul, Matrix.mul_add, Matrix.mul_one, Matrix.transpose_single,
      Matrix.single_mul_single_same]
    simp only [Matrix.add_apply, Matrix.one_apply, Matrix.single_apply]
    by_cases h1 : a = .pos 0 <;> by_cases h2 : b = .pos 0 <;> by_cases h3 : a = .nor 0 0 <;> by_cases h4 : b = .nor 0 0 <;> simp_all [eq_comm] <;> norm_num
  have hQ : ∀ k l, (toyA * toyAᵀ) (.nor 0 k) (.nor 0 l) = (1 : Matrix (Fin 2) (Fin 2) ℝ) k l := by
    intro k l
    rw [hA]
    simp [Matrix.one_apply]
  refine ⟨toyK ⟨1, 0⟩ false, 1, toyA * toyAᵀ, toy_scene _, toy_ask _ _, isCov_one, ?_, fun a b ha hb => ?_, ?_, ?_⟩
  · have := (isCov_one (ι := Ix 1 2 1)).conj toyA
    rwa [Matrix.mul_one] at this
  · rw [hA, Matrix.one_apply]
    have h1 : a ≠ .pos 0 := by rintro rfl; cases ha
    have h2 : b ≠ .pos 0 := by rintro rfl; cases hb
    simp [h1, h2]
  · rw [toy_update (fun k l => by simp [Matrix.one_apply])]
    refine decide_eq_true ?_
    unfold vecNorm
    have : (fun e : Ix 1 2 1 => -(1 / 2) * ((1 : Cov 1 2 1) e (.nor 0 0) * (1 : ℝ) + (1 : Cov 1 2 1) e (.nor 0 1) * 0)) ⬝ᵥ
        (fun e : Ix 1 2 1 => -(1 / 2) * ((1 : Cov 1 2 1) e (.nor 0 0) * (1 : ℝ) + (1 : Cov 1 2 1) e (.nor 0 1) * 0)) = 1 / 4 := by
      simp only [dotProduct, Matrix.one_apply, mul_one, mul_zero, add_zero, mul_ite, mul_zero, Finset.sum_ite_eq', Finset.mem_univ, if_true, ite_mul, zero_mul]
      norm_num
    dsimp only
    rw [this, Real.sqrt_le_iff]
    norm_num
  · rw [toy_update hQ]
    refine decide_eq_false ?_
    unfold vecNorm
    rw [Real.sqrt_le_iff, not_and, not_le]
    intro _
    have hle := Finset.single_le_sum (s := Finset.univ) (f := fun e : Ix 1 2 1 =>
      (-(1 / 2) * ((toyA * toyAᵀ) e (.nor 0 0) * (1 : ℝ) + (toyA * toyAᵀ) e (.nor 0 1) * 0)) * (-(1 / 2) * ((toyA * toyAᵀ) e (.nor 0 0) * (1 : ℝ) + (toyA * toyAᵀ) e (.nor 0 1) * 0)))
      (fun i _ => mul_self_nonneg _) (Finset.mem_univ (.pos 0))
    refine lt_of_lt_of_le ?_ hle
    rw [hA]
    simp
    norm_num

/-! ## Non-vacuity -/

lemma toy_success (eigen : M2 → (ℝ × ℝ) × V2 × V2) (r : Scr) :
    (iekf toyCfg eigen (fun _ _ _ => false) 1 (toyK ⟨1, 0⟩ false) (demoState true 0) 1 r).2.2.2 = true := by
  classical
  rw [toy_update (fun k l => by simp [Matrix.one_apply])]
  refine decide_eq_true ?_
  unfold vecNorm
  have : (fun e : Ix 1 2 1 => -(1 / 2) * ((1 : Cov 1 2 1) e (.nor 0 0) * (1 : ℝ) + (1 : Cov 1 2 1) e (.nor 0 1) * 0)) ⬝ᵥ
      (fun e : Ix 1 2 1 => -(1 / 2) * ((1 : Cov 1 2 1) e (.nor 0 0) * (1 : ℝ) + (1 : Cov 1 2 1) e (.nor 0 1) * 0)) = 1 / 4 := by
    simp only [dotProduct, Matrix.one_apply, mul_one, mul_zero, add_zero, mul_ite, mul_zero, Finset.sum_ite_eq', Finset.mem_univ, if_true, ite_mul, zero_mul]
    norm_num
  dsimp only
  rw [this, Real.sqrt_le_iff]
  norm_num

/-- The toy measurement succeeds: the estimate is reached from a starting point by an iteration with an increment of at most one, accepted by the outlier check. -/
example (eigen : M2 → (ℝ × ℝ) × V2 × V2) (r : Scr) :
    ∃ s l δ i Q, StartingPoint toyCfg eigen (demoState true 0) 1 toyH s ∧ Visited toyCfg 1 (toyK ⟨1, 0⟩ false) (demoState true 0) 1 s i l ∧ i < 1 ∧
      Iteration toyCfg 1 (toyK ⟨1, 0⟩ false) (demoState true 0) 1 l δ Q ∧ vecNorm δ ≤ 1 ∧
      (l.boxPlus (DState.ofFn δ)).fix = some (iekf toyCfg eigen (fun _ _ _ => false) 1 (toyK ⟨1, 0⟩ false) (demoState true 0) 1 r).1 := by
  obtain ⟨J, r1, H, hJ, hH, s, l, δ, i, Q, r2, r3, h1, h2, h3, h4, h5, -, h6, -⟩ := C107_success (c := toyCfg) (gate := fun _ _ _ => false) isCov_one isCov_one (toy_ask ⟨1, 0⟩ false) eigen r (toy_success eigen r)
  have : H = toyH := by
    simp only [toyK, Option.some.injEq, Prod.mk.injEq] at hJ
    ext k e
    obtain ⟨v, hv, hk⟩ := hH e
    have ht := colMat_some toy_col e
    rw [← hJ.1, Option.some.injEq] at hv
    simp only [Option.map_some, Option.some.injEq] at ht
    rw [hk, ← hv, ← congrFun ht k]
  subst this
  exact ⟨s, l, δ, i, Q, h1, h2, h3, h4, h5, h6⟩

/-- Without a measurement (`stop`) the toy update is reported as successful as well. -/
example (eigen : M2 → (ℝ × ℝ) × V2 × V2) (r : Scr) :
    ∃ z, iekf toyCfg eigen (fun _ _ _ => false) 1 (toyK ⟨1, 0⟩ true) (demoState true 0) 1 r = (z, symm 1, r.2, true) := by
  have hu : ∀ δ, UnitState ((demoState true 0).boxPlus δ) := fun δ => State.boxPlus_unit (demoState_unit _ _) δ
  refine ⟨_, C107_finding_no_measurement (c := toyCfg) (K := toyK ⟨1, 0⟩ true) (r := r) (r1 := r) (r2 := r) (r3 := r) (r4 := r) isCov_one strictPos_one rfl (by simp [toyCfg])
    (by simp [toyCfg]) (by simp [toyCfg]) eigen rfl toy_col ?_ rfl rfl rfl ?_ toy_diff (State.fix_eq (State.boxPlus_unit (hu _) _) (State.boxPlus_nor _))⟩
  · rw [toyH_conj (fun k l => by simp [Matrix.one_apply]), Matrix.det_one]
    norm_num
  · ext a
    cases a <;> simp [IterCfg.diff, toyCfg, DState.get, V3.at, V2.at, State.boxPlus, DState.ofFn, Fea.boxPlus] <;> (rename_i k; fin_cases k <;> simp)

end Rovio.ImgFull
