import Verif.Model.OutputCov
import Verif.Lemmas.Covariance
import Verif.Props.Outputs
import Verif.Props.FeatureOutput

/-! # C75, C76: the covariances published with the outputs -/

namespace Rovio

open Matrix Spec Distance

variable {n nCam nPose : ℕ}

/-! ### The loops filling the message arrays -/

lemma OutIx.id_inj {a b : OutIx} (h : a.id = b.id) : a = b := by
  cases a <;> cases b <;> simp only [OutIx.id] at h <;>
    first
    | (exfalso; omega)
    | (congr 1; apply Fin.ext; omega)

lemma readAt_id {ι : Type} {id : ι → ℕ} (hi : ∀ a b, id a = id b → a = b) (M : Matrix ι ι ℝ) (a b : ι) : readAt id M (id a) (id b) = some (M a b) := by
  have h : ∃ p : ι × ι, id p.1 = id a ∧ id p.2 = id b := ⟨(a, b), rfl, rfl⟩
  unfold readAt
  rw [dif_pos h, hi _ _ h.choose_spec.1, hi _ _ h.choose_spec.2]

lemma foldlM_fill {m : ℕ} {α : Type} (key : α → ℕ) (val : α → ℝ) (f : (Fin m → ℝ) → α → Option (Fin m → ℝ)) :
    ∀ (l : List α), (∀ arr, ∀ p ∈ l, f arr p = setArr arr (key p) (val p)) → (∀ p ∈ l, key p < m) → (l.map key).Nodup → ∀ arr : Fin m → ℝ,
      ∃ arr', l.foldlM f arr = some arr' ∧ (∀ k : Fin m, (∀ p ∈ l, key p ≠ k) → arr' k = arr k) ∧ ∀ p ∈ l, ∀ h : key p < m, arr' ⟨key p, h⟩ = val p
  | [], _, _, _, arr => ⟨arr, rfl, fun _ _ => rfl, fun _ h => absurd h (by simp)⟩
  | p :: l, hf, hr, hn, arr => by
    rw [List.map_cons, List.nodup_cons] at hn
    have hp := hr p (by simp)
    obtain ⟨arr', h1, h2, h3⟩ := foldlM_fill key val f l (fun arr q hq => hf arr q (by simp [hq])) (fun q hq => hr q (by simp [hq])) hn.2
      (Function.update arr ⟨key p, hp⟩ (val p))
    refine ⟨arr', ?_, fun k hk => ?_, fun q hq h => ?_⟩
    · rw [List.foldlM_cons, hf arr p (by simp), setArr, dif_pos hp]
      exact h1
    · rw [h2 k (fun q hq => hk q (by simp [hq]))]
      exact Function.update_of_ne (fun e => hk p (by simp) (by rw [e])) _ _
    · rcases List.mem_cons.mp hq with rfl | hq
      · rw [h2 _ (fun r hr' e => hn.1 (List.mem_map.mpr ⟨r, hr', e⟩))]
        exact Function.update_self _ _ _
      · exact h3 q hq h

lemma fillArray_eq (N : ℕ) (rd : ℕ → ℕ → Option ℝ) (ind : ℕ → ℕ) (v : ℕ → ℕ → ℝ) (hv : ∀ i < N, ∀ j < N, rd (ind i) (ind j) = some (v i j))
    (arr : Fin (N * N) → ℝ) :
    ∃ arr', fillArray N rd ind arr = some arr' ∧ ∀ i < N, ∀ j < N, ∀ h : N * i + j < N * N, arr' ⟨N * i + j, h⟩ = v i j := by
  set l := (List.range N).flatMap fun i => (List.range N).map fun j => (i, j) with hl
  have hmem : ∀ p, p ∈ l ↔ p.1 < N ∧ p.2 < N := by
    intro p; obtain ⟨i, j⟩ := p
    simp [hl]
  have hlt : ∀ p ∈ l, p.2 + N * p.1 < N * N := by
    intro p hp
    obtain ⟨h1, h2⟩ := (hmem p).mp hp
    nlinarith
  have hnd : l.Nodup := by
    rw [hl, List.nodup_flatMap]
    refine ⟨fun i _ => (List.nodup_range).map (fun a b h => (Prod.mk.inj h).2), ?_⟩
    refine List.nodup_range.imp ?_
    intro a b hab
    simp only [Function.onFun, List.disjoint_left, List.mem_map]
    rintro _ ⟨j, _, rfl⟩ ⟨k, _, e⟩
    exact hab (Prod.mk.inj e).1.symm
  have hinj : (l.map fun p => p.2 + N * p.1).Nodup := by
    refine List.Nodup.map_on ?_ hnd
    intro p hp q hq e
    obtain ⟨h1, h2⟩ := (hmem p).mp hp
    obtain ⟨h3, h4⟩ := (hmem q).mp hq
    have e' : (p.2 + N * p.1) / N = (q.2 + N * q.1) / N := congrArg (· / N) e
    have hN : 0 < N := by omega
    rw [Nat.add_mul_div_left _ _ hN, Nat.add_mul_div_left _ _ hN, Nat.div_eq_of_lt h2, Nat.div_eq_of_lt h4] at e'
    have e1 : p.1 = q.1 := by omega
    have e2 : p.2 = q.2 := by simp only [e1] at e; omega
    exact Prod.ext e1 e2
  obtain ⟨arr', h1, _, h3⟩ := foldlM_fill (fun p : ℕ × ℕ => p.2 + N * p.1) (fun p => v p.1 p.2)
    (fun arr p => (rd (ind p.1) (ind p.2)).bind fun v => setArr arr (p.2 + N * p.1) v) l
    (fun arr p hp => by rw [hv _ ((hmem p).mp hp).1 _ ((hmem p).mp hp).2]; rfl) hlt hinj arr
  refine ⟨arr', h1, fun i hi j hj h => ?_⟩
  have := h3 (i, j) ((hmem _).mpr ⟨hi, hj⟩) (hlt _ ((hmem _).mpr ⟨hi, hj⟩))
  rw [← this]
  congr 1
  exact Fin.ext (Nat.add_comm _ _)

/-- Specification: a 36-element message array is the row-major form of a 6x6 matrix given by its four 3x3 blocks. -/
def IsBlocks (arr : Fin 36 → ℝ) (A B C E : Fin 3 → Fin 3 → ℝ) : Prop :=
  ∀ i j : Fin 3, arr ⟨6 * i + j, by omega⟩ = A i j ∧ arr ⟨6 * i + (3 + j), by omega⟩ = B i j ∧
    arr ⟨6 * (3 + i) + j, by omega⟩ = C i j ∧ arr ⟨6 * (3 + i) + (3 + j), by omega⟩ = E i j

lemma fill_two {ι : Type} {id : ι → ℕ} (hi : ∀ a b, id a = id b → a = b) (M : Matrix ι ι ℝ) (x y : Fin 3 → ι)
    (hx : ∀ k : Fin 3, id (x k) = id (x 0) + k) (hy : ∀ k : Fin 3, id (y k) = id (y 0) + k) (arr : Fin 36 → ℝ) :
    ∃ arr', fillArray 6 (readAt id M) (twoIds (id (x 0)) (id (y 0))) arr = some arr' ∧
      IsBlocks arr' (fun i j => M (x i) (x j)) (fun i j => M (x i) (y j)) (fun i j => M (y i) (x j)) (fun i j => M (y i) (y j)) := by
  let z : ℕ → ι := fun i => if h : i < 3 then x ⟨i, h⟩ else if h : i - 3 < 3 then y ⟨i - 3, h⟩ else x 0
  have hz : ∀ i < 6, twoIds (id (x 0)) (id (y 0)) i = id (z i) := by
    intro i hi6
    by_cases h : i < 3
    · have e := hx ⟨i, h⟩
      simp only [z, dif_pos h, twoIds, e]
      rw [if_neg (by omega)]
    · have h3 : i - 3 < 3 := by omega
      have e := hy ⟨i - 3, h3⟩
      simp only [z, dif_neg h, dif_pos h3, twoIds, e]
      rw [if_pos (by omega)]
      omega
  obtain ⟨arr', h1, h2⟩ := fillArray_eq 6 (readAt id M) (twoIds (id (x 0)) (id (y 0))) (fun i j => M (z i) (z j))
    (fun i hi6 j hj6 => by rw [hz i hi6, hz j hj6]; exact readAt_id hi M _ _) arr
  have zx : ∀ i : Fin 3, z i = x i := fun i => by simp only [z, dif_pos i.2]
  have zy : ∀ i : Fin 3, z (3 + i) = y i := fun i => by
    have h : ¬ (3 + (i : ℕ) < 3) := by omega
    have h' : 3 + (i : ℕ) - 3 < 3 := by omega
    simp only [z, dif_neg h, dif_pos h']
    congr 1
    exact Fin.ext (by simp)
  refine ⟨arr', h1, fun i j => ⟨?_, ?_, ?_, ?_⟩⟩
  · exact (h2 i (by omega) j (by omega) _).trans (by rw [zx, zx])
  · exact (h2 i (by omega) (3 + j) (by omega) _).trans (by rw [zx, zy])
  · exact (h2 (3 + i) (by omega) j (by omega) _).trans (by rw [zx, zy])
  · exact (h2 (3 + i) (by omega) (3 + j) (by omega) _).trans (by rw [zy, zy])

/-! ### The entries of the IMU output's covariance -/

lemma quad_entry {ι κ : Type*} [Fintype ι] (J : Matrix κ ι ℝ) (P : Matrix ι ι ℝ) (a c : κ) : (J * P * Jᵀ) a c = ∑ u, ∑ v, J a u * P u v * J c v := by
  simp only [Matrix.mul_apply, transpose_apply, Finset.sum_mul]
  rw [Finset.sum_comm]

namespace State

variable (s : State n nCam nPose)

lemma imu_row_pos (k : Fin 3) : stdMat s.imuJac (.pos k) = Pi.single (.pos k : Ix n nCam nPose) 1 := by
  funext b
  simp only [stdMat, imuJac, DStdOut.get, M3.one_mulVec, DState.unit, DState.ofFn]
  fin_cases k <;> simp [V3.at, Pi.single_apply, eq_comm]

lemma imu_row_vel (k : Fin 3) : stdMat s.imuJac (.vel k) = -Pi.single (.vel k : Ix n nCam nPose) 1 := by
  funext b
  simp only [stdMat, imuJac, DStdOut.get, DState.unit, DState.ofFn]
  fin_cases k <;> simp [V3.at, M3.mulVec, M3.one, V3.dot, Pi.single_apply, eq_comm] <;> split_ifs <;> simp

lemma imu_row_ror (k : Fin 3) : stdMat s.imuJac (.ror k) = -Pi.single (.gyb k : Ix n nCam nPose) 1 := by
  funext b
  simp only [stdMat, imuJac, DStdOut.get, DState.unit, DState.ofFn]
  fin_cases k <;> simp [V3.at, M3.mulVec, M3.one, V3.dot, Pi.single_apply, eq_comm] <;> split_ifs <;> simp

lemma imu_row_att (k : Fin 3) : stdMat s.imuJac (.att k) = fun b => ∑ l, -(s.att.inv.mat.ent k l) * (Pi.single (.att l : Ix n nCam nPose) 1 : _ → ℝ) b := by
  funext b
  simp only [stdMat, imuJac, DStdOut.get, DState.unit, DState.ofFn, Fin.sum_univ_three]
  fin_cases k <;> simp [V3.at, M3.mulVec, M3.ent, V3.dot, Pi.single_apply, eq_comm]

lemma sum_quad_pos_pos (P : Cov n nCam nPose) (i j : Fin 3) : s.stdCov s.imuJac P (.pos i) (.pos j) = P (.pos i) (.pos j) := by
  show (stdMat s.imuJac * P * (stdMat s.imuJac)ᵀ) _ _ = _
  rw [quad_entry, imu_row_pos, imu_row_pos]
  simp [Pi.single_apply]

lemma sum_quad_pos_att (P : Cov n nCam nPose) (i j : Fin 3) :
    s.stdCov s.imuJac P (.pos i) (.att j) = -∑ l, s.att.inv.mat.ent j l * P (.pos i) (.att l) := by
  show (stdMat s.imuJac * P * (stdMat s.imuJac)ᵀ) _ _ = _
  rw [quad_entry, imu_row_pos, imu_row_att]
  simp [Pi.single_apply, Fin.sum_univ_three, mul_add, Finset.sum_add_distrib]
  ring

lemma sum_quad_att_pos (P : Cov n nCam nPose) (i j : Fin 3) :
    s.stdCov s.imuJac P (.att i) (.pos j) = -∑ k, s.att.inv.mat.ent i k * P (.att k) (.pos j) := by
  show (stdMat s.imuJac * P * (stdMat s.imuJac)ᵀ) _ _ = _
  rw [quad_entry, imu_row_pos, imu_row_att]
  simp [Pi.single_apply, Fin.sum_univ_three, add_mul, Finset.sum_add_distrib]
  ring

lemma sum_quad_att_att (P : Cov n nCam nPose) (i j : Fin 3) :
    s.stdCov s.imuJac P (.att i) (.att j) = ∑ k, ∑ l, s.att.inv.mat.ent i k * P (.att k) (.att l) * s.att.inv.mat.ent j l := by
  show (stdMat s.imuJac * P * (stdMat s.imuJac)ᵀ) _ _ = _
  rw [quad_entry, imu_row_att, imu_row_att]
  simp [Pi.single_apply, Fin.sum_univ_three, add_mul, mul_add, Finset.sum_add_distrib]
  ring

lemma sum_quad_vel_vel (P : Cov n nCam nPose) (i j : Fin 3) : s.stdCov s.imuJac P (.vel i) (.vel j) = P (.vel i) (.vel j) := by
  show (stdMat s.imuJac * P * (stdMat s.imuJac)ᵀ) _ _ = _
  rw [quad_entry, imu_row_vel, imu_row_vel]
  simp [Pi.single_apply]

lemma sum_quad_vel_ror (P : Cov n nCam nPose) (i j : Fin 3) : s.stdCov s.imuJac P (.vel i) (.ror j) = P (.vel i) (.gyb j) := by
  show (stdMat s.imuJac * P * (stdMat s.imuJac)ᵀ) _ _ = _
  rw [quad_entry, imu_row_vel, imu_row_ror]
  simp [Pi.single_apply]

lemma sum_quad_ror_vel (P : Cov n nCam nPose) (i j : Fin 3) : s.stdCov s.imuJac P (.ror i) (.vel j) = P (.gyb i) (.vel j) := by
  show (stdMat s.imuJac * P * (stdMat s.imuJac)ᵀ) _ _ = _
  rw [quad_entry, imu_row_vel, imu_row_ror]
  simp [Pi.single_apply]

lemma sum_quad_ror_ror (P : Cov n nCam nPose) (i j : Fin 3) :
    s.stdCov s.imuJac P (.ror i) (.ror j) = P (.gyb i) (.gyb j) + s.aux.wMeasCov.ent i j := by
  show (stdMat s.imuJac * P * (stdMat s.imuJac)ᵀ) _ _ + _ = _
  rw [quad_entry, imu_row_ror, imu_row_ror]
  simp [Pi.single_apply]

end State

/-! ### C75 -/

/-- C75: the pose covariance of the odometry and pose messages: the position block is the covariance of the estimated position,
the rotation block the covariance of the estimated attitude error rotated into the body frame, and the off-diagonal blocks
their correlations (the published attitude is the inverse of the estimated one, hence the sign). -/
theorem C75_pose (s : State n nCam nPose) (P : Cov n nCam nPose) (arr : Fin 36 → ℝ) :
    ∃ arr', s.poseArray P arr = some arr' ∧
      IsBlocks arr'
        (fun i j => P (.pos i) (.pos j))
        (fun i j => -∑ l, s.att.inv.mat.ent j l * P (.pos i) (.att l))
        (fun i j => -∑ k, s.att.inv.mat.ent i k * P (.att k) (.pos j))
        (fun i j => ∑ k, ∑ l, s.att.inv.mat.ent i k * P (.att k) (.att l) * s.att.inv.mat.ent j l) := by
  obtain ⟨arr', h1, h2⟩ := fill_two (fun _ _ => OutIx.id_inj) (s.stdCov s.imuJac P) OutIx.pos OutIx.att (fun k => by simp [OutIx.id])
    (fun k => by simp [OutIx.id]) arr
  refine ⟨arr', h1, ?_⟩
  simpa only [s.sum_quad_pos_pos, s.sum_quad_pos_att, s.sum_quad_att_pos, s.sum_quad_att_att] using h2

/-- C75: the twist covariance of the odometry message: the velocity block is the covariance of the estimated velocity, the rate
block the covariance of the gyroscope bias plus the covariance of the gyroscope measurement. -/
theorem C75_twist (s : State n nCam nPose) (P : Cov n nCam nPose) (arr : Fin 36 → ℝ) :
    ∃ arr', s.twistArray P arr = some arr' ∧
      IsBlocks arr' (fun i j => P (.vel i) (.vel j)) (fun i j => P (.vel i) (.gyb j)) (fun i j => P (.gyb i) (.vel j))
        (fun i j => P (.gyb i) (.gyb j) + s.aux.wMeasCov.ent i j) := by
  obtain ⟨arr', h1, h2⟩ := fill_two (fun _ _ => OutIx.id_inj) (s.stdCov s.imuJac P) OutIx.vel OutIx.ror (fun k => by simp [OutIx.id])
    (fun k => by simp [OutIx.id]) arr
  refine ⟨arr', h1, ?_⟩
  simpa only [s.sum_quad_vel_vel, s.sum_quad_vel_ror, s.sum_quad_ror_vel, s.sum_quad_ror_ror] using h2

/-- C75: the covariance of camera `c`'s extrinsics message is the covariance of its position and rotation. -/
theorem C75_extrinsics (P : Cov n nCam nPose) (c : Fin nCam) (arr : Fin 36 → ℝ) :
    ∃ arr', State.extrinsicsArray P c arr = some arr' ∧
      IsBlocks arr' (fun i j => P (.vep c i) (.vep c j)) (fun i j => P (.vep c i) (.vea c j)) (fun i j => P (.vea c i) (.vep c j))
        (fun i j => P (.vea c i) (.vea c j)) :=
  fill_two (fun _ _ => Ix.id_inj) P (Ix.vep c) (Ix.vea c) (fun k => by simp [Ix.id]) (fun k => by simp [Ix.id]) arr

/-- C75: the covariances of the bias message are the covariances of the two biases. -/
theorem C75_bias (P : Cov n nCam nPose) (arr arr' : Fin 9 → ℝ) :
    ∃ g a, State.biasArrays P arr arr' = (some g, some a) ∧
      ∀ i j : Fin 3, g ⟨3 * i + j, by omega⟩ = P (.gyb i) (.gyb j) ∧ a ⟨3 * i + j, by omega⟩ = P (.acb i) (.acb j) := by
  have key : ∀ (x : Fin 3 → Ix n nCam nPose) (_ : ∀ k : Fin 3, (x k).id = (x 0).id + k) (arr : Fin 9 → ℝ),
      ∃ r, fillArray 3 (readAt Ix.id P) (fun i => (x 0).id + i) arr = some r ∧ ∀ i j : Fin 3, r ⟨3 * i + j, by omega⟩ = P (x i) (x j) := by
    intro x hx arr
    obtain ⟨r, h1, h2⟩ := fillArray_eq 3 (readAt Ix.id P) (fun i => (x 0).id + i)
      (fun i j => P (x (if h : i < 3 then ⟨i, h⟩ else 0)) (x (if h : j < 3 then ⟨j, h⟩ else 0)))
      (fun i hi j hj => by
        simp only [dif_pos hi, dif_pos hj]
        have e1 := hx ⟨i, hi⟩
        have e2 := hx ⟨j, hj⟩
        simp only at e1 e2
        rw [← e1, ← e2]
        exact readAt_id (fun _ _ => Ix.id_inj) P _ _) arr
    refine ⟨r, h1, fun i j => ?_⟩
    have := h2 i i.2 j j.2 (by omega)
    simpa using this
  obtain ⟨g, g1, g2⟩ := key Ix.gyb (fun k => by simp [Ix.id]) arr
  obtain ⟨a, a1, a2⟩ := key Ix.acb (fun k => by simp [Ix.id]) arr'
  exact ⟨g, a, Prod.ext g1 a1, fun i j => ⟨g2 i j, a2 i j⟩⟩

instance : Fintype OutIx :=
  Fintype.ofSurjective
    (fun x : Fin 4 × Fin 3 => match x with
      | (0, k) => .pos k
      | (1, k) => .vel k
      | (2, k) => .ror k
      | (3, k) => .att k)
    (fun a => by
      cases a with
      | pos k => exact ⟨(0, k), rfl⟩
      | vel k => exact ⟨(1, k), rfl⟩
      | ror k => exact ⟨(2, k), rfl⟩
      | att k => exact ⟨(3, k), rfl⟩)

/-- C75: the published covariances are covariances (symmetric and positive semi-definite) whenever the filter's covariance and
the covariance of the measured rate are: of the whole output, hence of every block read from it, for the IMU and for every
camera. -/
theorem C75_cov (s : State n nCam nPose) {P : Cov n nCam nPose} (hP : IsCov P) (hw : IsCov (Matrix.of fun i j => s.aux.wMeasCov.ent i j))
    (J : DState n nCam nPose → DStdOut) : IsCov (s.stdCov J P) := by
  have hE : s.stdCov J P = State.stdMat J * P * (State.stdMat J)ᵀ +
      (Matrix.of fun (a : OutIx) (k : Fin 3) => if a = .ror k then (1:ℝ) else 0) * (Matrix.of fun i j => s.aux.wMeasCov.ent i j) *
        (Matrix.of fun (a : OutIx) (k : Fin 3) => if a = .ror k then (1:ℝ) else 0)ᵀ := by
    ext a b
    rw [Matrix.add_apply, quad_entry (Matrix.of fun (a : OutIx) (k : Fin 3) => if a = .ror k then (1:ℝ) else 0)]
    cases a <;> cases b <;> simp [State.stdCov, State.postProcess]
  rw [hE]
  exact (hP.conj _).add (hw.conj _)

/-- Non-vacuity of `C75_cov`. -/
example : IsCov ((0.01 : ℝ) • (1 : Cov 1 2 1)) ∧ IsCov (Matrix.of fun i j => ((0.25 : ℝ) • M3.one).ent i j) := by
  have h : ∀ {ι : Type} [Fintype ι] [DecidableEq ι] (r : ℝ), 0 ≤ r → IsCov (r • (1 : Matrix ι ι ℝ)) := by
    intro ι _ _ r hr
    refine ⟨by simp, fun x => ?_⟩
    rw [Matrix.smul_mulVec, Matrix.one_mulVec, dotProduct_smul, smul_eq_mul]
    exact mul_nonneg hr (Finset.sum_nonneg fun i _ => mul_self_nonneg (x i))
  refine ⟨h _ (by norm_num), ?_⟩
  have e : (Matrix.of fun i j => ((0.25 : ℝ) • M3.one).ent i j) = (0.25 : ℝ) • (1 : Matrix (Fin 3) (Fin 3) ℝ) := by
    ext i j
    fin_cases i <;> fin_cases j <;> simp [M3.ent, M3.one, V3.at]
  rw [e]
  exact h _ (by norm_num)

/-- C42 (finding): for an anisotropic rate noise the covariance published for the rate of a rotated camera is not the one of its
rate, already when the biases are known exactly. -/
theorem C42_finding_rate_covariance : ∃ (s : State 1 2 1) (c : Fin 2), (∀ k, (s.qCM k).IsUnit) ∧
    ∃ i j, s.stdCov (s.camJac c) 0 (.ror i) (.ror j) ≠ (((s.qCM c).mat.mul s.aux.wMeasCov).mul (s.qCM c).mat.tr).ent i j := by
  refine ⟨{ demoState false 0 with aux := { (demoState false 0).aux with wMeasCov := ⟨⟨1, 0, 0⟩, ⟨0, 1, 0⟩, ⟨0, 0, 4⟩⟩ } }, 1, ?_, 0, 0, fun h => ?_⟩
  · exact demoState_qCM false 0
  · simp [State.stdCov, State.postProcess, demoState, State.qCM, M3.mul, M3.tr, M3.c1, M3.c2, M3.c3, Quat.mat, V3.dot, M3.ent, V3.at] at h
    norm_num at h

/-! ### C76 -/

/-- C76: the readable form of a feature is its unit bearing vector and its distance. -/
theorem C76_readable (f : Fea) (hv : f.c.validNor = true) (hu : f.c.nor.q.IsUnit) :
    ∃ b d, f.readable = some (b, d) ∧ b.norm = 1 ∧ f.c.nor.vec = b ∧ d = getDistance f.d := by
  refine ⟨f.c.nor.vec, getDistance f.d, ?_, Nor.norm_vec hu, rfl, rfl⟩
  unfold Fea.readable
  rw [MultiCamera.getNor_of_valid hv]
  rfl

/-- C76: the Jacobian of the readable form is its derivative. -/
theorem C76_jacobian (f : Fea) (hv : f.c.validNor = true) (hu : f.c.nor.q.IsUnit) (hun : Unclamped f.d.type f.d.p) (dn : V2) (dp : ℝ) :
    ∃ (r : ℝ → V3 × ℝ) (J : V3 × ℝ), (∀ t, (f.boxPlus (t • dn) (t * dp)).readable = some (r t)) ∧ f.readableJac dn dp = some J ∧
      HasDerivV3 (fun t => (r t).1) J.1 0 ∧ HasDerivAt (fun t => (r t).2) J.2 0 := by
  refine ⟨fun t => ((f.c.nor.boxPlus (t • dn)).vec, getDistance ⟨f.d.type, f.d.p + t * dp⟩), (f.c.nor.M dn, getDistanceDerivative f.d * dp), fun t => ?_, ?_, ?_, ?_⟩
  · unfold Fea.readable
    rw [Fea.getNor_boxPlus]
    rfl
  · unfold Fea.readableJac
    rw [MultiCamera.getNor_of_valid hv]
    rfl
  · exact f.deriv_nor hu dn
  · exact f.deriv_dist hun dp

/-- The rows of feature `i` in the order of the feature output: two bearing components, then the distance parameter. -/
def outSlot (i : Fin n) : Fin 3 → Ix n nCam nPose := ![.nor i 0, .nor i 1, .dep i]

/-- The matrix selecting the rows `f k`. -/
def selMat {ι κ : Type*} [DecidableEq ι] (f : κ → ι) : Matrix κ ι ℝ := Matrix.of fun k => Pi.single (f k) 1

lemma State.featureMat_own (s : State n nCam nPose) (sfv : V3 → Nor) (i : Fin n) (a : Fin nCam) (h : (s.fea i).c.camID = a.val) :
    s.featureMat sfv i a = some (selMat (outSlot i)) := by
  have e : ∀ c : Ix n nCam nPose, s.featureJac sfv false i a (DState.unit c) = some ((DState.unit c).nor i, (DState.unit c).dep i) := by
    intro c
    unfold State.featureJac
    rw [if_neg (not_not.mpr h)]
  have he : ∀ c : Ix n nCam nPose, (s.featureJac sfv false i a (DState.unit c)).isSome := fun c => by rw [e c]; rfl
  unfold State.featureMat
  rw [dif_pos he]
  congr 1
  funext k c
  have g : (s.featureJac sfv false i a (DState.unit c)).get (he c) = ((DState.unit c).nor i, (DState.unit c).dep i) := Option.get_of_eq_some _ (e c)
  rw [g]
  fin_cases k <;> simp [selMat, outSlot, DState.unit, DState.ofFn, Pi.single_apply, eq_comm]

lemma submatrix_quad {ι κ : Type*} [Fintype ι] [DecidableEq ι] (f : κ → ι) (P : Matrix ι ι ℝ) (a c : κ) :
    (selMat f * P * (selMat f)ᵀ) a c = P (f a) (f c) := by
  rw [quad_entry]
  simp [selMat, Pi.single_apply]

/-- C76: for a feature in use, what the point cloud reports as its bearing and distance is its bearing vector and distance; the
reported distance variance is the variance of its parameter scaled by the square of the distance derivative, the bearing block
the covariance of the bearing expressed in space, and the remaining entries their correlation. -/
theorem C76_published (s : State n nCam nPose) (mc : MultiCamera nCam) (sfv : V3 → Nor) (i : Fin n) (a : Fin nCam) (h : Usable s i a)
    (hw : (s.fea i).c.trackWarping = false ∨ (s.fea i).c.validWarpNor = true) (out : Fea) (P : Cov n nCam nPose) :
    ∃ C, s.readableOut mc sfv i out P = some (((s.fea i).c.nor.vec, getDistance (s.fea i).d), C) ∧
      C 3 3 = getDistanceDerivative (s.fea i).d ^ 2 * P (.dep i) (.dep i) ∧
      (∀ r r' : Fin 3, C r.castSucc r'.castSucc =
        ∑ k : Fin 2, ∑ l : Fin 2, (![(s.fea i).c.nor.M ⟨1, 0⟩, (s.fea i).c.nor.M ⟨0, 1⟩] k).at r * P (.nor i k) (.nor i l) *
          (![(s.fea i).c.nor.M ⟨1, 0⟩, (s.fea i).c.nor.M ⟨0, 1⟩] l).at r') ∧
      (∀ r : Fin 3, C r.castSucc 3 =
        ∑ k : Fin 2, (![(s.fea i).c.nor.M ⟨1, 0⟩, (s.fea i).c.nor.M ⟨0, 1⟩] k).at r * P (.nor i k) (.dep i) * getDistanceDerivative (s.fea i).d) := by
  obtain ⟨f, hf, hn, hv, hd⟩ : ∃ f, s.featureOut mc sfv i a out = some f ∧ f.c.nor = (s.fea i).c.nor ∧ f.c.validNor = true ∧ f.d = (s.fea i).d := by
    unfold State.featureOut MultiCamera.transformFeature
    simp only [h.cam, ne_eq, not_true_eq_false, if_false, Option.bind_eq_bind, Option.bind_some, Option.pure_def]
    by_cases ht : (s.fea i).c.trackWarping = true
    · have hv := hw.resolve_left (by rw [ht]; simp)
      simp only [ht, if_true, FC.comWarpNor, hv, Option.bind_some, h.cam, camIdx_val, MultiCamera.getNor_of_valid h.nor, FC.getWarpNor,
        Option.bind_eq_bind, Option.pure_def]
      exact ⟨_, rfl, rfl, h.nor, rfl⟩
    · simp only [ht, Bool.false_eq_true, if_false]
      exact ⟨_, rfl, rfl, h.nor, rfl⟩
  have hr : f.readable = some ((s.fea i).c.nor.vec, getDistance (s.fea i).d) := by
    unfold Fea.readable
    rw [MultiCamera.getNor_of_valid hv, ← hn, ← hd]
    rfl
  have hJ : ∀ dn dp, f.readableJac dn dp = some ((s.fea i).c.nor.M dn, getDistanceDerivative (s.fea i).d * dp) := by
    intro dn dp
    unfold Fea.readableJac
    rw [MultiCamera.getNor_of_valid hv, ← hn, ← hd]
    rfl
  unfold State.readableOut Fea.readableMat
  simp only [h.cam, camIdx_val, hf, hr, hJ, s.featureMat_own sfv i a h.cam, Option.bind_eq_bind, Option.bind_some, Option.pure_def]
  have hz : (s.fea i).c.nor.M ⟨0, 0⟩ = 0 := by ext <;> simp [Nor.M]
  refine ⟨_, rfl, ?_, fun r r' => ?_, fun r => ?_⟩
  · rw [quad_entry]
    simp only [submatrix_quad, Fin.sum_univ_three]
    simp [outSlot]
    ring
  · rw [quad_entry]
    simp only [submatrix_quad, Fin.sum_univ_three, Fin.sum_univ_two]
    fin_cases r <;> fin_cases r' <;> simp [outSlot, hz, V3.at]
  · rw [quad_entry]
    simp only [submatrix_quad, Fin.sum_univ_three, Fin.sum_univ_two]
    fin_cases r <;> simp [outSlot, hz, V3.at]

/-- C76: the published distance variance is that of the distance to first order: the square of the derivative of the distance
with respect to the estimated parameter, times the variance of the parameter. -/
theorem C76_distance_variance (s : State n nCam nPose) (mc : MultiCamera nCam) (sfv : V3 → Nor) (i : Fin n) (a : Fin nCam) (h : Usable s i a)
    (hw : (s.fea i).c.trackWarping = false ∨ (s.fea i).c.validWarpNor = true) (hun : Unclamped (s.fea i).d.type (s.fea i).d.p) (out : Fea)
    (P : Cov n nCam nPose) {g : ℝ} (hg : HasDerivAt (fun p => getDistance ⟨(s.fea i).d.type, p⟩) g (s.fea i).d.p) :
    ∃ r C, s.readableOut mc sfv i out P = some (r, C) ∧ C 3 3 = g ^ 2 * P (.dep i) (.dep i) := by
  obtain ⟨C, h1, h2, _⟩ := C76_published s mc sfv i a h hw out P
  refine ⟨_, C, h1, ?_⟩
  rw [h2, hg.unique (C02_distance_derivative _ _ hun)]

/-- C76: the covariance of the readable output and of the landmark are covariances whenever the filter's covariance is one. -/
theorem C76_cov (s : State n nCam nPose) (mc : MultiCamera nCam) (sfv : V3 → Nor) (i : Fin n) (out : Fea) {P : Cov n nCam nPose} (hP : IsCov P) :
    (∀ r C, s.readableOut mc sfv i out P = some (r, C) → IsCov C) ∧ ∀ C, s.landmarkCov mc i P = some C → IsCov C := by
  refine ⟨fun r C h => ?_, fun C h => ?_⟩
  · unfold State.readableOut at h
    simp only [Option.bind_eq_bind, Option.bind_eq_some_iff, Option.pure_def, Option.some.injEq, Prod.mk.injEq] at h
    obtain ⟨b, -, f, -, J, -, r', -, R, -, -, rfl⟩ := h
    exact (hP.conj _).conj _
  · unfold State.landmarkCov at h
    simp only [Option.bind_eq_bind, Option.bind_eq_some_iff, Option.pure_def, Option.some.injEq] at h
    obtain ⟨J, -, rfl⟩ := h
    exact hP.conj _

/-- C76: without online calibration, the landmark covariance published in the point cloud is the covariance of the landmark to
first order: with `B` the 3x3 matrix of the landmark's change per bearing component and distance parameter, it is `B P_f Bᵀ`,
`P_f` the feature's block of the filter's covariance. -/
theorem C76_landmark (s : State n nCam nPose) (mc : MultiCamera nCam) (i : Fin n) (a : Fin nCam) (h : Usable s i a) (hve : s.aux.doVE = false)
    (P : Cov n nCam nPose) :
    let B : Fin 3 → V3 := ![(s.qCM a).inv.rotate (getDistance (s.fea i).d • (s.fea i).c.nor.M ⟨1, 0⟩),
      (s.qCM a).inv.rotate (getDistance (s.fea i).d • (s.fea i).c.nor.M ⟨0, 1⟩),
      (s.qCM a).inv.rotate (getDistanceDerivative (s.fea i).d • (s.fea i).c.nor.vec)]
    ∃ C, s.landmarkCov mc i P = some C ∧
      ∀ r r', C r r' = ∑ k, ∑ l, (B k).at r * P (outSlot i k) (outSlot i l) * (B l).at r' := by
  intro B
  have hJ : ∀ δ : DState n nCam nPose, s.landmarkJac mc i δ = some ((δ.nor i).x • B 0 + (δ.nor i).y • B 1 + δ.dep i • B 2) := by
    intro δ
    rw [landmarkJac_usable s mc i a h]
    simp only [hve, Bool.false_eq_true, if_false, Quat.mat_mulVec, B]
    congr 1
    have e : (s.fea i).c.nor.M (δ.nor i) = (δ.nor i).x • (s.fea i).c.nor.M ⟨1, 0⟩ + (δ.nor i).y • (s.fea i).c.nor.M ⟨0, 1⟩ := by
      ext <;> simp [Nor.M]
    rw [e]
    simp only [Quat.rotate_smul, Quat.rotate_add]
    simp
    ext <;> simp <;> ring
  clear_value B
  have hs : ∀ c : Ix n nCam nPose, (s.landmarkJac mc i (DState.unit c)).isSome := fun c => by rw [hJ]; rfl
  have hM : s.landmarkMat mc i = some ((Matrix.of fun (r k : Fin 3) => (B k).at r) * selMat (outSlot i : Fin 3 → Ix n nCam nPose)) := by
    unfold State.landmarkMat
    rw [dif_pos hs]
    congr 1
    funext r c
    rw [Option.get_of_eq_some _ (hJ (DState.unit c)), Matrix.mul_apply, Fin.sum_univ_three]
    simp only [Matrix.of_apply, selMat, outSlot, DState.unit, DState.ofFn]
    fin_cases r <;> simp [V3.at, Pi.single_apply, eq_comm] <;> split_ifs <;> simp
  unfold State.landmarkCov
  rw [hM]
  refine ⟨_, rfl, fun r r' => ?_⟩
  rw [Matrix.transpose_mul, ← Matrix.mul_assoc, Matrix.mul_assoc (Matrix.of _), Matrix.mul_assoc (Matrix.of _), quad_entry]
  simp only [submatrix_quad, Matrix.of_apply]

/-- Non-vacuity of `C76_published`, `C76_distance_variance` and `C76_landmark`: a feature of the second camera. -/
example : Usable (demoState false 1) 0 1 ∧ (((demoState false 1).fea 0).c.trackWarping = false ∨ ((demoState false 1).fea 0).c.validWarpNor = true) ∧
    Unclamped ((demoState false 1).fea 0).d.type ((demoState false 1).fea 0).d.p ∧ (demoState false 1).aux.doVE = false ∧
    IsCov (1 : Cov 1 2 1) :=
  ⟨⟨rfl, rfl, Quat.isUnit_one⟩, .inr rfl, by norm_num [demoState, Unclamped, abs_of_pos], rfl, by simp, fun x => by
    rw [Matrix.one_mulVec]; exact Finset.sum_nonneg fun i _ => mul_self_nonneg (x i)⟩

end Rovio
