import Verif.Spec.Unseen
import Verif.Lemmas.Gauge

/-! # Lemmas for C97: unobservable uncertainty is carried along -/

namespace Rovio

open Matrix Spec Distance

variable {n nCam nPose k : ℕ} {L : Matrix (Ix n nCam nPose) (Fin k) ℝ}

lemma Spec.Unseen.other {v : Ix n nCam nPose → ℝ} (h : Unseen v) {a : Ix n nCam nPose} (ha : a.isWorld = false) : v a = 0 :=
  h.2.2 a fun k => ⟨(by rintro rfl; cases ha), (by rintro rfl; cases ha)⟩

/-- Products with unseen errors: only the columns of position and heading count. -/
lemma mul_unseen {σ : Type} (A : Matrix σ (Ix n nCam nPose) ℝ) (h : ∀ j, Unseen fun a => L a j) (r : σ) (j : Fin k) :
    (A * L) r j = (∑ l, A r (.pos l) * L (.pos l) j) + A r (.att 2) * L (.att 2) j := by
  classical
  rw [Matrix.mul_apply]
  have h0 : ∀ b : Ix n nCam nPose, b ∉ (Finset.univ.image fun l : Fin 3 => (Ix.pos l : Ix n nCam nPose)) ∪ {Ix.att 2} → A r b * L b j = 0 := by
    intro b hb
    simp only [Finset.mem_union, Finset.mem_image, Finset.mem_univ, true_and, Finset.mem_singleton, not_or, not_exists] at hb
    have : L b j = 0 := by
      cases b with
      | pos l => exact absurd rfl (hb.1 l)
      | att l =>
        fin_cases l
        · exact (h j).1
        · exact (h j).2.1
        · exact absurd rfl hb.2
      | _ => exact (h j).other rfl
    rw [this, mul_zero]
  rw [← Finset.sum_subset (Finset.subset_univ _) fun b _ hb => h0 b hb, Finset.sum_union (by
    rw [Finset.disjoint_singleton_right]; simp), Finset.sum_image (fun a _ b _ h => by simpa using h), Finset.sum_singleton]

/-- Matrices without world columns do not see them. -/
lemma mul_unseen_zero {σ : Type} {H : Matrix σ (Ix n nCam nPose) ℝ} (hH : ∀ r b, b.isWorld = true → H r b = 0) (h : ∀ j, Unseen fun a => L a j) : H * L = 0 := by
  ext r j
  rw [mul_unseen H h, hH r _ rfl]
  simp [hH r (.pos _) rfl]

lemma symm_add (P : Cov n nCam nPose) : symm (P + L * Lᵀ) = symm P + L * Lᵀ := by
  simp only [symm, Matrix.transpose_add, Matrix.transpose_mul, Matrix.transpose_transpose]
  ext a b
  simp only [Matrix.smul_apply, Matrix.add_apply, smul_eq_mul]
  norm_num
  ring

section correct

variable {m : ℕ} {gate : Gate m} {y : Fin m → ℝ} {H : Matrix (Fin m) (Ix n nCam nPose) ℝ} {R : Matrix (Fin m) (Fin m) ℝ} {P : Cov n nCam nPose}

lemma mul_wide (h : H * L = 0) : H * (P + L * Lᵀ) * Hᵀ = H * P * Hᵀ := by
  rw [Matrix.mul_add, ← Matrix.mul_assoc, h, Matrix.zero_mul, add_zero]

lemma wide_mul {H : Matrix (Fin m) (Ix n nCam nPose) ℝ} (h : H * L = 0) : (P + L * Lᵀ) * Hᵀ = P * Hᵀ := by
  rw [Matrix.add_mul, Matrix.mul_assoc L, ← Matrix.transpose_mul, h, Matrix.transpose_zero, Matrix.mul_zero, add_zero]

lemma correct_wide (hH : ∀ r b, b.isWorld = true → H r b = 0) (hL : ∀ j, Unseen fun a => L a j) :
    correct gate y H R (P + L * Lᵀ) = (correct gate y H R P).map fun r => (r.1, r.2 + L * Lᵀ) := by
  classical
  have h := mul_unseen_zero hH hL
  have hS : innS gate y H R (P + L * Lᵀ) = innS gate y H R P := by unfold innS; rw [mul_wide h]
  have hH' : innH gate y H R (P + L * Lᵀ) = innH gate y H R P := by unfold innH; rw [mul_wide h]
  have hi : innH gate y H R P * L = 0 := by
    refine mul_unseen_zero (fun r b hb => ?_) hL
    simp only [innH, Matrix.of_apply]
    split_ifs
    · rfl
    · exact hH r b hb
  have hK : gain gate y H R (P + L * Lᵀ) = gain gate y H R P := by
    unfold gain
    rw [hS, hH', wide_mul hi]
  rw [correct_eq, correct_eq, hS, hK]
  by_cases hd : (innS gate y H R P).det = 0
  · rw [if_pos hd, if_pos hd]; rfl
  · rw [if_neg hd, if_neg hd]
    simp only [Option.map_some, Option.some.injEq, Prod.mk.injEq, true_and]
    rw [add_sub_right_comm]

lemma finish_wide {x x' : FSt n nCam nPose} (hw : Widened L x x') (hH : ∀ r b, b.isWorld = true → H r b = 0) :
    Both (Widened L) (x.finish gate y H R id) (x'.finish gate y H R id) := by
  unfold FSt.finish
  rw [hw.P, correct_wide hH hw.unseen, hw.s]
  cases correct gate y H R x.P with
  | none => exact .none
  | some r =>
    simp only [Option.map_some, Option.bind_eq_bind, Option.bind_some, id]
    cases (x.s.boxPlus (DState.ofFn r.1)).fix with
    | none => exact .none
    | some s => exact .some ⟨rfl, symm_add _, hw.u, hw.unseen⟩

end correct

lemma image_wide (cfg : FCfg n nCam nPose) (c : ImgCorr n nCam) {x y : FSt n nCam nPose} (hw : Widened L x y) : Both (Widened L) (x.image cfg c) (y.image cfg c) := by
  unfold FSt.image
  rw [hw.s]
  cases hJ : colMat fun b' => ((x.s.withOdo c.lin).featureJac cfg.sfv true c.i c.b (DState.unit b')).map fun r => r.1.at with
  | none => exact .none
  | some J =>
    simp only [Option.bind_eq_bind, Option.bind_some]
    refine finish_wide hw fun r b' hb => ?_
    have h := colMat_some hJ b'
    simp only [Option.map_eq_some_iff] at h
    obtain ⟨v, hv, he⟩ := h
    rw [Matrix.mul_apply]
    refine Finset.sum_eq_zero fun k _ => ?_
    rw [← congrFun he k, State.featureJac_world (DState.world_unit hb) hv, V2.at_zero, mul_zero]

lemma keep_unseen (hL : ∀ j, Unseen fun a => L a j) (i : Fin n) : keepMat i * L = L := by
  classical
  ext a j
  simp only [keepMat, Matrix.diagonal_mul]
  by_cases ha : a.isWorld = true
  · rw [if_pos (Spec.Shift.keep_world ha i), one_mul]
  · rw [(hL j).other (by simpa using ha), mul_zero]

lemma reset_wide (hL : ∀ j, Unseen fun a => L a j) (P : Cov n nCam nPose) (i : Fin n) (C : Matrix (Fin 3) (Fin 3) ℝ) :
    (P + L * Lᵀ).resetFeature i C = P.resetFeature i C + L * Lᵀ := by
  rw [resetFeature_eq, resetFeature_eq]
  have h1 := keep_unseen hL i
  have h2 := congrArg Matrix.transpose h1
  rw [Matrix.transpose_mul] at h2
  rw [Matrix.mul_add, Matrix.add_mul, ← Matrix.mul_assoc (keepMat i) L, h1, Matrix.mul_assoc L, h2]
  abel

lemma manage_wide (r : Manage n nCam) {x y : FSt n nCam nPose} (hw : Widened L x y) : Widened L (x.manage r) (y.manage r) := by
  refine ⟨?_, ?_, hw.u, hw.unseen⟩
  · simp only [FSt.manage, hw.s]
  · simp only [FSt.manage, hw.P]
    generalize x.P = P
    induction r.reset generalizing P with
    | nil => rfl
    | cons p l ih =>
      simp only [List.foldl_cons, reset_wide hw.unseen]
      exact ih _

/-- What becomes of unseen errors in a prediction: those of the heading displace the position. -/
lemma predict_wide (cfg : FCfg n nCam nPose) (m : ImuMeas) (dt : ℝ) {x y : FSt n nCam nPose} (hw : Widened L x y) :
    Both (fun x' y' => ∃ (d : Fin 3 → ℝ) (L' : Matrix (Ix n nCam nPose) (Fin k) ℝ), Widened L' x' y' ∧
      (∀ j, L' (.att 2) j = L (.att 2) j) ∧ ∀ l j, L' (.pos l) j = L (.pos l) j + d l * L (.att 2) j) (x.predict cfg m dt) (y.predict cfg m dt) := by
  unfold FSt.predict
  rw [hw.s, hw.P]
  cases hF : colMat fun b => (x.s.predJac m dt (DState.unit b)).map DState.get with
  | none => exact .none
  | some F =>
    cases colMat fun b => (x.s.noiseJac m dt (DState.unit b)).map DState.get with
    | none => exact .none
    | some G =>
      cases x.s.evalPrediction cfg.pred m true x.s (DState.ofFn 0) dt with
      | none => exact .none
      | some s =>
        have hcol : ∀ b : Ix n nCam nPose, b.isWorld = true → ∀ a, F a b = (x.s.predJacOf m dt (DState.unit b) fun _ => (0, 0)).get a := by
          intro b hb a
          have h := colMat_some hF b
          simp only [Option.map_eq_some_iff, State.predJac] at h
          obtain ⟨v, ⟨z, hz, rfl⟩, he⟩ := h
          have : z = fun _ => (0, 0) := funext fun i => State.feaJac_world (DState.world_unit hb) (optAll_eq_some hz i)
          rw [← congrFun he a, this]
        have hpos : ∀ l a, F a (.pos l) = if a = Ix.pos l then 1 else 0 := by
          intro l a
          rw [hcol _ rfl, Spec.Shift.get_predJacOf_world _ m dt (DState.world_unit (b := Ix.pos l) rfl) (fun _ => rfl), (Spec.Shift.unit_pos l).1, (Spec.Shift.unit_pos l).2]
          cases a with
          | pos l' => fin_cases l <;> fin_cases l' <;> simp [Spec.Shift.e3, M3.mulVec_zero', V3.at]
          | _ => simp [M3.mulVec_zero', V3.at_zero]
        have hatt : ∀ a, F a (.att 2) = match a with
            | .pos l => ((dt • M3.skew (x.s.att.rotate x.s.vel)).mulVec ⟨0, 0, 1⟩).at l
            | .att l => if l = 2 then 1 else 0
            | _ => 0 := by
          intro a
          rw [hcol _ rfl, Spec.Shift.get_predJacOf_world _ m dt (DState.world_unit (b := Ix.att 2) rfl) (fun _ => rfl), (Spec.Shift.unit_att 2).1, (Spec.Shift.unit_att 2).2]
          have e : Spec.Shift.e3 2 = ⟨0, 0, 1⟩ := by simp [Spec.Shift.e3]
          rw [e]
          cases a with
          | pos l => simp [V3.at_zero]
          | att l => fin_cases l <;> simp [V3.at]
          | vel l =>
            have : (M3.skew gravity).mulVec ⟨0, 0, 1⟩ = 0 := by ext <;> simp [M3.skew, M3.mulVec, V3.dot, gravity]
            simp only [M3.smul_mulVec, M3.mul_mulVec, this, M3.mulVec_zero', V3.smul_zero', V3.at_zero]
          | _ => rfl
        simp only [Option.bind_eq_bind, Option.bind_some, Option.pure_def]
        have hrow : ∀ a j, (F * L) a j = (∑ l, (if a = Ix.pos l then 1 else 0) * L (.pos l) j) + F a (.att 2) * L (.att 2) j := fun a j => by
          rw [mul_unseen F hw.unseen]; simp only [hpos]
        refine .some ⟨fun l => ((dt • M3.skew (x.s.att.rotate x.s.vel)).mulVec ⟨0, 0, 1⟩).at l, F * L, ⟨rfl, ?_, hw.u, fun j => ⟨?_, ?_, fun a ha => ?_⟩⟩, fun j => ?_, fun l j => ?_⟩
        · simp only
          rw [← symm_add]
          congr 1
          rw [Matrix.transpose_mul, Matrix.mul_add, Matrix.add_mul]
          simp only [Matrix.mul_assoc]
          abel
        · simp only; rw [hrow, hatt]; simp
        · simp only; rw [hrow, hatt]; simp
        · simp only; rw [hrow, hatt]
          cases a with
          | pos l => exact absurd rfl (ha l).1
          | att l => exact absurd rfl (ha l).2
          | _ => simp
        · rw [hrow, hatt]; simp
        · rw [hrow, hatt]
          simp

lemma odo_wide (hL : ∀ j, Unseen fun a => L a j) (P : Cov n nCam nPose) : covNoWorld (P + L * Lᵀ).odo = covNoWorld P.odo := by
  ext a b
  simp only [covNoWorld, Matrix.of_apply]
  by_cases h : (a.isWorld || b.isWorld) = true
  · rw [if_pos h, if_pos h]
  · rw [if_neg h, if_neg h]
    simp only [Bool.or_eq_true, not_or, Bool.not_eq_true] at h
    have : (L * Lᵀ) (Ix.ofOdo a) (Ix.ofOdo b) = 0 := by
      rw [Matrix.mul_apply]
      refine Finset.sum_eq_zero fun j _ => ?_
      rw [(hL j).other (by rw [Spec.Shift.ofOdo_world]; exact h.1), zero_mul]
    simp only [Cov.odo, Matrix.submatrix_apply, Matrix.add_apply, this, add_zero]

lemma step_wide {L : Matrix (Ix n (nCam + 1) nPose) (Fin k) ℝ} (cfg : FCfg n (nCam + 1) nPose) {e : Step n (nCam + 1) nPose} (he : BlindStep e)
    {x y : FSt n (nCam + 1) nPose} (hw : Widened L x y) :
    Both (fun x' y' => ∃ (d : Fin 3 → ℝ) (L' : Matrix (Ix n (nCam + 1) nPose) (Fin k) ℝ), Widened L' x' y' ∧
      (∀ j, L' (.att 2) j = L (.att 2) j) ∧ ∀ l j, L' (.pos l) j = L (.pos l) j + d l * L (.att 2) j) (x.step cfg e) (y.step cfg e) := by
  have same : ∀ {o o' : Option (FSt n (nCam + 1) nPose)}, Both (Widened L) o o' → Both (fun x' y' => ∃ (d : Fin 3 → ℝ) (L' : Matrix (Ix n (nCam + 1) nPose) (Fin k) ℝ),
      Widened L' x' y' ∧ (∀ j, L' (.att 2) j = L (.att 2) j) ∧ ∀ l j, L' (.pos l) j = L (.pos l) j + d l * L (.att 2) j) o o' :=
    fun h => by
      cases h with
      | none => exact .none
      | some h => exact .some ⟨0, L, h, fun _ => rfl, fun _ _ => by simp⟩
  have hc : covNoWorld y.P.odo = covNoWorld x.P.odo := by rw [hw.P]; exact odo_wide hw.unseen x.P
  have hv : ∀ b : Ix n (nCam + 1) nPose, b.isWorld = true → (DState.unit b).vel = 0 := fun b hb => (DState.world_unit hb).vel
  cases e with
  | predict m dt => exact predict_wide cfg m dt hw
  | velocity meas =>
    simp only [FSt.step, FSt.velocity]
    rw [hw.s]
    refine same (finish_wide hw fun r b hb => ?_)
    simp only [Matrix.of_apply, velJac, hv b hb, M3.mulVec_zero', V3.at_zero]
  | zeroVel tr =>
    simp only [FSt.step, FSt.zeroVel]
    rw [hw.s]
    by_cases ht : tr x.s.odo = true
    · rw [if_pos ht, if_pos ht]
      refine same (finish_wide hw fun r b hb => ?_)
      simp only [Matrix.of_apply, zeroVelJac, hv b hb, M3.mulVec_zero', V3.at_zero]
    · rw [if_neg ht, if_neg ht]; exact same (.some hw)
  | image alg =>
    simp only [FSt.step]
    rw [hw.s, he _ _ _ hc]
    cases alg x.s.odo x.P.odo with
    | none => exact same (.some hw)
    | some c => exact same (image_wide cfg c hw)
  | manage alg =>
    simp only [FSt.step]
    rw [hw.s, he _ _ _ hc]
    exact same (.some (manage_wide _ hw))
  | pose meas => exact he.elim

end Rovio
