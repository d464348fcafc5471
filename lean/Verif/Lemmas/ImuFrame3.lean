import Verif.Lemmas.ImuFrame2
import Verif.Model.OutputCov

/-! # Lemmas about changes of the axes of the IMU: feature management and the pose update -/

namespace Rovio

open Matrix Spec Distance

variable {n nCam nPose : ℕ}

namespace Spec.ImuFrame

variable {f : ImuFrame} {k : Option (Fin nPose)}

/-! ### Feature management -/

lemma mat_slotIx (i : Fin n) (l : Fin 3) (b : Ix n nCam nPose) : (f.mat k : Cov n nCam nPose) (slotIx i l) b = if slotIx i l = b then 1 else 0 := by
  fin_cases l <;> cases b <;> rfl

lemma mat_slotIx' (i : Fin n) (l : Fin 3) (b : Ix n nCam nPose) : (f.mat k : Cov n nCam nPose) b (slotIx i l) = if b = slotIx i l then 1 else 0 := by
  fin_cases l <;> cases b <;> rfl

lemma mat_keep (i : Fin n) : (f.mat k : Cov n nCam nPose) * keepMat i = keepMat i * f.mat k := by
  classical
  ext a b
  simp only [keepMat, Matrix.mul_diagonal, Matrix.diagonal_mul]
  by_cases hab : a = b
  · subst hab; ring
  · by_cases ha : ∀ l, a ≠ slotIx i l
    · by_cases hb : ∀ l, b ≠ slotIx i l
      · rw [if_pos ha, if_pos hb]; ring
      · push Not at hb
        obtain ⟨l, rfl⟩ := hb
        rw [mat_slotIx', if_neg hab]; ring
    · push Not at ha
      obtain ⟨l, rfl⟩ := ha
      rw [mat_slotIx, if_neg hab]; ring

lemma mat_slot (i : Fin n) : (f.mat k : Cov n nCam nPose) * slotMat i = slotMat i := by
  ext a c
  rw [Matrix.mul_apply]
  have : ∀ b, (f.mat k : Cov n nCam nPose) a b * slotMat i b c = if b = slotIx i c then (f.mat k : Cov n nCam nPose) a (slotIx i c) else 0 := fun b => by
    simp only [slotMat]
    split_ifs with h
    · rw [h, mul_one]
    · rw [mul_zero]
  rw [Finset.sum_congr rfl fun b _ => this b, Finset.sum_ite_eq' Finset.univ, if_pos (Finset.mem_univ _), mat_slotIx']
  rfl

lemma reset_cov (P : Cov n nCam nPose) (i : Fin n) (C : Matrix (Fin 3) (Fin 3) ℝ) : (f.cov k P).resetFeature i C = f.cov k (P.resetFeature i C) := by
  rw [resetFeature_eq, resetFeature_eq]
  have h1 := mat_keep (f := f) (k := k) (nCam := nCam) i
  have h2 := mat_slot (f := f) (k := k) (nCam := nCam) i
  have h1' := congrArg Matrix.transpose h1
  have h2' := congrArg Matrix.transpose h2
  rw [Matrix.transpose_mul, Matrix.transpose_mul] at h1'
  rw [Matrix.transpose_mul] at h2'
  simp only [cov, Matrix.mul_add, Matrix.add_mul]
  congr 1
  · calc keepMat i * (f.mat k * P * (f.mat k)ᵀ) * (keepMat i)ᵀ = (keepMat i * f.mat k) * P * ((f.mat k)ᵀ * (keepMat i)ᵀ) := by simp only [Matrix.mul_assoc]
      _ = f.mat k * (keepMat i * P * (keepMat i)ᵀ) * (f.mat k)ᵀ := by rw [← h1, ← h1']; simp only [Matrix.mul_assoc]
  · simp only [Matrix.mul_assoc]
    rw [h2', ← Matrix.mul_assoc (f.mat k), h2]

lemma manage_moved (r : Manage n nCam) {x y : FSt n nCam nPose} (hm : f.Moved x y) : f.Moved (x.manage r) (y.manage { r with aux := f.aux r.aux }) := by
  refine ⟨?_, ?_, hm.u⟩
  · simp only [FSt.manage, hm.s, state]; rfl
  · simp only [FSt.manage, hm.P]
    induction r.reset generalizing x y with
    | nil => rfl
    | cons p l ih =>
      simp only [List.foldl_cons, reset_cov]
      exact ih (x := { x with P := x.P.resetFeature p.1 p.2 }) (y := { y with P := f.cov x.u.body (x.P.resetFeature p.1 p.2) }) ⟨hm.s, rfl, hm.u⟩

/-! ### The pose update -/

section pose

variable {u : PoseUpd nPose}

lemma getqWI_settings (ha : ExtFrame.Apart u) (s : State n nCam nPose) : (f.settings u).getqWI (f.state u.body s) = u.getqWI s := by
  have e : (f.settings u).inertial = u.inertial := rfl
  unfold PoseUpd.getqWI
  rw [e]
  cases hi : u.inertial with
  | none => rfl
  | some j => simp only [state]; rw [if_neg fun hh => ha j hi hh]

lemma getIrIW_settings (ha : ExtFrame.Apart u) (s : State n nCam nPose) : (f.settings u).getIrIW (f.state u.body s) = u.getIrIW s := by
  have e : (f.settings u).inertial = u.inertial := rfl
  unfold PoseUpd.getIrIW
  rw [e]
  cases hi : u.inertial with
  | none => rfl
  | some j => simp only [state]; rw [if_neg fun hh => ha j hi hh]

lemma getMrMV_settings (s : State n nCam nPose) : (f.settings u).getMrMV (f.state u.body s) = f.vec (u.getMrMV s) := by
  have e : (f.settings u).body = u.body := rfl
  unfold PoseUpd.getMrMV
  rw [e]
  cases hi : u.body with
  | none => rfl
  | some j => simp [state]

lemma getqVM_settings (s : State n nCam nPose) : (f.settings u).getqVM (f.state u.body s) = f.att (u.getqVM s) := by
  have e : (f.settings u).body = u.body := rfl
  unfold PoseUpd.getqVM
  rw [e]
  cases hi : u.body with
  | none => rfl
  | some j => simp [state]

lemma innov_settings (hq : f.q.IsUnit) (ha : ExtFrame.Apart u) (m : PoseMeas) (s : State n nCam nPose) :
    (f.settings u).innov m (f.state u.body s) ⟨0, 0⟩ = u.innov m s ⟨0, 0⟩ := by
  have e1 : (f.settings u).enablePosition = u.enablePosition := rfl
  have e2 : (f.settings u).enableAttitude = u.enableAttitude := rfl
  have e3 : (f.state u.body s).pos = s.pos := rfl
  have e4 : (f.state u.body s).att = f.att s.att := rfl
  simp only [PoseUpd.innov, getqWI_settings ha, getIrIW_settings ha, getMrMV_settings, getqVM_settings, e1, e2, e3, e4, att_rotate hq]
  congr 1
  split_ifs
  · rw [Quat.mul_assoc' (Quat.exp _), att_mul_inv hq, ← Quat.mul_assoc']
  · rfl

lemma jacState_settings (hq : f.q.IsUnit) (ha : ExtFrame.Apart u) (s : State n nCam nPose) (δ : DState n nCam nPose) :
    (f.settings u).jacState (f.state u.body s) (f.turn u.body false δ) = u.jacState s δ := by
  have e1 : (f.settings u).enablePosition = u.enablePosition := rfl
  have e2 : (f.settings u).enableAttitude = u.enableAttitude := rfl
  have e3 : (f.state u.body s).pos = s.pos := rfl
  have e4 : (f.state u.body s).att = f.att s.att := rfl
  have e5 : (f.settings u).noFeedback = u.noFeedback := rfl
  have e6 : (f.settings u).inertial = u.inertial := rfl
  have e7 : (f.settings u).body = u.body := rfl
  have d1 : (f.turn u.body false δ).pos = δ.pos := rfl
  have d2 : (f.turn u.body false δ).att = δ.att := rfl
  have d3 : (f.turn u.body false δ).poa = δ.poa := rfl
  have hp : PoseUpd.twoBlocks u.inertial u.body M3.one ((u.getqWI s).inv * f.att s.att).mat (f.turn u.body false δ).pop =
      PoseUpd.twoBlocks u.inertial u.body M3.one ((u.getqWI s).inv * s.att).mat δ.pop := by
    unfold PoseUpd.twoBlocks
    congr 1
    · cases hi : u.inertial with
      | none => rfl
      | some j => simp only [ha j hi, if_false, turn]
    · cases hi : u.body with
      | none => rfl
      | some j =>
        simp only [turn, if_true]
        rw [mul_att, Quat.mat_mulVec, Quat.mat_mulVec]
        exact att_rotate hq _ _
  simp only [PoseUpd.jacState, getqWI_settings ha, getMrMV_settings, getqVM_settings, e1, e2, e3, e4, e5, e6, e7, d1, d2, d3, att_rotate hq, att_mul_inv hq, hp]

lemma twoBlocks_lin (i b : Option (Fin nPose)) (A B : M3) {g : DState n nCam nPose → Fin nPose → V3} (hg : ∀ j, IsLin3 fun δ => g δ j) :
    IsLin3 fun δ => PoseUpd.twoBlocks i b A B (g δ) := by
  unfold PoseUpd.twoBlocks
  refine .add ?_ ?_
  · cases i with
    | none => exact .zero
    | some j => exact .ite .zero ((hg j).mulVec _)
  · cases b with
    | none => exact .zero
    | some j => exact (hg j).mulVec _

lemma jacState_lin (u : PoseUpd nPose) (s : State n nCam nPose) (r : Fin 6) : IsLin fun δ => (u.jacState s δ).row r := by
  have h1 : IsLin3 fun δ => (u.jacState s δ).pos := by
    refine .ite (.add (.add (.ite .zero (.add (.mulVec _ .pos) (.mulVec _ .att))) (twoBlocks_lin _ _ _ _ fun j => .pop j)) ?_) .zero
    unfold PoseUpd.oneBlock
    cases u.inertial with
    | none => exact .zero
    | some j => exact .mulVec _ (.poa j)
  have h2 : IsLin3 fun δ => (u.jacState s δ).att := .ite (.add (.ite .zero (.mulVec _ .att)) (twoBlocks_lin _ _ _ _ fun j => .poa j)) .zero
  unfold DPose.row
  cases poseRow r with
  | inl c => exact h1.at' c
  | inr c => exact h2.at' c

lemma align_settings (hq : f.q.IsUnit) (ha : ExtFrame.Apart u) (m : PoseMeas) (s : State n nCam nPose) :
    (f.settings u).align m (f.state u.body s) = (f.settings (u.align m s).1, f.state u.body (u.align m s).2) := by
  have e1 : (f.settings u).didAlign = u.didAlign := rfl
  have e2 : (f.settings u).doAlign = u.doAlign := rfl
  have e3 : (f.state u.body s).pos = s.pos := rfl
  have e4 : (f.state u.body s).att = f.att s.att := rfl
  have e6 : (f.settings u).inertial = u.inertial := rfl
  by_cases hc : u.didAlign = false ∧ u.doAlign = true
  · rw [ExtFrame.align_eq m s hc, ExtFrame.align_eq (u := f.settings u) _ _ hc]
    simp only [getqVM_settings, getMrMV_settings, e3, e4, e6, att_mul_inv hq, att_rotate hq]
    refine Prod.ext rfl ?_
    simp only [state, State.mk.injEq, and_true, true_and]
    refine ⟨funext fun j => ?_, funext fun j => ?_⟩ <;> split_ifs with h1 h2
    all_goals first | rfl | exact absurd h2 (ha j h1)
  · have h1 : u.align m s = (u, s) := by unfold PoseUpd.align; rw [if_neg hc]
    have h2 : (f.settings u).align m (f.state u.body s) = (f.settings u, f.state u.body s) := by
      unfold PoseUpd.align; rw [e1, e2, if_neg hc]
    rw [h1, h2]

lemma setNoise_settings (m : PoseMeas) : (f.settings u).setNoise m = f.settings (u.setNoise m) := by
  unfold PoseUpd.setNoise
  have e1 : (f.settings u).useOdometryCov = u.useOdometryCov := rfl
  rw [e1]
  by_cases h : u.useOdometryCov = true
  · rw [if_pos h, if_pos h]; rfl
  · rw [if_neg h, if_neg h]; rfl

lemma preProcess_settings (hq : f.q.IsUnit) (ha : ExtFrame.Apart u) (m : PoseMeas) (s : State n nCam nPose) :
    (f.settings u).preProcess m (f.state u.body s) = (f.settings (u.preProcess m s).1, f.state u.body (u.preProcess m s).2) := by
  unfold PoseUpd.preProcess
  rw [align_settings hq ha]
  simp only
  rw [setNoise_settings]

lemma postProcess_settings (hq : f.q.IsUnit) (ha : ExtFrame.Apart u) (m : PoseMeas) (s : State n (nCam + 1) nPose) :
    (f.settings u).postProcess m (f.state u.body s) = f.state u.body (u.postProcess m s) := by
  have e4 : (f.state u.body s).att = f.att s.att := rfl
  unfold PoseUpd.postProcess
  simp only [getqWI_settings ha, getIrIW_settings ha, getMrMV_settings, getqVM_settings, e4, MrMC_state, qCM_state, mul_att, att_rotate hq, att_mul_inv hq]
  rfl

lemma preProcess_keeps (u : PoseUpd nPose) (m : PoseMeas) (s : State n nCam nPose) :
    (u.preProcess m s).1.inertial = u.inertial ∧ (u.preProcess m s).1.body = u.body := by
  unfold PoseUpd.preProcess
  exact ⟨(ExtFrame.setNoise_keeps _ _).1.trans (ExtFrame.align_keeps _ _ _).1, (ExtFrame.setNoise_keeps _ _).2.1.trans (ExtFrame.align_keeps _ _ _).2.1⟩

lemma pose_moved (hq : f.q.IsUnit) (cfg : FCfg n (nCam + 1) nPose) (m : PoseMeas) {x y : FSt n (nCam + 1) nPose} (hm : f.Moved x y) (ha : ExtFrame.Apart x.u) :
    Both f.Moved (x.pose cfg m) (y.pose (f.cfg cfg) m) := by
  unfold FSt.pose
  have hp := preProcess_settings hq ha m x.s
  have k := preProcess_keeps x.u m x.s
  rw [hm.u, hm.s, hp]
  generalize x.u.preProcess m x.s = p at k ⊢
  obtain ⟨u, s⟩ := p
  simp only at k ⊢
  have ha' : ExtFrame.Apart u := fun j h1 h2 => ha j (by rw [← k.1]; exact h1) (by rw [← k.2]; exact h2)
  have e : (f.cfg cfg).log = cfg.log := rfl
  rw [← k.2, innov_settings hq ha', e]
  refine finish_of (x := { x with s := s, u := u }) (y := { y with s := f.state u.body s, u := f.settings u }) hq ⟨rfl, by rw [hm.P, ← k.2], rfl⟩ ?_ (fun s => postProcess_settings hq ha' m s)
  refine correct_same (mat_of_mulVec fun v => ?_)
  exact linMat (D := id) (g := fun δ => (u.jacState s δ).row) (g' := fun δ => ((f.settings u).jacState (f.state u.body s) δ).row) (fun r => jacState_lin u s r) (fun r => jacState_lin _ _ r)
    (fun δ => by rw [jacState_settings hq ha']; rfl) v

end pose

/-! ### The step -/

lemma step_moved (hq : f.q.IsUnit) (cfg : FCfg n (nCam + 1) nPose) {x y : FSt n (nCam + 1) nPose} (hn : NoPreferredAxis cfg x.u.body) (ha : ExtFrame.Apart x.u) (hm : f.Moved x y) :
    ∀ e, Both f.Moved (x.step cfg e) (y.step (f.cfg cfg) (f.step e))
  | .predict m dt => predict_moved hq cfg m dt hm hn
  | .velocity w => velocity_moved hq cfg w hm
  | .zeroVel tr => zeroVel_moved hq cfg tr hm hn
  | .image alg => by
    simp only [FSt.step, step]
    rw [hm.s, hm.P, odo_state, odo_cov, state_back hq, cov_back hq]
    cases alg x.s.odo x.P.odo with
    | none => exact .some hm
    | some c => exact image_moved hq cfg c hm
  | .manage alg => by
    simp only [FSt.step, step]
    rw [hm.s, hm.P, odo_state, odo_cov, state_back hq, cov_back hq]
    exact .some (manage_moved _ hm)
  | .pose m => pose_moved hq cfg m hm ha

/-! ### Outputs -/

lemma mat_worldly {a : Ix n nCam nPose} (ha : Worldly k a) (b : Ix n nCam nPose) : (f.mat k : Cov n nCam nPose) a b = if a = b then 1 else 0 := by
  cases a <;> cases b <;> first | rfl | cases ha | skip
  rename_i i l j l'
  have ha : k ≠ some i := ha
  by_cases hij : i = j
  · subst hij
    simp [mat, ha]
  · simp [mat, hij]

lemma cov_worldly {a b : Ix n nCam nPose} (ha : Worldly k a) (hb : Worldly k b) {P : Cov n nCam nPose} : f.cov k P a b = P a b := by
  change (f.mat k * P * (f.mat k)ᵀ : Matrix _ _ ℝ) a b = _
  rw [Matrix.mul_apply]
  have h1 : ∀ x, (f.mat k * P : Matrix _ _ ℝ) a x = P a x := fun x => by
    rw [Matrix.mul_apply]
    simp [mat_worldly ha]
  simp [h1, mat_worldly hb]

lemma get_lin {J : DState n nCam nPose → DStdOut} (h1 : IsLin3 fun δ => (J δ).pos) (h2 : IsLin3 fun δ => (J δ).att) (h3 : IsLin3 fun δ => (J δ).vel) (h4 : IsLin3 fun δ => (J δ).ror)
    (a : OutIx) : IsLin fun δ => (J δ).get a := by
  cases a with
  | pos l => exact h1.at' l
  | att l => exact h2.at' l
  | vel l => exact h3.at' l
  | ror l => exact h4.at' l

lemma camJac_lin (s : State n nCam nPose) (c : Fin nCam) (a : OutIx) : IsLin fun δ => (s.camJac c δ).get a :=
  get_lin (.add (.add (.mulVec _ .pos) (.mulVec _ .att)) (.ite (.mulVec _ (.vep c)) .zero)) (.add (.mulVec _ .att) (.ite (.mulVec _ (.vea c)) .zero))
    (.add (.add (.mulVec _ .vel) (.mulVec _ .gyb)) (.ite (.add (.mulVec _ (.vep c)) (.mulVec _ (.vea c))) .zero)) (.add (.mulVec _ .gyb) (.ite (.mulVec _ (.vea c)) .zero)) a

lemma camJac_moved (hq : f.q.IsUnit) (k : Option (Fin nPose)) (s : State n nCam nPose) (c : Fin nCam) (δ : DState n nCam nPose) :
    (f.state k s).camJac c (f.turn k false δ) = s.camJac c δ := by
  have e1 : (f.state k s).aux.MwWMmeas - (f.state k s).gyb = f.vec (s.aux.MwWMmeas - s.gyb) := (vec_sub _ _ _).symm
  have e2 : (f.state k s).vel = f.vec s.vel := rfl
  have e3 : (f.state k s).att = f.att s.att := rfl
  have e4 : (f.state k s).aux.doVE = s.aux.doVE := rfl
  have e5 : ∀ v, -f.vec v = f.vec (-v) := fun v => (Quat.rotate_neg _ _).symm
  have d1 : (f.turn k false δ).pos = δ.pos := rfl
  have d2 : (f.turn k false δ).att = δ.att := rfl
  have d3 : (f.turn k false δ).vea = δ.vea := rfl
  have d4 : (f.turn k false δ).vep c = f.vec (δ.vep c) := rfl
  have d5 : (f.turn k false δ).vel = f.vec δ.vel := rfl
  have d6 : (f.turn k false δ).gyb = f.vec δ.gyb := rfl
  simp only [State.camJac, qCM_state, MrMC_state, e1, e2, e3, e4, e5, d1, d2, d3, d4, d5, d6, V3.skew_mulVec, vec_cross hq, ← vec_add, att_rotate hq, att_mul_inv hq, M3.mul_mulVec, M3.neg_mulVec,
    mat_att hq]

lemma camMat_moved (hq : f.q.IsUnit) (k : Option (Fin nPose)) (s : State n nCam nPose) (c : Fin nCam) :
    State.stdMat ((f.state k s).camJac c) * f.mat k = State.stdMat (s.camJac c) := by
  refine mat_of_mulVec fun v => ?_
  have h1 := IsLin.mulVec (g := fun δ => ((f.state k s).camJac c δ).get) (fun r => camJac_lin _ c r) ((f.mat k).mulVec v)
  have h2 := IsLin.mulVec (g := fun δ => (s.camJac c δ).get) (fun r => camJac_lin _ c r) v
  rw [← Matrix.mulVec_mulVec]
  refine Eq.trans h1 (Eq.trans ?_ h2.symm)
  simp only [mat_mulVec, camJac_moved hq]

end Spec.ImuFrame

end Rovio
