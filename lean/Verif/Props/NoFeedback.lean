import Verif.Lemmas.FilterSteps
import Verif.Props.PoseUpdate

/-! # C46: without feedback, pose measurements change nothing but the frame alignments -/

namespace Rovio

open Matrix Spec Distance State

variable {n nCam nPose : ℕ}

/-- Specification: the filter at some point of a run without feedback.  The estimate has unit quaternions and computed bearings, the
covariance is symmetric and has no correlation between the additional poses and the rest, and the option is set. -/
structure FSt.Good (x : FSt n nCam nPose) : Prop where
  ok : x.s.Ok
  uncorrelated : ∀ a b, a.isAlign ≠ b.isAlign → x.P a b = 0
  symmetric : x.Pᵀ = x.P
  noFeedback : x.u.noFeedback = true
  unitVM : x.u.qVM.IsUnit

/-- Specification: measured attitudes are unit quaternions; feature management, given a proper estimate, puts proper features in the
slots, keeps proper extrinsics and resets covariances to symmetric ones. -/
def Step.Good : Step n nCam nPose → Prop
  | .pose meas => meas.att.IsUnit
  | .manage alg => ∀ o P, o.Ok → Pᵀ = P →
      (∀ i, ((alg o P).fea i).c.validNor = true ∧ ((alg o P).fea i).c.nor.q.IsUnit ∧ ((alg o P).fea i).c.Proj) ∧
      (∀ c, ((alg o P).aux.qCM c).IsUnit) ∧ ∀ r ∈ (alg o P).reset, r.2ᵀ = r.2
  | _ => True

/-- Is a step a pose measurement? -/
def Step.isPose : Step n nCam nPose → Bool
  | .pose _ => true
  | _ => false

namespace FSt

/-- Two filters with the same odometry part. -/
structure Rel (x y : FSt n nCam nPose) : Prop where
  s : Same x.s y.s
  P : x.P.odo = y.P.odo

lemma finish_rel {m : ℕ} {x y x' : FSt n nCam nPose} (h : Rel x y) (hx : x.Good) (hy : y.Good) {gate : Gate m} {v : Fin m → ℝ}
    {H : Matrix (Fin m) (Ix n nCam nPose) ℝ} {R : Matrix (Fin m) (Fin m) ℝ} (hH : ∀ k b, b.isAlign = true → H k b = 0)
    (hf : x.finish gate v H R id = some x') : ∃ y', y.finish gate v H R id = some y' ∧ Rel x' y' ∧ x'.Good ∧ y'.Good := by
  unfold finish at hf ⊢
  cases hc : correct gate v H R x.P with
  | none => simp [hc] at hf
  | some r =>
    have c1 := correct_odo (gate := gate) (y := v) (R := R) hx.uncorrelated hH
    have c2 := correct_odo (gate := gate) (y := v) (R := R) hy.uncorrelated hH
    rw [← h.P, ← c1.1, hc, Option.map_some] at c2
    obtain ⟨r', hr', he⟩ := Option.map_eq_some_iff.mp c2.1
    rw [hr']
    simp only [hc, Option.bind_eq_bind, Option.bind_some, id, Option.pure_def,
      fix_eq (boxPlus_unit hx.ok.unit _) (boxPlus_nor _), Option.some.injEq] at hf
    simp only [Option.bind_eq_bind, Option.bind_some, id, Option.pure_def,
      fix_eq (boxPlus_unit hy.ok.unit _) (boxPlus_nor _)]
    refine ⟨_, rfl, ?_⟩
    rw [← hf]
    rw [Prod.ext_iff] at he
    refine ⟨⟨fixed_congr (boxPlus_congr h.s fun a => ?_), ?_⟩, ⟨?_, ?_, ?_, hx.noFeedback, hx.unitVM⟩, ⟨?_, ?_, ?_, hy.noFeedback, hy.unitVM⟩⟩
    · rw [DState.get_ofFn, DState.get_ofFn]; exact (congrFun he.1 a).symm
    · simp only [Cov.odo_symm]; exact congrArg symm he.2.symm
    · exact fixed_ok (boxPlus_unit hx.ok.unit _)
    · exact BlockDiag.symm (c1.2 _ hc)
    · exact symm_symm _
    · exact fixed_ok (boxPlus_unit hy.ok.unit _)
    · exact BlockDiag.symm (c2.2 _ hr')
    · exact symm_symm _

lemma predict_rel {cfg : FCfg n nCam nPose} {m : ImuMeas} {dt : ℝ} {x y x' : FSt n nCam nPose} (h : Rel x y) (hx : x.Good) (hy : y.Good)
    (hf : x.predict cfg m dt = some x') : ∃ y', y.predict cfg m dt = some y' ∧ Rel x' y' ∧ x'.Good ∧ y'.Good := by
  unfold predict at hf ⊢
  simp only [predJac_congr h.s hx.ok, noiseJac_congr h.s hx.ok]
  cases hF : colMat fun b => (x.s.predJac m dt (DState.unit b)).map DState.get with
  | none => simp [hF] at hf
  | some F =>
    cases hG : colMat fun b => (x.s.noiseJac m dt (DState.unit b)).map DState.get with
    | none => simp [hF, hG] at hf
    | some G =>
      cases hs : x.s.evalPrediction cfg.pred m true x.s (DState.ofFn 0) dt with
      | none => simp [hF, hG, hs] at hf
      | some r =>
        obtain ⟨r', hr', hsame, hok, hok'⟩ := evalPrediction_congr h.s hx.ok hy.ok hs
        simp only [hF, hG, hs, Option.bind_eq_bind, Option.bind_some, Option.pure_def, Option.some.injEq] at hf
        simp only [hr', Option.bind_eq_bind, Option.bind_some, Option.pure_def]
        refine ⟨_, rfl, ?_⟩
        rw [← hf]
        have bF := predJac_block hF
        have bG := noiseJac_block hG
        have bQ := BlockDiag.diagonal cfg.q
        have key : ∀ P : Cov n nCam nPose, BlockDiag P → BlockDiag (F * P * Fᵀ + G * Matrix.diagonal cfg.q * Gᵀ) ∧
            Cov.odo (F * P * Fᵀ + G * Matrix.diagonal cfg.q * Gᵀ) = Cov.odo F * P.odo * (Cov.odo F)ᵀ + Cov.odo G * Cov.odo (Matrix.diagonal cfg.q) * (Cov.odo G)ᵀ := by
          intro P hP
          refine ⟨((bF.mul hP).mul bF.tr).add ((bG.mul bQ).mul bG.tr), ?_⟩
          rw [Cov.odo_add, Cov.odo_mul (bF.mul hP), Cov.odo_mul bF, Cov.odo_mul (bG.mul bQ), Cov.odo_mul bG, Cov.odo_tr, Cov.odo_tr]
        refine ⟨⟨hsame, ?_⟩, ⟨hok, ?_, symm_symm _, hx.noFeedback, hx.unitVM⟩, ⟨hok', ?_, symm_symm _, hy.noFeedback, hy.unitVM⟩⟩
        · simp only [Cov.odo_symm]
          rw [(key _ hx.uncorrelated).2, (key _ hy.uncorrelated).2, h.P]
        · exact BlockDiag.symm (key _ hx.uncorrelated).1
        · exact BlockDiag.symm (key _ hy.uncorrelated).1

lemma velocity_rel {cfg : FCfg n nCam nPose} {meas : V3} {x y x' : FSt n nCam nPose} (h : Rel x y) (hx : x.Good) (hy : y.Good)
    (hf : x.velocity cfg meas = some x') : ∃ y', y.velocity cfg meas = some y' ∧ Rel x' y' ∧ x'.Good ∧ y'.Good := by
  unfold velocity at hf ⊢
  have e : velInnov cfg.qAM meas y.s 0 = velInnov cfg.qAM meas x.s 0 := by simp only [velInnov, h.s.vel]
  rw [e]
  refine finish_rel h hx hy (fun k b hb => ?_) hf
  simp only [of_apply, velJac, (DState.odoZero_unit hb).vel, M3.mulVec_zero', V3.at_zero]

lemma zeroVel_rel {cfg : FCfg n nCam nPose} {tr : State n nCam 0 → Bool} {x y x' : FSt n nCam nPose} (h : Rel x y) (hx : x.Good) (hy : y.Good)
    (hf : x.zeroVel cfg tr = some x') : ∃ y', y.zeroVel cfg tr = some y' ∧ Rel x' y' ∧ x'.Good ∧ y'.Good := by
  unfold zeroVel at hf ⊢
  rw [← odo_eq_iff.mpr h.s]
  by_cases ht : tr x.s.odo = true
  · rw [if_pos ht] at hf ⊢
    have e : zeroVelInnov y.s 0 = zeroVelInnov x.s 0 := by simp only [zeroVelInnov, h.s.vel]
    rw [e]
    refine finish_rel h hx hy (fun k b hb => ?_) hf
    simp only [of_apply, zeroVelJac, (DState.odoZero_unit hb).vel, M3.mulVec_zero', V3.at_zero]
  · rw [if_neg ht, Option.some.injEq] at hf
    rw [if_neg ht]
    subst hf
    exact ⟨y, rfl, h, hx, hy⟩

lemma image_rel {cfg : FCfg n nCam nPose} {c : ImgCorr n nCam} {x y x' : FSt n nCam nPose} (h : Rel x y) (hx : x.Good) (hy : y.Good)
    (hf : x.image cfg c = some x') : ∃ y', y.image cfg c = some y' ∧ Rel x' y' ∧ x'.Good ∧ y'.Good := by
  unfold image at hf ⊢
  simp only [featureJac_withOdo (s := x.s) (t := y.s)]
  cases hJ : colMat fun b => ((x.s.withOdo c.lin).featureJac cfg.sfv true c.i c.b (DState.unit b)).map fun r => r.1.at with
  | none => simp [hJ] at hf
  | some J =>
    simp only [hJ, Option.bind_eq_bind, Option.bind_some] at hf ⊢
    refine finish_rel h hx hy (fun k b hb => ?_) hf
    have hz : ∀ k, J k b = 0 := by
      intro k
      have := colMat_some hJ b
      obtain ⟨r, hr, he⟩ := Option.map_eq_some_iff.mp this
      rw [← congrFun he k, featureJac_zero (DState.odoZero_unit hb) hr, V2.at_zero]
    rw [mul_apply]
    exact Finset.sum_eq_zero fun c _ => by rw [hz, mul_zero]

lemma slotIx_odo (i : Fin n) (k : Fin 3) : (slotIx i k : Ix n nCam nPose) = Ix.ofOdo (slotIx i k) := by
  fin_cases k <;> rfl

lemma reset_odo (P : Cov n nCam nPose) (i : Fin n) (C : Matrix (Fin 3) (Fin 3) ℝ) : (P.resetFeature i C).odo = P.odo.resetFeature i C := by
  classical
  have E := C52_entries P i C
  have E' := C52_entries P.odo i C
  ext a b
  simp only [Cov.odo, submatrix_apply]
  have hn : ∀ a : Ix n nCam 0, (∀ k, a ≠ slotIx i k) → ∀ k, (a.ofOdo : Ix n nCam nPose) ≠ slotIx i k := by
    intro a ha k e
    rw [slotIx_odo] at e
    exact ha k (Ix.ofOdo_inj e)
  by_cases ha : ∃ k, a = slotIx i k <;> by_cases hb : ∃ k, b = slotIx i k
  · obtain ⟨k, rfl⟩ := ha
    obtain ⟨l, rfl⟩ := hb
    rw [← slotIx_odo, ← slotIx_odo, E.2.2]
    exact (E'.2.2 k l).symm
  · obtain ⟨k, rfl⟩ := ha
    push Not at hb
    rw [← slotIx_odo, (E.2.1 _ k (hn b hb)).2]
    exact (E'.2.1 b k hb).2.symm
  · obtain ⟨l, rfl⟩ := hb
    push Not at ha
    rw [← slotIx_odo, (E.2.1 _ l (hn a ha)).1]
    exact (E'.2.1 a l ha).1.symm
  · push Not at ha hb
    rw [E.1 _ _ (hn a ha) (hn b hb)]
    exact (E'.1 a b ha hb).symm

lemma slotIx_align (i : Fin n) (k : Fin 3) : (slotIx i k : Ix n nCam nPose).isAlign = false := by fin_cases k <;> rfl

lemma reset_block {P : Cov n nCam nPose} (hP : BlockDiag P) (i : Fin n) (C : Matrix (Fin 3) (Fin 3) ℝ) : BlockDiag (P.resetFeature i C) := by
  have E := C52_entries P i C
  intro a b hab
  by_cases ha : ∃ k, a = slotIx i k <;> by_cases hb : ∃ k, b = slotIx i k
  · obtain ⟨k, rfl⟩ := ha
    obtain ⟨l, rfl⟩ := hb
    rw [slotIx_align, slotIx_align] at hab; exact absurd rfl hab
  · obtain ⟨k, rfl⟩ := ha
    push Not at hb
    exact (E.2.1 _ k hb).2
  · obtain ⟨l, rfl⟩ := hb
    push Not at ha
    exact (E.2.1 _ l ha).1
  · push Not at ha hb
    rw [E.1 _ _ ha hb]; exact hP a b hab

lemma reset_symm {P : Cov n nCam nPose} (hP : Pᵀ = P) (i : Fin n) {C : Matrix (Fin 3) (Fin 3) ℝ} (hC : Cᵀ = C) :
    (P.resetFeature i C)ᵀ = P.resetFeature i C := by
  have E := C52_entries P i C
  ext a b
  rw [transpose_apply]
  by_cases ha : ∃ k, a = slotIx i k <;> by_cases hb : ∃ k, b = slotIx i k
  · obtain ⟨k, rfl⟩ := ha
    obtain ⟨l, rfl⟩ := hb
    rw [E.2.2, E.2.2]; exact congrFun (congrFun hC k) l
  · obtain ⟨k, rfl⟩ := ha
    push Not at hb
    rw [(E.2.1 _ k hb).1, (E.2.1 _ k hb).2]
  · obtain ⟨l, rfl⟩ := hb
    push Not at ha
    rw [(E.2.1 _ l ha).1, (E.2.1 _ l ha).2]
  · push Not at ha hb
    rw [E.1 _ _ ha hb, E.1 _ _ hb ha]; exact congrFun (congrFun hP a) b

lemma resets {l : List (Fin n × Matrix (Fin 3) (Fin 3) ℝ)} (hl : ∀ r ∈ l, r.2ᵀ = r.2) {P Q : Cov n nCam nPose} (hP : BlockDiag P) (hQ : BlockDiag Q)
    (sP : Pᵀ = P) (sQ : Qᵀ = Q) (h : P.odo = Q.odo) :
    let P' := l.foldl (fun P p => P.resetFeature p.1 p.2) P
    let Q' := l.foldl (fun P p => P.resetFeature p.1 p.2) Q
    P'.odo = Q'.odo ∧ BlockDiag P' ∧ BlockDiag Q' ∧ P'ᵀ = P' ∧ Q'ᵀ = Q' := by
  induction l generalizing P Q with
  | nil => exact ⟨h, hP, hQ, sP, sQ⟩
  | cons r l ih =>
    have hr := hl r (by simp)
    exact ih (fun x hx => hl x (by simp [hx])) (reset_block hP _ _) (reset_block hQ _ _) (reset_symm sP _ hr) (reset_symm sQ _ hr)
      (by rw [reset_odo, reset_odo, h])

lemma odo_ok {s : State n nCam nPose} (h : s.Ok) : s.odo.Ok :=
  ⟨⟨h.unit.att, h.unit.vea, h.unit.aux, fun k => k.elim0, h.unit.nor⟩, h.nor, fun i hv => by simp [State.odo, FC.noPixel] at hv⟩

lemma manage_rel {alg : State n nCam 0 → Cov n nCam 0 → Manage n nCam} (ha : (Step.manage alg : Step n nCam nPose).Good) {x y : FSt n nCam nPose}
    (h : Rel x y) (hx : x.Good) (hy : y.Good) :
    Rel (x.manage (alg x.s.odo x.P.odo)) (y.manage (alg y.s.odo y.P.odo)) ∧ (x.manage (alg x.s.odo x.P.odo)).Good ∧ (y.manage (alg y.s.odo y.P.odo)).Good := by
  rw [← odo_eq_iff.mpr h.s, ← h.P]
  obtain ⟨h1, h2, h3⟩ := ha x.s.odo x.P.odo (odo_ok hx.ok) (by rw [← Cov.odo_tr, hx.symmetric])
  generalize alg x.s.odo x.P.odo = r at *
  obtain ⟨e, b, b', c, c'⟩ := resets h3 hx.uncorrelated hy.uncorrelated hx.symmetric hy.symmetric h.P
  refine ⟨⟨⟨h.s.pos, h.s.vel, h.s.acb, h.s.gyb, h.s.att, h.s.vep, h.s.vea, fun i => rfl, rfl⟩, e⟩, ?_, ?_⟩
  · exact ⟨⟨⟨hx.ok.unit.att, hx.ok.unit.vea, h2, hx.ok.unit.poa, fun i => (h1 i).2.1⟩, fun i => (h1 i).1, fun i => (h1 i).2.2⟩, b, c, hx.noFeedback, hx.unitVM⟩
  · exact ⟨⟨⟨hy.ok.unit.att, hy.ok.unit.vea, h2, hy.ok.unit.poa, fun i => (h1 i).2.1⟩, fun i => (h1 i).1, fun i => (h1 i).2.2⟩, b', c', hy.noFeedback, hy.unitVM⟩

/-- Pre-processing a pose measurement only writes alignments and the members of the update. -/
lemma preProcess_same {u : PoseUpd nPose} {meas : PoseMeas} {s : State n nCam nPose} (hs : s.Ok) (hv : u.qVM.IsUnit) (hm : meas.att.IsUnit) :
    Same (u.preProcess meas s).2 s ∧ (u.preProcess meas s).2.Ok ∧ (u.preProcess meas s).1.noFeedback = u.noFeedback ∧ (u.preProcess meas s).1.qVM = u.qVM := by
  have hq : (u.getqVM s).IsUnit := by
    unfold PoseUpd.getqVM
    cases u.body with
    | none => exact hv
    | some k => exact hs.unit.poa k
  have hn : ∀ v : PoseUpd nPose, (v.setNoise meas).noFeedback = v.noFeedback ∧ (v.setNoise meas).qVM = v.qVM := by
    intro v
    obtain ⟨N, e⟩ := setNoise_fields v meas
    rw [e]; exact ⟨rfl, rfl⟩
  unfold PoseUpd.preProcess
  simp only [hn]
  unfold PoseUpd.align
  by_cases hc : u.didAlign = false ∧ u.doAlign = true
  · rw [if_pos hc]
    cases hi : u.inertial with
    | none => exact ⟨⟨rfl, rfl, rfl, rfl, rfl, rfl, rfl, fun _ => rfl, rfl⟩, hs, rfl, rfl⟩
    | some k =>
      refine ⟨⟨rfl, rfl, rfl, rfl, rfl, rfl, rfl, fun _ => rfl, rfl⟩, ⟨⟨hs.unit.att, hs.unit.vea, hs.unit.aux, fun j => ?_, hs.unit.nor⟩, hs.nor, hs.proj⟩, rfl, rfl⟩
      simp only [Function.update_apply]
      split_ifs
      · exact (hs.unit.att.mul hq.inv).mul hm
      · exact hs.unit.poa j
  · rw [if_neg hc]
    exact ⟨⟨rfl, rfl, rfl, rfl, rfl, rfl, rfl, fun _ => rfl, rfl⟩, hs, rfl, rfl⟩

end FSt

/-- Without feedback, the Jacobian of the pose innovation has non-zero columns only at the additional poses. -/
theorem C46_columns (u : PoseUpd nPose) (h : u.noFeedback = true) (s : State n nCam nPose) (δ ε : DState n nCam nPose)
    (hp : δ.pop = ε.pop) (ha : δ.poa = ε.poa) : u.jacState s δ = u.jacState s ε := by
  simp only [PoseUpd.jacState, h, if_true, hp, ha]

namespace FSt

lemma pose_rel {cfg : FCfg n (nCam + 1) nPose} {meas : PoseMeas} (hm : meas.att.IsUnit) {x x' : FSt n (nCam + 1) nPose} (hx : x.Good)
    (hf : x.pose cfg meas = some x') : Rel x' x ∧ x'.Good := by
  unfold pose at hf
  obtain ⟨hsame, hok, hnf, hvm⟩ := preProcess_same (u := x.u) (meas := meas) (s := x.s) hx.ok hx.unitVM hm
  generalize x.u.preProcess meas x.s = p at *
  obtain ⟨u, s⟩ := p
  simp only at hsame hok hnf hvm
  unfold finish at hf
  simp only at hf
  generalize hH : (Matrix.of fun k b => (u.jacState s (DState.unit b)).row k : Matrix (Fin 6) (Ix n (nCam + 1) nPose) ℝ) = H at hf
  have hz : ∀ k b, b.isAlign = false → H k b = 0 := by
    intro k b hb
    rw [← hH]
    have ha := DState.alignZero_unit hb
    have e := C46_columns u (hnf.trans hx.noFeedback) s (DState.unit b) (DState.ofFn 0) (funext ha.1) (funext ha.2)
    rw [of_apply, e]
    have e0 : u.jacState s (DState.ofFn 0) = ⟨0, 0⟩ := by
      have z3 : ((⟨0, 0, 0⟩ : V3)) = 0 := rfl
      have z : (DState.ofFn 0 : DState n (nCam + 1) nPose).pop = (fun _ => 0) ∧ (DState.ofFn 0 : DState n (nCam + 1) nPose).poa = (fun _ => 0) := ⟨rfl, rfl⟩
      simp only [PoseUpd.jacState, hnf.trans hx.noFeedback, if_true, z.1, z.2, PoseUpd.twoBlocks, PoseUpd.oneBlock, M3.mulVec_zero', ite_self]
      cases u.inertial <;> cases u.body <;> simp [V3.add_zero']
    rw [e0]
    unfold DPose.row
    cases poseRow k <;> simp [V3.at_zero]
  generalize (DPose.row _ : Fin 6 → ℝ) = v at hf
  generalize (Matrix.of fun k l => u.noise (poseRow k) (poseRow l) : Matrix (Fin 6) (Fin 6) ℝ) = R at hf
  cases hc : correct cfg.gateP v H R x.P with
  | none => simp [hc] at hf
  | some r =>
    obtain ⟨h1, h2, h3⟩ := correct_align hx.uncorrelated hz hc
    have hpU : UnitState (u.postProcess meas (s.boxPlus (DState.ofFn r.1))) :=
      let U := boxPlus_unit hok.unit (DState.ofFn r.1)
      ⟨U.att, U.vea, U.aux, U.poa, U.nor⟩
    have hpn : ∀ i, ((u.postProcess meas (s.boxPlus (DState.ofFn r.1))).fea i).c.validNor = true := boxPlus_nor _
    simp only [hc, Option.bind_eq_bind, Option.bind_some, Option.pure_def, fix_eq hpU hpn, Option.some.injEq] at hf
    rw [← hf]
    have hpost : Same (u.postProcess meas (s.boxPlus (DState.ofFn r.1))) (s.boxPlus (DState.ofFn r.1)) :=
      ⟨rfl, rfl, rfl, rfl, rfl, rfl, rfl, fun _ => rfl, rfl⟩
    refine ⟨⟨((fixed_same hpn).trans hpost).trans ((boxPlus_same hok (DState.odoZero_of h1)).trans hsame), ?_⟩,
      ⟨fixed_ok hpU, BlockDiag.symm h3, symm_symm _, hnf.trans hx.noFeedback, hvm ▸ hx.unitVM⟩⟩
    simp only [Cov.odo_symm]
    rw [h2, symm_of_symm]
    rw [← Cov.odo_tr, hx.symmetric]

lemma step_rel {cfg : FCfg n (nCam + 1) nPose} {e : Step n (nCam + 1) nPose} (he : e.Good) {x y x' : FSt n (nCam + 1) nPose} (h : Rel x y) (hx : x.Good) (hy : y.Good)
    (hf : x.step cfg e = some x') (hp : e.isPose = false) : ∃ y', y.step cfg e = some y' ∧ Rel x' y' ∧ x'.Good ∧ y'.Good := by
  cases e with
  | predict m dt => exact predict_rel h hx hy hf
  | velocity meas => exact velocity_rel h hx hy hf
  | zeroVel tr => exact zeroVel_rel h hx hy hf
  | image alg =>
    simp only [step] at hf ⊢
    rw [← odo_eq_iff.mpr h.s, ← h.P]
    cases ha : alg x.s.odo x.P.odo with
    | none => simp only [ha, Option.some.injEq] at hf ⊢; subst hf; exact ⟨y, rfl, h, hx, hy⟩
    | some c => simp only [ha] at hf ⊢; exact image_rel h hx hy hf
  | manage alg =>
    simp only [step, Option.some.injEq] at hf ⊢
    subst hf
    exact ⟨_, rfl, manage_rel he h hx hy⟩
  | pose meas => cases hp

lemma Rel.trans {x y z : FSt n nCam nPose} (h : Rel x y) (h' : Rel y z) : Rel x z := ⟨h.s.trans h'.s, h.P.trans h'.P⟩

lemma run_rel {cfg : FCfg n (nCam + 1) nPose} {es : List (Step n (nCam + 1) nPose)} (he : ∀ e ∈ es, e.Good) {x y x' : FSt n (nCam + 1) nPose} (h : Rel x y) (hx : x.Good)
    (hy : y.Good) (hf : x.run cfg es = some x') : ∃ y', y.run cfg (es.filter fun e => !e.isPose) = some y' ∧ Rel x' y' ∧ x'.Good ∧ y'.Good := by
  induction es generalizing x y with
  | nil => simp only [run, List.foldlM_nil, Option.pure_def, Option.some.injEq] at hf; subst hf; exact ⟨y, rfl, h, hx, hy⟩
  | cons e es ih =>
    simp only [run, List.foldlM_cons, Option.bind_eq_bind] at hf
    cases hs : x.step cfg e with
    | none => simp [hs] at hf
    | some x₁ =>
      rw [hs, Option.bind_some] at hf
      have hg := he e (by simp)
      cases hp : e.isPose with
      | false =>
        obtain ⟨y₁, hy₁, h₁, g, g'⟩ := step_rel hg h hx hy hs hp
        obtain ⟨y', hy', r⟩ := ih (fun a ha => he a (by simp [ha])) h₁ g g' hf
        refine ⟨y', ?_, r⟩
        rw [List.filter_cons_of_pos (by simp [hp])]
        simp only [run, List.foldlM_cons, Option.bind_eq_bind]
        rw [hy₁, Option.bind_some]; exact hy'
      | true =>
        have hpose : ∃ meas, e = .pose meas := by cases e <;> first | exact ⟨_, rfl⟩ | cases hp
        obtain ⟨meas, rfl⟩ := hpose
        obtain ⟨h₁, g⟩ := pose_rel hg hx hs
        obtain ⟨y', hy', r⟩ := ih (fun a ha => he a (by simp [ha])) (h₁.trans h) g hy hf
        refine ⟨y', ?_, r⟩
        rw [List.filter_cons_of_neg (by simp [hp])]
        exact hy'

end FSt

/-- With the no-feedback option and initially uncorrelated alignments, a run with pose measurements and the same run without them end
with the same estimate and the same covariance of everything but the alignments (and the pose recorded for display). -/
theorem C46_noninterference (cfg : FCfg n (nCam + 1) nPose) (es : List (Step n (nCam + 1) nPose)) (he : ∀ e ∈ es, e.Good) (x x' : FSt n (nCam + 1) nPose) (hx : x.Good)
    (hf : x.run cfg es = some x') :
    ∃ y, x.run cfg (es.filter fun e => !e.isPose) = some y ∧ x'.s.odo = y.s.odo ∧ ∀ a b, a.isAlign = false → b.isAlign = false → x'.P a b = y.P a b := by
  obtain ⟨y, hy, r, -, -⟩ := FSt.run_rel he ⟨⟨rfl, rfl, rfl, rfl, rfl, rfl, rfl, fun _ => rfl, rfl⟩, rfl⟩ hx hx hf
  refine ⟨y, hy, odo_eq_iff.mpr r.s, fun a b ha hb => ?_⟩
  obtain ⟨a, rfl⟩ := Ix.ofOdo_surj ha
  obtain ⟨b, rfl⟩ := Ix.ofOdo_surj hb
  exact congrFun (congrFun r.P a) b

end Rovio
