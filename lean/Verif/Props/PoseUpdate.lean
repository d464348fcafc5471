import Verif.Props.Outputs
import Verif.Model.PoseUpdate
import Verif.Spec.Covariance

/-!
# Properties C44, C45, C47, C48, C72: pose and velocity updates
-/

namespace Rovio

open Spec Distance Matrix

variable {n nCam nPose : ℕ}

/-! ### C45: Jacobians of the pose update -/

/-- The two frame alignments are stored in different slots (or are not estimated). -/
def PoseUpd.Distinct (u : PoseUpd nPose) : Prop := ∀ k, u.inertial = some k → u.body ≠ some k

/-- All attitudes used by the update are unit quaternions. -/
structure PoseUpd.Unit (u : PoseUpd nPose) (s : State n nCam nPose) : Prop where
  att : s.att.IsUnit
  qWI : (u.getqWI s).IsUnit
  qVM : (u.getqVM s).IsUnit

/-- Specification: a family of innovations has the given derivative at 0. -/
structure HasDerivInnov (y : ℝ → PoseInnov) (d : DPose) : Prop where
  pos : HasDerivV3 (fun t => (y t).pos) d.pos 0
  att : HasAngVel (fun t => (y t).att) d.att 0

/-- The increment of an optional slot. -/
def pick (i : Option (Fin nPose)) (f : Fin nPose → V3) : V3 := match i with | some k => f k | none => 0

lemma twoBlocks_eq {i b : Option (Fin nPose)} (h : ∀ k, i = some k → b ≠ some k) (A B : M3) (δ : Fin nPose → V3) :
    PoseUpd.twoBlocks i b A B δ = A.mulVec (pick i δ) + B.mulVec (pick b δ) := by
  have z : ∀ A : M3, A.mulVec (0 : V3) = 0 := fun A => by ext <;> simp [M3.mulVec, V3.dot]
  cases i with
  | none => cases b <;> simp [PoseUpd.twoBlocks, pick, z]
  | some k =>
    have := h k rfl
    cases b with
    | none => simp [PoseUpd.twoBlocks, pick, z]
    | some m => simp [PoseUpd.twoBlocks, pick, this]

lemma oneBlock_eq (i : Option (Fin nPose)) (A : M3) (δ : Fin nPose → V3) : PoseUpd.oneBlock i A δ = A.mulVec (pick i δ) := by
  have z : ∀ A : M3, A.mulVec (0 : V3) = 0 := fun A => by ext <;> simp [M3.mulVec, V3.dot]
  cases i <;> simp [PoseUpd.oneBlock, pick, z]

section deriv
variable (u : PoseUpd nPose) (s : State n nCam nPose) (δ : DState n nCam nPose)

lemma deriv_getIrIW : HasDerivV3 (fun t => u.getIrIW (s.along δ t)) (pick u.inertial δ.pop) 0 := by
  unfold PoseUpd.getIrIW pick
  cases u.inertial with
  | none => exact HasDerivV3.const _
  | some k => exact HasDerivV3.line _ _

lemma deriv_getMrMV : HasDerivV3 (fun t => u.getMrMV (s.along δ t)) (pick u.body δ.pop) 0 := by
  unfold PoseUpd.getMrMV pick
  cases u.body with
  | none => exact HasDerivV3.const _
  | some k => exact HasDerivV3.line _ _

lemma deriv_getqWI : HasAngVel (fun t => u.getqWI (s.along δ t)) (pick u.inertial δ.poa) 0 := by
  unfold PoseUpd.getqWI pick
  cases u.inertial with
  | none => exact HasAngVel.const _
  | some k => exact HasAngVel.boxPlus _ _

lemma deriv_getqVM : HasAngVel (fun t => u.getqVM (s.along δ t)) (pick u.body δ.poa) 0 := by
  unfold PoseUpd.getqVM pick
  cases u.body with
  | none => exact HasAngVel.const _
  | some k => exact HasAngVel.boxPlus _ _

lemma at0_pop (k : Fin nPose) : (s.along δ 0).pop k = s.pop k := by
  show s.pop k + (0:ℝ) • δ.pop k = _
  ext <;> simp
lemma at0_poa (k : Fin nPose) : (s.along δ 0).poa k = s.poa k := Quat.boxPlus_zero _ _

lemma at0_getIrIW : u.getIrIW (s.along δ 0) = u.getIrIW s := by
  unfold PoseUpd.getIrIW; cases u.inertial <;> simp [at0_pop]
lemma at0_getMrMV : u.getMrMV (s.along δ 0) = u.getMrMV s := by
  unfold PoseUpd.getMrMV; cases u.body <;> simp [at0_pop]
lemma at0_getqWI : u.getqWI (s.along δ 0) = u.getqWI s := by
  unfold PoseUpd.getqWI; cases u.inertial <;> simp [at0_poa]
lemma at0_getqVM : u.getqVM (s.along δ 0) = u.getqVM s := by
  unfold PoseUpd.getqVM; cases u.body <;> simp [at0_poa]

end deriv

/-- The tangent vector seen by the Jacobian: without feedback the columns of position and attitude are absent. -/
def PoseUpd.masked (u : PoseUpd nPose) (δ : DState n nCam nPose) : DState n nCam nPose :=
  if u.noFeedback then { δ with pos := 0, att := 0 } else δ

lemma jacState_masked (u : PoseUpd nPose) (s : State n nCam nPose) (δ : DState n nCam nPose) :
    u.jacState s δ = { u with noFeedback := false }.jacState s (u.masked δ) := by
  have z : ∀ A : M3, A.mulVec (0 : V3) = 0 := fun A => by ext <;> simp [M3.mulVec, V3.dot]
  cases h : u.noFeedback
  · simp [PoseUpd.jacState, PoseUpd.masked, h, PoseUpd.getqWI, PoseUpd.getMrMV, PoseUpd.getqVM]
  · simp only [PoseUpd.jacState, PoseUpd.masked, h, PoseUpd.getqWI, PoseUpd.getMrMV, PoseUpd.getqVM, if_true, Bool.false_eq_true, if_false, z]
    congr 1
    congr 3
    ext <;> simp

/-- C45: for every configuration of enabled components and estimated alignments, the innovation moves with the state Jacobian and
the noise Jacobian, jointly in the state increment and the noise.  With `noFeedbackToRovio` this holds for increments which leave
the position and attitude of the platform alone (their columns are deliberately zero, see `C46_columns`). -/
theorem C45_jacobian (u : PoseUpd nPose) (meas : PoseMeas) (s : State n nCam nPose) (hd : u.Distinct) (hu : u.Unit s)
    (δ : DState n nCam nPose) (hf : u.noFeedback = false ∨ (δ.pos = 0 ∧ δ.att = 0)) (ν : DPose) :
    HasDerivInnov (fun t => u.innov meas (s.boxPlus (δ.scale t)) ⟨t • ν.pos, t • ν.att⟩)
      ⟨(u.jacState s δ).pos + (PoseUpd.jacNoise ν).pos, (u.jacState s δ).att + (PoseUpd.jacNoise ν).att⟩ := by
  have hm : u.masked δ = δ := by
    unfold PoseUpd.masked
    rcases hf with h | ⟨h1, h2⟩
    · simp [h]
    · split
      · cases δ; simp only at h1 h2; subst h1; subst h2; rfl
      · rfl
  rw [jacState_masked, hm]
  have e1 := at0_getqWI u s δ
  have e2 := at0_getMrMV u s δ
  have e3 := at0_getqVM u s δ
  have e4 := s.at0_att δ
  have e5 := s.at0_pos δ
  have nl : HasDerivV3 (fun t : ℝ => t • ν.pos) ν.pos 0 := by
    refine ((HasDerivV3.line (0 : V3) ν.pos).congr fun t => ?_)
    ext <;> simp
  have na : HasAngVel (fun t : ℝ => Quat.exp (t • ν.att)) ν.att 0 := by
    refine (HasAngVel.boxPlus Quat.one ν.att).congr fun t => ?_
    simp [Quat.boxPlus, Quat.mul_one']
  have n0 : Quat.exp ((0:ℝ) • ν.att) = Quat.one := by rw [show (0:ℝ) • ν.att = 0 by ext <;> simp, Quat.exp_zero]
  constructor
  · cases hp : u.enablePosition
    · simp only [PoseUpd.innov, PoseUpd.jacState, PoseUpd.jacNoise, hp, Bool.false_eq_true, if_false, M3.one_mulVec]
      exact nl.congr_deriv (by ext <;> simp)
    · simp only [PoseUpd.innov, PoseUpd.jacState, PoseUpd.jacNoise, hp, if_true, Bool.false_eq_true, if_false]
      have hr := HasAngVel.rotate (HasAngVel.inv (deriv_getqWI u s δ) (by rw [e1]; exact hu.qWI))
        ((s.deriv_pos δ).add (HasAngVel.rotate (s.deriv_att δ) (deriv_getMrMV u s δ)))
      rw [e1, e2, e4, e5] at hr
      refine ((((deriv_getIrIW u s δ).add hr).sub (HasDerivV3.const meas.pos)).add nl).congr_deriv ?_
      rw [twoBlocks_eq hd, oneBlock_eq]
      simp only [M3.mul_mulVec, M3.one_mulVec, M3.neg_mulVec, V3.skew_mulVec, Quat.mat_mulVec, Quat.rotate_mul, Quat.rotate_add]
      have ea : (u.getqWI s).inv.rotate (δ.att.cross (s.att.rotate (u.getMrMV s))) =
          -((u.getqWI s).inv.rotate ((s.att.rotate (u.getMrMV s)).cross δ.att)) := by
        rw [← Quat.rotate_neg]; congr 1; ext <;> simp <;> ring
      simp only [PoseUpd.getqWI, PoseUpd.getMrMV, Quat.rotate_add] at ea ⊢
      rw [ea]
      generalize (match u.inertial with | some k => s.poa k | none => u.qWI) = qWI
      generalize pick u.inertial δ.poa = a
      generalize pick u.inertial δ.pop = b
      generalize qWI.inv.rotate (s.att.rotate (pick u.body δ.pop)) = c
      ext <;> simp <;> ring
  · cases ha : u.enableAttitude
    · simp only [PoseUpd.innov, PoseUpd.jacState, PoseUpd.jacNoise, ha, Bool.false_eq_true, if_false, M3.one_mulVec]
      exact na.congr_deriv (by ext <;> simp)
    · simp only [PoseUpd.innov, PoseUpd.jacState, PoseUpd.jacNoise, ha, if_true, Bool.false_eq_true, if_false]
      have h1 := HasAngVel.mul na (deriv_getqVM u s δ) (by rw [n0]; exact Quat.isUnit_one)
      have h2 := HasAngVel.mul h1 (HasAngVel.inv (s.deriv_att δ) (by rw [e4]; exact hu.att))
        (by simp only [n0, e3, Quat.one_mul']; exact hu.qVM)
      have h3 := HasAngVel.mul h2 (deriv_getqWI u s δ)
        (by simp only [n0, e3, e4, Quat.one_mul']; exact hu.qVM.mul hu.att.inv)
      have h4 := HasAngVel.mul h3 (HasAngVel.const (t := 0) meas.att.inv)
        (by simp only [n0, e3, e4, e1, Quat.one_mul']; exact (hu.qVM.mul hu.att.inv).mul hu.qWI)
      refine h4.congr_deriv ?_
      simp only [n0, e3, e4, e1, Quat.one_mul', Quat.rotate_one]
      rw [twoBlocks_eq hd]
      simp only [M3.one_mulVec, M3.neg_mulVec, Quat.mat_mulVec, Quat.rotate_mul, Quat.rotate_neg, Quat.rotate_zero]
      simp only [PoseUpd.getqVM]
      ext <;> simp <;> ring

/-- A state and an update with both alignments estimated. -/
noncomputable def demoPoseState : State 0 1 2 where
  pos := ⟨1, 2, 3⟩
  vel := 0
  acb := 0
  gyb := 0
  att := ⟨0.6, 0, 0.8, 0⟩
  vep := fun _ => ⟨0, 0, 0.1⟩
  vea := fun _ => Quat.one
  fea := Fin.elim0
  pop := fun _ => ⟨0, 1, 0⟩
  poa := fun _ => ⟨0.8, 0.6, 0, 0⟩
  aux :=
    { MwWMest := 0, MwWMmeas := 0, wMeasCov := M3.one, doVE := true, qCM := fun _ => Quat.one, MrMC := fun _ => 0, tInertial := 0, tImage := 0
      poseMeasRot := Quat.one, poseMeasLin := 0 }

/-- An update estimating both alignments, with feedback. -/
noncomputable def demoPoseUpd (i b : Option (Fin 2)) : PoseUpd 2 :=
  { inertial := i, body := b, qVM := Quat.one, MrMV := 0, qWI := Quat.one, IrIW := 0, defaultNoise := 1, noise := 1, enablePosition := true
    enableAttitude := true, noFeedback := false, doAlign := true, didAlign := false, useOdometryCov := false }

lemma demoPose_unit (i b : Option (Fin 2)) : (demoPoseUpd i b).Unit demoPoseState := by
  refine ⟨by norm_num [demoPoseState, Quat.IsUnit, Quat.normSq], ?_, ?_⟩
  · cases i
    · exact Quat.isUnit_one
    · norm_num [PoseUpd.getqWI, demoPoseUpd, demoPoseState, Quat.IsUnit, Quat.normSq]
  · cases b
    · exact Quat.isUnit_one
    · norm_num [PoseUpd.getqVM, demoPoseUpd, demoPoseState, Quat.IsUnit, Quat.normSq]

/-- The hypotheses of `C45_jacobian` are met with both alignments estimated. -/
example : (demoPoseUpd (some 0) (some 1)).Distinct ∧ (demoPoseUpd (some 0) (some 1)).Unit demoPoseState ∧
    (demoPoseUpd (some 0) (some 1)).noFeedback = false :=
  ⟨by intro k hk; simp only [demoPoseUpd, Option.some.injEq] at hk; subst hk; simp [demoPoseUpd], demoPose_unit _ _, rfl⟩

/-- C45 (finding): if both template indices name the same slot — which the static assertions allow — the Jacobian is wrong: the block
of the inertial alignment is overwritten by that of the body alignment. -/
theorem C45_finding_same_index : ∃ (u : PoseUpd 2) (meas : PoseMeas) (s : State 0 1 2) (δ : DState 0 1 2), u.inertial = some 0 ∧
    u.body = some 0 ∧ u.Unit s ∧ u.noFeedback = false ∧
    ¬ HasDerivInnov (fun t => u.innov meas (s.boxPlus (δ.scale t)) ⟨(t : ℝ) • 0, (t : ℝ) • 0⟩) (u.jacState s δ) := by
  refine ⟨demoPoseUpd (some 0) (some 0), ⟨0, Quat.one, 1⟩, { demoPoseState with att := Quat.one, poa := fun _ => Quat.one, pop := fun _ => 0 },
    { (0 : DState 0 1 2) with pop := fun _ => ⟨1, 0, 0⟩ }, rfl, rfl, ⟨Quat.isUnit_one, Quat.isUnit_one, Quat.isUnit_one⟩, rfl, fun h => ?_⟩
  have h1 := h.pos.x
  have h2 : HasDerivAt (fun t : ℝ => 2 * t + 1) 2 0 := by
    simpa using ((hasDerivAt_id' (0:ℝ)).const_mul 2).add_const (1:ℝ)
  have e : (fun t : ℝ => ((demoPoseUpd (some 0) (some 0)).innov ⟨0, Quat.one, 1⟩
      (State.boxPlus { demoPoseState with att := Quat.one, poa := fun _ => Quat.one, pop := fun _ => 0 }
        (DState.scale t { (0 : DState 0 1 2) with pop := fun _ => ⟨1, 0, 0⟩ })) ⟨(t : ℝ) • 0, (t : ℝ) • 0⟩).pos.x) = fun t : ℝ => 2 * t + 1 := by
    funext t
    have z : (t • (0 : V3)) = 0 := by ext <;> simp
    have b1 : Quat.boxPlus Quat.one (t • (0 : V3)) = Quat.one := by rw [z]; simp [Quat.boxPlus, Quat.exp_zero, Quat.one_mul']
    simp only [PoseUpd.innov, demoPoseUpd, if_true, PoseUpd.getIrIW, PoseUpd.getqWI, PoseUpd.getMrMV, State.boxPlus, DState.scale, DState.zero_poa,
      DState.zero_att, b1, Quat.rotate_one, DState.zero_pos]
    have i1 : Quat.one.inv = Quat.one := by ext <;> simp [Quat.inv, Quat.one]
    rw [i1, Quat.rotate_one]
    simp [demoPoseState]
    ring
  rw [e] at h1
  have := h1.unique h2
  revert this
  have z : ∀ A : M3, A.mulVec (0 : V3) = 0 := fun A => by ext <;> simp [M3.mulVec, V3.dot]
  simp only [PoseUpd.jacState, demoPoseUpd, if_true, Bool.false_eq_true, if_false, PoseUpd.twoBlocks, PoseUpd.oneBlock, DState.zero_poa,
    DState.zero_att, DState.zero_pos, z, PoseUpd.getqWI, Quat.mat_mulVec]
  have i1 : Quat.one.inv = Quat.one := by ext <;> simp [Quat.inv, Quat.one]
  rw [i1, Quat.one_mul', Quat.rotate_one]
  simp

/-! ### C44: alignment at start -/

lemma setNoise_fields (x : PoseUpd nPose) (meas : PoseMeas) : ∃ N, x.setNoise meas = { x with noise := N } := by
  unfold PoseUpd.setNoise
  split
  · exact ⟨_, rfl⟩
  · exact ⟨_, rfl⟩

/-- What the first alignment stores. -/
lemma align_first (u : PoseUpd nPose) (meas : PoseMeas) (s : State n nCam nPose) (hda : u.didAlign = false) (hal : u.doAlign = true) :
    u.align meas s =
      ({ u with qWI := s.att * (u.getqVM s).inv * meas.att, didAlign := true,
                IrIW := meas.pos - (s.att * (u.getqVM s).inv * meas.att).inv.rotate (s.pos + s.att.rotate (u.getMrMV s)) },
       match u.inertial with
        | some k => { s with
            poa := Function.update s.poa k (s.att * (u.getqVM s).inv * meas.att)
            pop := Function.update s.pop k
              (meas.pos - (s.att * (u.getqVM s).inv * meas.att).inv.rotate (s.pos + s.att.rotate (u.getMrMV s))) }
        | none => s) := by
  unfold PoseUpd.align
  rw [if_pos ⟨hda, hal⟩]
  cases hi : u.inertial <;> rfl

/-- C44: with alignment at start enabled, right after pre-processing the first measurement its noise-free innovation is zero and the
identity; only the alignment slot of the state has been written. -/
theorem C44_first_innovation (u : PoseUpd nPose) (meas : PoseMeas) (s : State n nCam nPose) (hd : u.Distinct) (hda : u.didAlign = false)
    (hal : u.doAlign = true) (ha : s.att.IsUnit) (hv : (u.getqVM s).IsUnit) (hm : meas.att.IsUnit) :
    ((u.preProcess meas s).1.innov meas (u.preProcess meas s).2 ⟨0, 0⟩) = ⟨0, Quat.one⟩ ∧
    (u.preProcess meas s).1.didAlign = true ∧
    (∀ k, u.inertial ≠ some k → (u.preProcess meas s).2.pop k = s.pop k ∧ (u.preProcess meas s).2.poa k = s.poa k) ∧
    { (u.preProcess meas s).2 with pop := s.pop, poa := s.poa } = s := by
  obtain ⟨N, hN⟩ := setNoise_fields (u.align meas s).1 meas
  unfold PoseUpd.preProcess
  rw [hN, align_first u meas s hda hal]
  obtain ⟨q, hq⟩ : ∃ q : Quat, q = s.att * (u.getqVM s).inv * meas.att := ⟨_, rfl⟩
  have hqu : q.IsUnit := hq ▸ (ha.mul hv.inv).mul hm
  have hatt : u.getqVM s * s.att.inv * q * meas.att.inv = Quat.one := by
    rw [hq, Quat.mul_assoc' _ _ meas.att.inv, Quat.mul_assoc' (s.att * _) _ _, Quat.mul_inv_self hm, Quat.mul_one',
      Quat.mul_assoc' (u.getqVM s), ← Quat.mul_assoc' s.att.inv, Quat.inv_mul_self ha, Quat.one_mul', Quat.mul_inv_self hv]
  rw [← hq]
  cases hi : u.inertial with
  | none =>
    refine ⟨?_, rfl, fun k _ => ⟨rfl, rfl⟩, rfl⟩
    simp only [PoseUpd.innov, PoseUpd.getqWI, PoseUpd.getIrIW, hi, Quat.exp_zero, Quat.one_mul', PoseInnov.mk.injEq]
    refine ⟨?_, ?_⟩
    · split
      · simp only [PoseUpd.getMrMV]; ext <;> simp
      · rfl
    · split
      · exact hatt
      · rfl
  | some k =>
    have hb : u.body ≠ some k := hd k hi
    refine ⟨?_, rfl, fun j hj => ?_, rfl⟩
    · have hV' : u.getqVM { s with
            poa := Function.update s.poa k q
            pop := Function.update s.pop k (meas.pos - q.inv.rotate (s.pos + s.att.rotate (u.getMrMV s))) } = u.getqVM s ∧
          u.getMrMV { s with
            poa := Function.update s.poa k q
            pop := Function.update s.pop k (meas.pos - q.inv.rotate (s.pos + s.att.rotate (u.getMrMV s))) } = u.getMrMV s := by
        simp only [PoseUpd.getqVM, PoseUpd.getMrMV]
        cases hbb : u.body with
        | none => exact ⟨rfl, rfl⟩
        | some j =>
          have hjk : j ≠ k := fun e => hb (by rw [hbb, e])
          exact ⟨Function.update_of_ne hjk _ _, Function.update_of_ne hjk _ _⟩
      simp only [PoseUpd.innov, PoseUpd.getqWI, PoseUpd.getIrIW, Quat.exp_zero, Quat.one_mul', PoseInnov.mk.injEq, Function.update_self]
      refine ⟨?_, ?_⟩
      · split
        · have := hV'.2
          simp only [PoseUpd.getMrMV] at this ⊢
          rw [this]
          ext <;> simp
        · rfl
      · split
        · have := hV'.1
          simp only [PoseUpd.getqVM] at this hatt ⊢
          rw [this]
          exact hatt
        · rfl
    · have : j ≠ k := fun e => hj (by rw [e])
      exact ⟨Function.update_of_ne this _ _, Function.update_of_ne this _ _⟩

example : (demoPoseUpd (some 0) (some 1)).Distinct ∧ (demoPoseUpd (some 0) (some 1)).didAlign = false ∧
    (demoPoseUpd (some 0) (some 1)).doAlign = true ∧ (demoPoseUpd none none).Distinct :=
  ⟨by intro k hk; simp only [demoPoseUpd, Option.some.injEq] at hk; subst hk; simp [demoPoseUpd], rfl, rfl, by intro k hk; simp [demoPoseUpd] at hk⟩

/-- Pre-processing a sequence of measurements, each with whatever state the filter has at that time (after predictions, other updates or
resets). -/
noncomputable def PoseUpd.preAll (u : PoseUpd nPose) : List (PoseMeas × State n nCam nPose) → PoseUpd nPose
  | [] => u
  | (m, s) :: l => (u.preProcess m s).1.preAll l

/-- C44: once aligned, no later measurement changes the stored alignment or the state, whatever happened to the filter in between (in
particular a reset does not re-arm the alignment). -/
theorem C44_once (u : PoseUpd nPose) (hda : u.didAlign = true) (l : List (PoseMeas × State n nCam nPose)) (m : PoseMeas) (s : State n nCam nPose) :
    (u.preAll l).qWI = u.qWI ∧ (u.preAll l).IrIW = u.IrIW ∧ (u.preAll l).didAlign = true ∧ ((u.preAll l).preProcess m s).2 = s := by
  induction l generalizing u with
  | nil =>
    refine ⟨rfl, rfl, hda, ?_⟩
    simp [PoseUpd.preAll, PoseUpd.preProcess, PoseUpd.align, hda]
  | cons a l ih =>
    obtain ⟨m', s'⟩ := a
    obtain ⟨N, hN⟩ := setNoise_fields u m'
    have e : (u.preProcess m' s').1 = { u with noise := N } := by
      have : u.align m' s' = (u, s') := by unfold PoseUpd.align; rw [if_neg (by rw [hda]; simp)]
      simp only [PoseUpd.preProcess, this]
      exact hN
    have := ih (u.preProcess m' s').1 (by rw [e]; exact hda)
    simp only [PoseUpd.preAll]
    rw [e] at this ⊢
    exact this

/-- C44: with alignment at start disabled the configured alignment is never touched. -/
theorem C44_disabled (u : PoseUpd nPose) (hal : u.doAlign = false) (l : List (PoseMeas × State n nCam nPose)) (m : PoseMeas)
    (s : State n nCam nPose) : (u.preAll l).qWI = u.qWI ∧ (u.preAll l).IrIW = u.IrIW ∧ ((u.preAll l).preProcess m s).2 = s := by
  induction l generalizing u with
  | nil =>
    refine ⟨rfl, rfl, ?_⟩
    simp [PoseUpd.preAll, PoseUpd.preProcess, PoseUpd.align, hal]
  | cons a l ih =>
    obtain ⟨m', s'⟩ := a
    obtain ⟨N, hN⟩ := setNoise_fields u m'
    have e : (u.preProcess m' s').1 = { u with noise := N } := by
      have : u.align m' s' = (u, s') := by unfold PoseUpd.align; rw [if_neg (by rw [hal]; simp)]
      simp only [PoseUpd.preProcess, this]
      exact hN
    have := ih (u.preProcess m' s').1 (by rw [e]; exact hal)
    simp only [PoseUpd.preAll]
    rw [e] at this ⊢
    exact this

/-- C44 (finding): after a reset of the filter to another pose the stored alignment is stale: the platform has not moved and the same pose
is measured again, but the innovation is as large as the jump of the world frame. -/
theorem C44_finding_reset (d : V3) : ∃ (u : PoseUpd 2) (meas : PoseMeas) (s : State 0 1 2), u.doAlign = true ∧ u.didAlign = false ∧
    s.att.IsUnit ∧ (((u.preProcess meas s).1.preProcess meas (s.initWithImuPose (s.pos + d) s.att.inv)).1.innov meas
      ((u.preProcess meas s).1.preProcess meas (s.initWithImuPose (s.pos + d) s.att.inv)).2 ⟨0, 0⟩).pos = d := by
  refine ⟨demoPoseUpd none none, ⟨0, Quat.one, 1⟩, { demoPoseState with att := Quat.one }, rfl, rfl, Quat.isUnit_one, ?_⟩
  have i1 : Quat.one.inv = Quat.one := by ext <;> simp [Quat.inv, Quat.one]
  simp only [PoseUpd.preProcess, PoseUpd.align, demoPoseUpd, PoseUpd.setNoise, PoseUpd.innov, PoseUpd.getIrIW, PoseUpd.getqWI, PoseUpd.getqVM,
    PoseUpd.getMrMV, State.initWithImuPose, and_self, if_true, Bool.true_eq_false, false_and, if_false, i1, Quat.one_mul', Quat.rotate_one,
    Bool.false_eq_true]
  ext <;> simp

/-! ### C72: the recorded pose measurement -/

/-- C72: the pose recorded for display is the pose of camera 0 predicted from the measurement: it equals the estimated camera pose exactly
when the noise-free innovation vanishes. -/
theorem C72_recorded_pose (u : PoseUpd nPose) (meas : PoseMeas) (s : State n (nCam + 1) nPose) (hu : u.Unit s) (hm : meas.att.IsUnit)
    (hc : (s.qCM 0).IsUnit) :
    (u.enablePosition = true → ((u.postProcess meas s).aux.poseMeasLin = s.WrWC 0 ↔ (u.innov meas s ⟨0, 0⟩).pos = 0)) ∧
    (u.enableAttitude = true → ((u.postProcess meas s).aux.poseMeasRot = s.qCW 0 ↔ (u.innov meas s ⟨0, 0⟩).att = Quat.one)) ∧
    { (u.postProcess meas s) with aux := { (u.postProcess meas s).aux with poseMeasLin := s.aux.poseMeasLin, poseMeasRot := s.aux.poseMeasRot } } = s := by
  refine ⟨fun h => ?_, fun h => ?_, rfl⟩
  · simp only [PoseUpd.postProcess, PoseUpd.innov, h, if_true, State.WrWC]
    rw [Quat.rotate_mul]
    have key : ∀ a b : V3, (u.getqWI s).rotate a = b ↔ a = (u.getqWI s).inv.rotate b := fun a b =>
      ⟨fun e => by rw [← e, Quat.rotate_inv_rotate hu.qWI], fun e => by rw [e, Quat.rotate_rotate_inv hu.qWI]⟩
    have k2 := key (meas.pos - (u.getqWI s).inv.rotate (s.att.rotate (u.getMrMV s)) - u.getIrIW s) s.pos
    rw [Quat.rotate_add]
    constructor
    · intro e
      have : (u.getqWI s).rotate (meas.pos - (u.getqWI s).inv.rotate (s.att.rotate (u.getMrMV s)) - u.getIrIW s) = s.pos := by
        have ex := congrArg V3.x e
        have ey := congrArg V3.y e
        have ez := congrArg V3.z e
        simp only [V3.add_x, V3.add_y, V3.add_z] at ex ey ez
        ext <;> linarith
      rw [k2] at this
      rw [← this]; ext <;> simp <;> ring
    · intro e
      have : meas.pos - (u.getqWI s).inv.rotate (s.att.rotate (u.getMrMV s)) - u.getIrIW s = (u.getqWI s).inv.rotate s.pos := by
        have ex := congrArg V3.x e
        have ey := congrArg V3.y e
        have ez := congrArg V3.z e
        simp only [V3.add_x, V3.add_y, V3.add_z, V3.sub_x, V3.sub_y, V3.sub_z, V3.zero_x, V3.zero_y, V3.zero_z] at ex ey ez
        ext
        · simp only [V3.sub_x]; linarith
        · simp only [V3.sub_y]; linarith
        · simp only [V3.sub_z]; linarith
      rw [k2.mpr this]
  · simp only [PoseUpd.postProcess, PoseUpd.innov, h, if_true, State.qCW, Quat.exp_zero, Quat.one_mul']
    have hv := hu.qVM
    have hw := hu.qWI
    have ha := hu.att
    generalize u.getqVM s = qVM at *
    generalize u.getqWI s = qWI at *
    generalize s.qCM 0 = qCM at *
    generalize s.att = qWM at *
    generalize meas.att = m at *
    -- cancel on both sides
    constructor
    · intro e
      have e2 : m * qWI.inv = qVM * qWM.inv := by
        have := congrArg (fun x => qVM * (qCM.inv * x)) e
        simp only [← Quat.mul_assoc'] at this
        rw [Quat.mul_assoc' qVM qCM.inv qCM, Quat.inv_mul_self hc, Quat.mul_one', Quat.mul_inv_self hv, Quat.one_mul'] at this
        exact this
      have : qVM * qWM.inv * qWI = m := by
        rw [← e2, Quat.mul_assoc', Quat.inv_mul_self hw, Quat.mul_one']
      rw [this, Quat.mul_inv_self hm]
    · intro e
      have : qVM * qWM.inv * qWI = m := by
        have := congrArg (fun x => x * m) e
        simp only [Quat.mul_assoc' _ m.inv m, Quat.inv_mul_self hm, Quat.mul_one', Quat.one_mul'] at this
        exact this
      rw [← this]
      simp only [← Quat.mul_assoc']
      rw [Quat.mul_assoc' qCM qVM.inv qVM, Quat.inv_mul_self hv, Quat.mul_one', Quat.mul_assoc' _ qWI qWI.inv, Quat.mul_inv_self hw, Quat.mul_one']

example : (demoPoseUpd (some 0) (some 1)).Unit demoPoseState ∧ (demoPoseState.qCM 0).IsUnit := ⟨demoPose_unit _ _, Quat.isUnit_one⟩

/-! ### C48: velocity updates -/

/-- C48: the noise-free velocity innovation is zero exactly if the velocity of the platform (the IMU output's `BvB`), rotated into the
measurement frame, is the measured one; the zero-velocity innovation exactly if the platform is at rest. -/
theorem C48_zero (qAM : Quat) (m : V3) (s : State n nCam nPose) :
    (velInnov qAM m s 0 = 0 ↔ qAM.rotate s.imuOut.BvB = m) ∧ (zeroVelInnov s 0 = 0 ↔ s.imuOut.BvB = 0) := by
  constructor
  · simp only [velInnov, State.imuOut, Quat.rotate_neg]
    constructor
    · intro e
      have ex := congrArg V3.x e
      have ey := congrArg V3.y e
      have ez := congrArg V3.z e
      simp only [V3.add_x, V3.add_y, V3.add_z, V3.zero_x, V3.zero_y, V3.zero_z] at ex ey ez
      ext <;> simp <;> linarith
    · intro e
      rw [← e]; ext <;> simp
  · simp only [zeroVelInnov, State.imuOut]
    constructor
    · intro e
      have : s.vel = 0 := by rw [← e]; ext <;> simp
      rw [this]; ext <;> simp
    · intro e
      have : s.vel = 0 := by
        have := congrArg (fun v : V3 => -v) e
        rw [show -(-s.vel) = s.vel by ext <;> simp] at this
        rw [this]; ext <;> simp
      rw [this]; ext <;> simp

/-- C48: both innovations move with their Jacobians, jointly in the state increment and the noise. -/
theorem C48_jacobian (qAM : Quat) (m : V3) (s : State n nCam nPose) (δ : DState n nCam nPose) (ν : V3) :
    HasDerivV3 (fun t => velInnov qAM m (s.boxPlus (δ.scale t)) (t • ν)) (velJac qAM δ + velJacNoise ν) 0 ∧
    HasDerivV3 (fun t => zeroVelInnov (s.boxPlus (δ.scale t)) (t • ν)) (zeroVelJac δ + zeroVelJacNoise ν) 0 := by
  have nl : HasDerivV3 (fun t : ℝ => t • ν) ν 0 := by
    refine ((HasDerivV3.line (0 : V3) ν).congr fun t => ?_)
    ext <;> simp
  constructor
  · have h1 := HasAngVel.rotate (HasAngVel.const (t := 0) qAM) (s.deriv_vel δ)
    refine ((h1.add (HasDerivV3.const m)).add nl).congr_deriv ?_
    simp only [velJac, velJacNoise, Quat.mat_mulVec, M3.one_mulVec]
    ext <;> simp
  · refine ((s.deriv_vel δ).add nl).congr_deriv ?_
    simp only [zeroVelJac, zeroVelJacNoise, M3.one_mulVec]

/-! ### C47: covariance of the pose measurement -/

/-- C47: without odometry covariance the configured covariance is used. -/
theorem C47_configured (u : PoseUpd nPose) (meas : PoseMeas) (s : State n nCam nPose) (h : u.useOdometryCov = false) :
    (u.preProcess meas s).1.noise = u.defaultNoise := by
  have hu : (u.align meas s).1.useOdometryCov = u.useOdometryCov ∧ (u.align meas s).1.defaultNoise = u.defaultNoise := by
    unfold PoseUpd.align; split <;> exact ⟨rfl, rfl⟩
  simp only [PoseUpd.preProcess, PoseUpd.setNoise, hu.1, h, Bool.false_eq_true, if_false, hu.2]

/-- The configured covariance: `a` for the position and `b` for the attitude entries. -/
def scaledBlocks (a b : ℝ) : Matrix PoseIx PoseIx ℝ := Matrix.fromBlocks (a • 1) 0 0 (b • 1)

lemma isCov_block_diag {A B : Matrix (Fin 3) (Fin 3) ℝ} (hA : IsCov A) (hB : IsCov B) :
    IsCov (Matrix.fromBlocks A 0 0 B : Matrix PoseIx PoseIx ℝ) := by
  constructor
  · rw [Matrix.fromBlocks_transpose, hA.symm, hB.symm, Matrix.transpose_zero]
  · intro x
    have := add_nonneg (hA.nonneg (x ∘ Sum.inl)) (hB.nonneg (x ∘ Sum.inr))
    refine this.trans_eq ?_
    rw [Matrix.fromBlocks_mulVec]
    simp [dotProduct, Fintype.sum_sum_type, Matrix.zero_mulVec]

lemma isCov_block₁₁ {C : Matrix PoseIx PoseIx ℝ} (h : IsCov C) : IsCov C.toBlocks₁₁ := by
  constructor
  · ext i j
    have := congrFun (congrFun h.symm (Sum.inl i)) (Sum.inl j)
    exact this
  · intro x
    have := h.nonneg (Sum.elim x 0)
    simpa [dotProduct, Matrix.mulVec, Fintype.sum_sum_type, Matrix.toBlocks₁₁] using this

lemma isCov_block₂₂ {C : Matrix PoseIx PoseIx ℝ} (h : IsCov C) : IsCov C.toBlocks₂₂ := by
  constructor
  · ext i j
    have := congrFun (congrFun h.symm (Sum.inr i)) (Sum.inr j)
    exact this
  · intro x
    have := h.nonneg (Sum.elim 0 x)
    simpa [dotProduct, Matrix.mulVec, Fintype.sum_sum_type, Matrix.toBlocks₂₂] using this

lemma isCov_smul {ι : Type*} [Fintype ι] {C : Matrix ι ι ℝ} (h : IsCov C) {a : ℝ} (ha : 0 ≤ a) : IsCov (a • C) := by
  constructor
  · rw [Matrix.transpose_smul, h.symm]
  · intro x
    rw [Matrix.smul_mulVec, dotProduct_smul]
    exact mul_nonneg ha (h.nonneg x)

/-- C47: with odometry covariance and one configured variance `a` for all entries, the noise used is the measured covariance scaled by
`a`, a valid covariance. -/
theorem C47_uniform (u : PoseUpd nPose) (meas : PoseMeas) (s : State n nCam nPose) (h : u.useOdometryCov = true)
    (hboth : u.enablePosition = u.enableAttitude) (a : ℝ) (ha : 0 ≤ a) (hdef : u.defaultNoise = a • 1) (hc : IsCov meas.cov) :
    (u.preProcess meas s).1.noise = a • meas.cov ∧ IsCov (u.preProcess meas s).1.noise := by
  have hu : (u.align meas s).1.useOdometryCov = u.useOdometryCov ∧ (u.align meas s).1.defaultNoise = u.defaultNoise ∧
      (u.align meas s).1.enablePosition = u.enablePosition ∧ (u.align meas s).1.enableAttitude = u.enableAttitude := by
    unfold PoseUpd.align; split <;> exact ⟨rfl, rfl, rfl, rfl⟩
  have e : (u.preProcess meas s).1.noise = a • meas.cov := by
    simp only [PoseUpd.preProcess, PoseUpd.setNoise, hu.1, h, if_true, hu.2.1, hu.2.2.1, hu.2.2.2, hboth, ne_eq, not_true_eq_false, if_false, hdef]
    rw [Matrix.smul_mul, Matrix.one_mul]
  exact ⟨e, e ▸ isCov_smul hc ha⟩

/-- C47: with separate variances for position and attitude the noise is a valid covariance if the measured covariance has no correlation
between the two, or if only one of the two components is used; it then consists of the two scaled blocks. -/
theorem C47_blocks (u : PoseUpd nPose) (meas : PoseMeas) (s : State n nCam nPose) (h : u.useOdometryCov = true) (a b : ℝ) (ha : 0 ≤ a) (hb : 0 ≤ b)
    (hdef : u.defaultNoise = scaledBlocks a b) (hc : IsCov meas.cov)
    (hsep : u.enablePosition ≠ u.enableAttitude ∨ (meas.cov.toBlocks₁₂ = 0 ∧ meas.cov.toBlocks₂₁ = 0)) :
    (u.preProcess meas s).1.noise = Matrix.fromBlocks (a • meas.cov.toBlocks₁₁) 0 0 (b • meas.cov.toBlocks₂₂) ∧
    IsCov (u.preProcess meas s).1.noise := by
  have hu : (u.align meas s).1.useOdometryCov = u.useOdometryCov ∧ (u.align meas s).1.defaultNoise = u.defaultNoise ∧
      (u.align meas s).1.enablePosition = u.enablePosition ∧ (u.align meas s).1.enableAttitude = u.enableAttitude := by
    unfold PoseUpd.align; split <;> exact ⟨rfl, rfl, rfl, rfl⟩
  have hprod : scaledBlocks a b * meas.cov =
      Matrix.fromBlocks (a • meas.cov.toBlocks₁₁) (a • meas.cov.toBlocks₁₂) (b • meas.cov.toBlocks₂₁) (b • meas.cov.toBlocks₂₂) := by
    conv_lhs => rw [← Matrix.fromBlocks_toBlocks meas.cov]
    unfold scaledBlocks
    rw [Matrix.fromBlocks_multiply]
    simp [Matrix.smul_mul]
  have e : (u.preProcess meas s).1.noise = Matrix.fromBlocks (a • meas.cov.toBlocks₁₁) 0 0 (b • meas.cov.toBlocks₂₂) := by
    simp only [PoseUpd.preProcess, PoseUpd.setNoise, hu.1, h, if_true, hu.2.1, hu.2.2.1, hu.2.2.2, hdef, hprod]
    rcases hsep with hs | ⟨h1, h2⟩
    · rw [if_pos hs, Matrix.toBlocks_fromBlocks₁₁, Matrix.toBlocks_fromBlocks₂₂]
    · split
      · rw [Matrix.toBlocks_fromBlocks₁₁, Matrix.toBlocks_fromBlocks₂₂]
      · rw [h1, h2, smul_zero, smul_zero]
  exact ⟨e, e ▸ isCov_block_diag (isCov_smul (isCov_block₁₁ hc) ha) (isCov_smul (isCov_block₂₂ hc) hb)⟩

/-- A fully correlated position and attitude. -/
lemma isCov_ones : IsCov (Matrix.fromBlocks 1 1 1 1 : Matrix PoseIx PoseIx ℝ) := by
  constructor
  · rw [Matrix.fromBlocks_transpose]; simp
  · intro x
    have : x ⬝ᵥ (Matrix.fromBlocks 1 1 1 1 : Matrix PoseIx PoseIx ℝ).mulVec x = ∑ i : Fin 3, (x (Sum.inl i) + x (Sum.inr i)) * (x (Sum.inl i) + x (Sum.inr i)) := by
      rw [Matrix.fromBlocks_mulVec]
      simp only [dotProduct, Fintype.sum_sum_type, Matrix.one_mulVec, Sum.elim_inl, Sum.elim_inr, Pi.add_apply, Function.comp]
      rw [← Finset.sum_add_distrib]
      exact Finset.sum_congr rfl fun i _ => by ring
    rw [this]
    exact Finset.sum_nonneg fun i _ => mul_self_nonneg _

/-- C47 (finding): in general the product of two covariances is not symmetric: different variances for position and attitude and a measured
correlation between them give an invalid noise covariance. -/
theorem C47_finding_not_symmetric : ∃ (u : PoseUpd 2) (meas : PoseMeas) (s : State 0 1 2), u.useOdometryCov = true ∧ IsCov u.defaultNoise ∧
    IsCov meas.cov ∧ ¬ IsCov (u.preProcess meas s).1.noise := by
  refine ⟨{ demoPoseUpd none none with useOdometryCov := true, defaultNoise := scaledBlocks 1 2 }, ⟨0, Quat.one, Matrix.fromBlocks 1 1 1 1⟩,
    demoPoseState, rfl, ?_, ?_, ?_⟩
  · have h1 : IsCov (1 : Matrix (Fin 3) (Fin 3) ℝ) :=
      ⟨Matrix.transpose_one, fun x => by rw [Matrix.one_mulVec]; exact Finset.sum_nonneg fun i _ => mul_self_nonneg _⟩
    exact isCov_block_diag (isCov_smul h1 (by norm_num)) (isCov_smul h1 (by norm_num))
  · exact isCov_ones
  · intro h
    have e : (({ demoPoseUpd none none with useOdometryCov := true, defaultNoise := scaledBlocks 1 2 } : PoseUpd 2).preProcess
        ⟨0, Quat.one, Matrix.fromBlocks 1 1 1 1⟩ demoPoseState).1.noise = (Matrix.fromBlocks 1 1 ((2:ℝ) • 1) ((2:ℝ) • 1) : Matrix PoseIx PoseIx ℝ) := by
      simp only [PoseUpd.preProcess, PoseUpd.align, PoseUpd.setNoise, demoPoseUpd, and_self, if_true, ne_eq, not_true_eq_false, if_false, scaledBlocks]
      rw [Matrix.fromBlocks_multiply]
      simp
    have h2 := h.symm
    rw [e] at h2
    have := congrFun (congrFun h2 (Sum.inl 0)) (Sum.inr 0)
    simp [Matrix.transpose_apply] at this

/-- The hypotheses of `C47_blocks` are met by a correlated measurement of which only the position is used. -/
example : ({ demoPoseUpd none none with useOdometryCov := true, enableAttitude := false, defaultNoise := scaledBlocks 1 2 } : PoseUpd 2).enablePosition ≠
    ({ demoPoseUpd none none with useOdometryCov := true, enableAttitude := false, defaultNoise := scaledBlocks 1 2 } : PoseUpd 2).enableAttitude ∧
    IsCov (Matrix.fromBlocks 1 1 1 1 : Matrix PoseIx PoseIx ℝ) := ⟨by simp [demoPoseUpd], isCov_ones⟩

end Rovio
