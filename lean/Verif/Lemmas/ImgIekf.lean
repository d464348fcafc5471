import Verif.Spec.ImgIekf
import Verif.Lemmas.ImgSees

namespace Rovio.ImgFull

open Rovio.Img Rovio.Spec Matrix

variable {n nCam nPose : ℕ} {RX : State n nCam nPose → State n nCam nPose → Prop} {RP : Cov n nCam nPose → Cov n nCam nPose → Prop}
  {RD : (Ix n nCam nPose → ℝ) → (Ix n nCam nPose → ℝ) → Prop}

lemma correctIter_eq {gate : Gate 2} {R : Matrix (Fin 2) (Fin 2) ℝ} {y : Fin 2 → ℝ} {H : Matrix (Fin 2) (Ix n nCam nPose) ℝ} {P : Cov n nCam nPose}
    {d : Ix n nCam nPose → ℝ} : correctIter gate R y H P d = open Classical in if (innS gate y H R P).det = 0 then none else
      some (-((gain gate y H R P).mulVec (y + (innH gate y H R P).mulVec d)) + d, P - gain gate y H R P * innS gate y H R P * (gain gate y H R P)ᵀ,
        y ⬝ᵥ (innS gate y H R P)⁻¹.mulVec y) := rfl

/-- The covariance of an iteration is that of a correction. -/
lemma correctIter_correct {gate : Gate 2} {R : Matrix (Fin 2) (Fin 2) ℝ} {y : Fin 2 → ℝ} {H : Matrix (Fin 2) (Ix n nCam nPose) ℝ} {P : Cov n nCam nPose}
    {d : Ix n nCam nPose → ℝ} {a : (Ix n nCam nPose → ℝ) × Cov n nCam nPose × ℝ} (h : correctIter gate R y H P d = some a) :
    ∃ δ, correct gate y H R P = some (δ, a.2.1) := by
  classical
  rw [correctIter_eq] at h
  by_cases hd : (innS gate y H R P).det = 0
  · rw [if_pos hd] at h; cases h
  · rw [if_neg hd, Option.some.injEq] at h
    rw [correct_eq, if_neg hd, ← h]
    exact ⟨_, rfl⟩

/-- What the parts of the iterated update have to respect. -/
structure IterKeeps (ve : Bool) (RX : State n nCam nPose → State n nCam nPose → Prop) (RP : Cov n nCam nPose → Cov n nCam nPose → Prop)
    (RD : (Ix n nCam nPose → ℝ) → (Ix n nCam nPose → ℝ) → Prop) (c : IterCfg) (gate : Gate 2) (R : Matrix (Fin 2) (Fin 2) ℝ) : Prop where
  plus : ∀ x y δ ε, RX x y → RD δ ε → RX (x.boxPlus (DState.ofFn δ)) (y.boxPlus (DState.ofFn ε))
  diff : ∀ x y x' y', RX x y → RX x' y' → RD (c.diff x x') (c.diff y y')
  norm : ∀ δ ε, RD δ ε → vecNorm δ = vecNorm ε
  start : ∀ P Q, RP P Q → ∀ H : Matrix (Fin 2) (Ix n nCam nPose) ℝ, (∀ r b, b.seen ve = false → H r b = 0) → ∀ w, RD (-((P * Hᵀ).mulVec w)) (-((Q * Hᵀ).mulVec w))
  step : ∀ P Q, RP P Q → ∀ (y : Fin 2 → ℝ) (H : Matrix (Fin 2) (Ix n nCam nPose) ℝ), (∀ r b, b.seen ve = false → H r b = 0) → ∀ d e, RD d e →
    Both (fun a b => RD a.1 b.1 ∧ RP (symm a.2.1) (symm b.2.1) ∧ a.2.2 = b.2.2) (correctIter gate R y H P d) (correctIter gate R y H Q e)
  symm : ∀ P Q, RP P Q → RP (symm P) (symm Q)
  fix : ∀ x y, RX x y → Both RX x.fix y.fix

/-- Iterations that correspond. -/
structure IterSim (RX : State n nCam nPose → State n nCam nPose → Prop) (RP : Cov n nCam nPose → Cov n nCam nPose → Prop) (a b : Iter n nCam nPose) : Prop where
  lin : RX a.lin b.lin
  conv : a.conv = b.conv
  stop : a.stop = b.stop
  cov : RP (symm a.cov) (symm b.cov)
  score : a.score = b.score
  scr : a.scr = b.scr

/-- Results that correspond. -/
structure PassSim (RX : State n nCam nPose → State n nCam nPose → Prop) (RP : Cov n nCam nPose → Cov n nCam nPose → Prop) (p q : Pass n nCam nPose) : Prop where
  score : p.score = q.score
  z : RX p.z q.z
  cov : RP (symm p.cov) (symm q.cov)

lemma Both.bind {α β : Type} {A : α → α → Prop} {B : β → β → Prop} {o o' : Option α} (h : Both A o o') {f f' : α → Option β} (hf : ∀ a b, A a b → Both B (f a) (f' b)) :
    Both B (o.bind f) (o'.bind f') := by
  cases h with
  | none => exact .none
  | some h => exact hf _ _ h

section

variable {ve : Bool} {OC : Matrix (Fin 3) (Fin 3) ℝ → Prop} (hU : Unnoticed ve OC RX RP) {c : IterCfg} {gate : Gate 2} {R : Matrix (Fin 2) (Fin 2) ℝ}
  (hI : IterKeeps ve RX RP RD c gate R)

include hU hI

lemma iterStep_keeps {K : Callbacks n nCam nPose} (hK : SceneOnly K) {x y : State n nCam nPose} {P Q : Cov n nCam nPose} (hx : RX x y) (hP : RP P Q)
    {a b : Iter n nCam nPose} (h : IterSim RX RP a b) : Both (IterSim RX RP) (iterStep c gate R K x P a) (iterStep c gate R K y Q b) := by
  have hs := hU.scene _ _ h.lin
  unfold iterStep
  rw [hK.innov _ _ hs, hK.jac _ _ hs, h.scr]
  simp only [Option.bind_eq_bind, Option.pure_def]
  cases hJ : K.jac b.lin b.scr with
  | none => exact .none
  | some w =>
    obtain ⟨J, stop, r⟩ := w
    simp only [Option.bind_some]
    cases hH : colMat fun b => (J (DState.unit b)).map V2.at with
    | none => exact .none
    | some H =>
      simp only [Option.bind_some]
      have h0 : ∀ k b, b.seen ve = false → H k b = 0 := fun k e he => by
        have h' := colMat_some hH e
        cases hv : J (DState.unit e) with
        | none => simp [hv] at h'
        | some v =>
          have hv0 := hK.row b.lin b.scr J stop r hJ e (Ix.seen_mono (hU.calib _ _ h.lin) he) v hv
          rw [hv, hv0, Option.map_some, Option.some.injEq] at h'
          rw [← congrFun h' k, V2.at_zero]
      cases K.innov b.lin 0 r with
      | none => exact .none
      | some w =>
        obtain ⟨v, stop', r'⟩ := w
        simp only [Option.bind_some]
        refine Both.bind (hI.step P Q hP v.at H h0 _ _ (hI.diff _ _ _ _ hx h.lin)) fun p q hpq => ?_
        exact .some ⟨hI.plus _ _ _ _ h.lin hpq.1, by rw [hI.norm _ _ hpq.1], rfl, hpq.2.1, hpq.2.2, rfl⟩

lemma iterate_keeps {K : Callbacks n nCam nPose} (hK : SceneOnly K) {x y : State n nCam nPose} {P Q : Cov n nCam nPose} (hx : RX x y) (hP : RP P Q) :
    ∀ (k : ℕ) {a b : Iter n nCam nPose}, IterSim RX RP a b → Both (IterSim RX RP) (iterate c gate R K x P k a) (iterate c gate R K y Q k b)
  | 0, _, _, h => .some h
  | k + 1, a, b, h => by
    unfold iterate
    rw [h.conv, h.stop]
    by_cases hc : (b.conv || b.stop) = true
    · rw [if_pos hc, if_pos hc]; exact .some h
    · rw [if_neg hc, if_neg hc]
      exact Both.bind (iterStep_keeps hU hI hK hx hP h) fun p q hpq => iterate_keeps hK hx hP k hpq

lemma tryStart_keeps {K : Callbacks n nCam nPose} (hK : SceneOnly K) {x y : State n nCam nPose} {P Q : Cov n nCam nPose} (hx : RX x y) (hP : RP P Q)
    {l l' : List (Pass n nCam nPose)} (hl : List.Forall₂ (PassSim RX RP) l l') (r : Scr) {z z' : State n nCam nPose} (hz : RX z z') :
    Both (fun p q => List.Forall₂ (PassSim RX RP) p.1 q.1 ∧ p.2 = q.2) (tryStart c gate R K x P (l, r) z) (tryStart c gate R K y Q (l', r) z') := by
  unfold tryStart
  simp only [Option.bind_eq_bind, Option.pure_def]
  refine Both.bind (iterate_keeps hU hI hK hx hP c.maxIter (a := ⟨z, false, false, P, 0, r⟩) (b := ⟨z', false, false, Q, 0, r⟩) ⟨hz, rfl, rfl, hI.symm _ _ hP, rfl, rfl⟩)
    fun p q hpq => ?_
  rw [hK.check _ _ (hU.scene _ _ hpq.lin), hpq.conv, hpq.scr]
  cases K.check q.lin q.conv q.scr with
  | none => exact .none
  | some w =>
    obtain ⟨ok, r'⟩ := w
    simp only [Option.bind_some]
    refine .some ⟨?_, rfl⟩
    cases ok
    · exact hl
    · exact List.rel_append hl (.cons ⟨hpq.score, hpq.lin, hpq.cov⟩ .nil)

omit hU hI in
lemma bestOf_keeps {l l' : List (Pass n nCam nPose)} (hl : List.Forall₂ (PassSim RX RP) l l') : Both (PassSim RX RP) (bestOf l) (bestOf l') := by
  cases hl with
  | nil => exact .none
  | cons h ht =>
    refine .some ?_
    rename_i a b as bs
    induction ht generalizing a b with
    | nil => exact h
    | cons h1 _ ih =>
      simp only [List.foldl_cons]
      refine ih ?_
      rw [h1.score, h.score]
      split_ifs
      · exact h1
      · exact h

lemma iekf_keeps (eigen : M2 → (ℝ × ℝ) × V2 × V2) : UpdateKeeps RX RP (iekf c eigen gate R) := by
  classical
  intro K hK x y P Q r hx hP
  have hs := hU.scene _ _ hx
  suffices key : Both (fun a b : State n nCam nPose × Cov n nCam nPose × M2 × Bool => RX a.1 b.1 ∧ RP a.2.1 b.2.1 ∧ a.2.2 = b.2.2)
      (do
        let (J, r) ← K.cand x r
        let H ← colMat fun b => (J (DState.unit b)).map V2.at
        let zs ← starts c eigen x P H
        let (ps, r) ← zs.foldlM (tryStart c gate R K x P) ([], r)
        match bestOf ps with
        | none => return (x, P, r.2, false)
        | some b =>
          if ps.any fun p => decide (2 * c.thr < vecNorm (c.diff b.z p.z)) then return (x, P, r.2, false)
          else
            let z ← b.z.fix
            return (z, symm b.cov, r.2, true))
      (do
        let (J, r) ← K.cand y r
        let H ← colMat fun b => (J (DState.unit b)).map V2.at
        let zs ← starts c eigen y Q H
        let (ps, r) ← zs.foldlM (tryStart c gate R K y Q) ([], r)
        match bestOf ps with
        | none => return (y, Q, r.2, false)
        | some b =>
          if ps.any fun p => decide (2 * c.thr < vecNorm (c.diff b.z p.z)) then return (y, Q, r.2, false)
          else
            let z ← b.z.fix
            return (z, symm b.cov, r.2, true)) by
    unfold iekf
    dsimp only
    revert key
    generalize (do
        let (J, r) ← K.cand x r
        let H ← colMat fun b => (J (DState.unit b)).map V2.at
        let zs ← starts c eigen x P H
        let (ps, r) ← zs.foldlM (tryStart c gate R K x P) ([], r)
        match bestOf ps with
        | none => return (x, P, r.2, false)
        | some b =>
          if ps.any fun p => decide (2 * c.thr < vecNorm (c.diff b.z p.z)) then return (x, P, r.2, false)
          else
            let z ← b.z.fix
            return (z, symm b.cov, r.2, true) : Option (State n nCam nPose × Cov n nCam nPose × M2 × Bool)) = o
    generalize (do
        let (J, r) ← K.cand y r
        let H ← colMat fun b => (J (DState.unit b)).map V2.at
        let zs ← starts c eigen y Q H
        let (ps, r) ← zs.foldlM (tryStart c gate R K y Q) ([], r)
        match bestOf ps with
        | none => return (y, Q, r.2, false)
        | some b =>
          if ps.any fun p => decide (2 * c.thr < vecNorm (c.diff b.z p.z)) then return (y, Q, r.2, false)
          else
            let z ← b.z.fix
            return (z, symm b.cov, r.2, true) : Option (State n nCam nPose × Cov n nCam nPose × M2 × Bool)) = o'
    intro key
    cases key with
    | none => exact ⟨hx, hP, rfl⟩
    | some h => exact h
  rw [hK.cand x y hs]
  simp only [Option.bind_eq_bind, Option.pure_def]
  cases hJ : K.cand y r with
  | none => exact .none
  | some w =>
    obtain ⟨J, r1⟩ := w
    simp only [Option.bind_some]
    cases hH : colMat fun b => (J (DState.unit b)).map V2.at with
    | none => exact .none
    | some H =>
      simp only [Option.bind_some]
      have h0 : ∀ k b, b.seen ve = false → H k b = 0 := fun k e he => by
        have h' := colMat_some hH e
        cases hv : J (DState.unit e) with
        | none => simp [hv] at h'
        | some v =>
          have hv0 := hK.candRow y r J r1 hJ e (Ix.seen_mono (hU.calib _ _ hx) he) v hv
          rw [hv, hv0, Option.map_some, Option.some.injEq] at h'
          rw [← congrFun h' k, V2.at_zero]
      have hS : H * P * Hᵀ = H * Q * Hᵀ := mul_scene (hU.cov _ _ hP) h0 fun a s ha => h0 s a ha
      have hst : Both (List.Forall₂ RX) (starts c eigen x P H) (starts c eigen y Q H) := by
        unfold starts
        simp only [hS]
        by_cases hd : (H * Q * Hᵀ).det = 0
        · rw [if_pos hd, if_pos hd]; exact .none
        · rw [if_neg hd, if_neg hd]
          cases candidates c.uni (inEllipse c.range c.cover (eigen (toM2 (H * Q * Hᵀ))).1.1 (eigen (toM2 (H * Q * Hᵀ))).1.2) ((2 * c.uni + 1) * (2 * c.uni + 1) + 1) 0 with
          | none => exact .none
          | some uv =>
            refine .some ?_
            rw [List.forall₂_map_left_iff, List.forall₂_map_right_iff]
            refine List.forall₂_same.2 fun g _ => ?_
            unfold candidate
            rw [hS, ← Matrix.mulVec_mulVec _ (P * Hᵀ), ← Matrix.mulVec_mulVec _ (Q * Hᵀ)]
            exact hI.plus _ _ _ _ hx (hI.start _ _ hP H h0 _)
      refine Both.bind hst fun zs zs' hzs => ?_
      have hfold : ∀ {zs zs' : List (State n nCam nPose)} (_ : List.Forall₂ RX zs zs') {l l' : List (Pass n nCam nPose)} (_ : List.Forall₂ (PassSim RX RP) l l') (r : Scr),
          Both (fun p q => List.Forall₂ (PassSim RX RP) p.1 q.1 ∧ p.2 = q.2) (zs.foldlM (tryStart c gate R K x P) (l, r)) (zs'.foldlM (tryStart c gate R K y Q) (l', r)) := by
        intro zs zs' h
        induction h with
        | nil => intro l l' hl r; exact .some ⟨hl, rfl⟩
        | cons h1 _ ih =>
          intro l l' hl r
          simp only [List.foldlM_cons, Option.bind_eq_bind]
          refine Both.bind (tryStart_keeps hU hI hK hx hP hl r h1) fun p q hpq => ?_
          obtain ⟨p1, p2⟩ := p
          obtain ⟨q1, q2⟩ := q
          obtain ⟨h2, h3⟩ := hpq
          cases h3
          exact ih h2 p2
      refine Both.bind (hfold hzs .nil r1) fun p q hpq => ?_
      obtain ⟨p1, p2⟩ := p
      obtain ⟨q1, q2⟩ := q
      obtain ⟨h2, h3⟩ := hpq
      cases h3
      have hb := bestOf_keeps h2
      dsimp only
      revert hb
      generalize bestOf p1 = o
      generalize bestOf q1 = o'
      intro hb
      cases hb with
      | none => exact .some ⟨hx, hP, rfl⟩
      | some hb =>
        rename_i u v
        have ha : (p1.any fun p => decide (2 * c.thr < vecNorm (c.diff u.z p.z))) = q1.any fun p => decide (2 * c.thr < vecNorm (c.diff v.z p.z)) := by
          have h2 : List.Forall₂ (PassSim RX RP) p1 q1 := h2
          clear * - h2 hb hI
          induction h2 with
          | nil => rfl
          | cons h1 _ ih => simp only [List.any_cons, ih, hI.norm _ _ (hI.diff _ _ _ _ hb.z h1.z)]
        dsimp only
        rw [ha]
        by_cases hq : (q1.any fun p => decide (2 * c.thr < vecNorm (c.diff v.z p.z))) = true
        · rw [if_pos hq, if_pos hq]; exact .some ⟨hx, hP, rfl⟩
        · rw [if_neg hq, if_neg hq]
          exact Both.bind (hI.fix _ _ hb.z) fun s t hst => .some ⟨hst, hb.cov, rfl⟩

end

/-! ### Correspondences the iterated update keeps -/

section moved

variable {g : Shift}

lemma mat_orthogonal (hg : g.Upright) : (g.mat : Cov n nCam nPose)ᵀ * g.mat = 1 := by
  classical
  have h := Shift.cov_diag (n := n) (nCam := nCam) (nPose := nPose) hg (p := fun _ => 1) rfl rfl
  rw [Shift.cov, Matrix.diagonal_one, Matrix.mul_one] at h
  exact mul_eq_one_comm.1 h

lemma vecNorm_turn (hg : g.Upright) (v : Ix n nCam nPose → ℝ) : vecNorm (g.mat.mulVec v) = vecNorm v := by
  classical
  unfold vecNorm
  rw [Matrix.dotProduct_mulVec, Matrix.vecMul_mulVec, mat_orthogonal hg, Matrix.vecMul_one]

lemma get_turn (δ : DState n nCam nPose) : (g.turn δ).get = g.mat.mulVec δ.get := by
  have h := Shift.mat_mulVec (g := g) δ.get
  rw [DState.ofFn_get] at h
  rw [← h, DState.get_ofFn]

lemma diff_moved (hg : g.Upright) {c : IterCfg} (hc : Spec.LogTurns c.log) (x y : State n nCam nPose) : c.diff (g.state x) (g.state y) = g.mat.mulVec (c.diff x y) := by
  unfold IterCfg.diff
  rw [← get_turn]
  congr 1
  simp only [Shift.turn, Shift.state, DState.mk.injEq, and_true, true_and]
  refine ⟨?_, ?_⟩
  · rw [Quat.rotate_sub]; ext <;> simp
  · rw [← hc _ _ hg.unit, Quat.mul_inv_rev, ← Quat.mul_assoc', Quat.mul_assoc' _ _ (y.att.inv)]

lemma moved_iter (hg : g.Upright) (c : IterCfg) (hc : Spec.LogTurns c.log) (gate : Gate 2) (R : Matrix (Fin 2) (Fin 2) ℝ) :
    IterKeeps (n := n) (nCam := nCam) (nPose := nPose) true (MovedX g) (MovedP g) (fun δ ε => ε = g.mat.mulVec δ) c gate R where
  plus x y δ ε hx hδ := by
    rw [MovedX] at hx ⊢
    rw [hx, hδ, Shift.mat_mulVec, Shift.state_boxPlus hg]
  diff x y x' y' hx hx' := by
    rw [MovedX] at hx hx'
    rw [hx, hx', diff_moved hg hc]
  norm δ ε h := by rw [h, vecNorm_turn hg]
  start P Q hP H hH w := by
    rw [MovedP] at hP
    rw [hP, Shift.cov_mul g fun r b hb => hH r b (seen_world hb), Matrix.mulVec_neg, Matrix.mulVec_mulVec]
  step P Q hP y H hH d e hd := by
    classical
    rw [MovedP] at hP
    subst hP
    subst hd
    have h : ∀ r b, b.isWorld = true → H r b = 0 := fun r b hb => hH r b (seen_world hb)
    have hS : innS gate y H R (g.cov P) = innS gate y H R P := by unfold innS; rw [Shift.mul_cov_mul g h]
    have hH' : innH gate y H R (g.cov P) = innH gate y H R P := by unfold innH; rw [Shift.mul_cov_mul g h]
    have h' : ∀ r b, b.isWorld = true → innH gate y H R P r b = 0 := by
      intro r b hb
      simp only [innH, Matrix.of_apply]
      split_ifs
      · rfl
      · exact h r b hb
    have hK : gain gate y H R (g.cov P) = g.mat * gain gate y H R P := by
      unfold gain
      rw [hS, hH', Shift.cov_mul g h', Matrix.mul_assoc]
    rw [correctIter_eq, correctIter_eq, hS, hK, hH', Matrix.mulVec_mulVec _ (innH gate y H R P), Shift.mul_mat_of_zero g h']
    by_cases hd : (innS gate y H R P).det = 0
    · rw [if_pos hd, if_pos hd]; exact .none
    · rw [if_neg hd, if_neg hd]
      refine .some ⟨?_, ?_, rfl⟩
      · show -((g.mat * gain gate y H R P).mulVec _) + _ = g.mat.mulVec (-((gain gate y H R P).mulVec _) + d)
        rw [Matrix.mulVec_add g.mat, Matrix.mulVec_neg, Matrix.mulVec_mulVec]
      · rw [MovedP, ← Shift.symm_cov]
        congr 1
        simp only [Shift.cov, Matrix.transpose_mul, Matrix.mul_sub, Matrix.sub_mul, Matrix.mul_assoc]
  symm P Q hP := by
    rw [MovedP] at hP ⊢
    rw [hP, Shift.symm_cov]
  fix x y hx := by
    rw [MovedX] at hx
    rw [hx, Shift.state_fix hg]
    cases x.fix with
    | none => exact .none
    | some z => exact .some rfl

end moved

lemma wider_iter {k : ℕ} (L : Matrix (Ix n nCam nPose) (Fin k) ℝ) (c : IterCfg) (gate : Gate 2) (R : Matrix (Fin 2) (Fin 2) ℝ) :
    IterKeeps (n := n) (nCam := nCam) (nPose := nPose) true Eq (Wider L) Eq c gate R where
  plus x y δ ε hx hδ := by rw [hx, hδ]
  diff x y x' y' hx hx' := by rw [hx, hx']
  norm δ ε h := by rw [h]
  start P Q hP H hH w := by
    obtain ⟨d, L', hu, rfl, -⟩ := hP
    rw [wide_mul (mul_unseen_zero (fun r b hb => hH r b (seen_world hb)) hu)]
  step P Q hP y H hH d e hd := by
    classical
    obtain ⟨d', L', hu, rfl, h1, h2⟩ := hP
    subst hd
    have hH : ∀ r b, b.isWorld = true → H r b = 0 := fun r b hb => hH r b (seen_world hb)
    have h := mul_unseen_zero hH hu
    have hS : innS gate y H R (P + L' * L'ᵀ) = innS gate y H R P := by unfold innS; rw [mul_wide h]
    have hH' : innH gate y H R (P + L' * L'ᵀ) = innH gate y H R P := by unfold innH; rw [mul_wide h]
    have hi : innH gate y H R P * L' = 0 := by
      refine mul_unseen_zero (fun r b hb => ?_) hu
      simp only [innH, Matrix.of_apply]
      split_ifs
      · rfl
      · exact hH r b hb
    have hK : gain gate y H R (P + L' * L'ᵀ) = gain gate y H R P := by
      unfold gain
      rw [hS, hH', wide_mul hi]
    rw [correctIter_eq, correctIter_eq, hS, hK, hH']
    by_cases hd : (innS gate y H R P).det = 0
    · rw [if_pos hd, if_pos hd]; exact .none
    · rw [if_neg hd, if_neg hd]
      refine .some ⟨rfl, ⟨d', L', hu, ?_, h1, h2⟩, rfl⟩
      dsimp only
      rw [add_sub_right_comm, symm_add]
  symm P Q hP := by
    obtain ⟨d', L', hu, rfl, h1, h2⟩ := hP
    exact ⟨d', L', hu, symm_add _, h1, h2⟩
  fix x y hx := by
    subst hx
    cases x.fix with
    | none => exact .none
    | some z => exact .some rfl

end Rovio.ImgFull
