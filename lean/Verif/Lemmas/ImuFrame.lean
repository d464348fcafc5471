import Verif.Spec.ImuFrame
import Verif.Lemmas.ExtFrame

/-! # Lemmas about changes of the axes of the IMU -/

namespace Rovio

open Matrix Spec Distance

variable {n nCam nPose : ℕ}

/-! ### Linear functions of an increment -/

/-- A linear function of the increment. -/
def IsLin (g : DState n nCam nPose → ℝ) : Prop := ∀ δ, g δ = ∑ b, g (DState.unit b) * δ.get b

/-- A linear vector. -/
structure IsLin3 (g : DState n nCam nPose → V3) : Prop where
  x : IsLin fun δ => (g δ).x
  y : IsLin fun δ => (g δ).y
  z : IsLin fun δ => (g δ).z

/-- A linear vector. -/
structure IsLin2 (g : DState n nCam nPose → V2) : Prop where
  x : IsLin fun δ => (g δ).x
  y : IsLin fun δ => (g δ).y

namespace IsLin

variable {g h : DState n nCam nPose → ℝ}

lemma get (a : Ix n nCam nPose) : IsLin fun δ : DState n nCam nPose => δ.get a := fun δ => by
  simp [DState.unit, DState.get_ofFn, Pi.single_apply]

lemma zero : IsLin fun _ : DState n nCam nPose => 0 := fun δ => by simp

lemma add (hg : IsLin g) (hh : IsLin h) : IsLin fun δ => g δ + h δ := fun δ => by
  simp only [add_mul, Finset.sum_add_distrib, ← hg δ, ← hh δ]

lemma mul (c : ℝ) (hg : IsLin g) : IsLin fun δ => c * g δ := fun δ => by
  simp only [mul_assoc, ← Finset.mul_sum, ← hg δ]

lemma mul' (c : ℝ) (hg : IsLin g) : IsLin fun δ => g δ * c := by
  have := hg.mul c
  simpa only [mul_comm c] using this

lemma neg (hg : IsLin g) : IsLin fun δ => -g δ := by
  have := hg.mul (-1)
  simpa only [neg_one_mul] using this

lemma sub (hg : IsLin g) (hh : IsLin h) : IsLin fun δ => g δ - h δ := by
  have := hg.add hh.neg
  simpa only [sub_eq_add_neg] using this

end IsLin

namespace IsLin3

variable {g h : DState n nCam nPose → V3}

lemma zero : IsLin3 fun _ : DState n nCam nPose => 0 := ⟨.zero, .zero, .zero⟩
lemma add (hg : IsLin3 g) (hh : IsLin3 h) : IsLin3 fun δ => g δ + h δ := ⟨hg.x.add hh.x, hg.y.add hh.y, hg.z.add hh.z⟩
lemma sub (hg : IsLin3 g) (hh : IsLin3 h) : IsLin3 fun δ => g δ - h δ := ⟨hg.x.sub hh.x, hg.y.sub hh.y, hg.z.sub hh.z⟩
lemma smul (c : ℝ) (hg : IsLin3 g) : IsLin3 fun δ => c • g δ := ⟨hg.x.mul c, hg.y.mul c, hg.z.mul c⟩
lemma smul' {k : DState n nCam nPose → ℝ} (hk : IsLin k) (v : V3) : IsLin3 fun δ => k δ • v := ⟨hk.mul' v.x, hk.mul' v.y, hk.mul' v.z⟩
lemma dot (v : V3) (hg : IsLin3 g) : IsLin fun δ => v.dot (g δ) := ((hg.x.mul v.x).add (hg.y.mul v.y)).add (hg.z.mul v.z)
lemma mulVec (A : M3) (hg : IsLin3 g) : IsLin3 fun δ => A.mulVec (g δ) := ⟨hg.dot A.r1, hg.dot A.r2, hg.dot A.r3⟩
lemma ite {c : Prop} [Decidable c] (hg : IsLin3 g) (hh : IsLin3 h) : IsLin3 fun δ => if c then g δ else h δ := by
  split_ifs
  · exact hg
  · exact hh
lemma at' (hg : IsLin3 g) (k : Fin 3) : IsLin fun δ => (g δ).at k := by
  fin_cases k
  · exact hg.x
  · exact hg.y
  · exact hg.z
lemma M (ν : Nor) {k : DState n nCam nPose → V2} (hk : IsLin2 k) : IsLin3 fun δ => ν.M (k δ) := (smul' hk.x _).add (smul' hk.y _)
lemma N (ν : Nor) {k : DState n nCam nPose → V2} (hk : IsLin2 k) : IsLin3 fun δ => ν.N (k δ) := (smul' hk.x _).add (smul' hk.y _)

lemma pos : IsLin3 fun δ : DState n nCam nPose => δ.pos := ⟨.get (.pos 0), .get (.pos 1), .get (.pos 2)⟩
lemma vel : IsLin3 fun δ : DState n nCam nPose => δ.vel := ⟨.get (.vel 0), .get (.vel 1), .get (.vel 2)⟩
lemma acb : IsLin3 fun δ : DState n nCam nPose => δ.acb := ⟨.get (.acb 0), .get (.acb 1), .get (.acb 2)⟩
lemma gyb : IsLin3 fun δ : DState n nCam nPose => δ.gyb := ⟨.get (.gyb 0), .get (.gyb 1), .get (.gyb 2)⟩
lemma att : IsLin3 fun δ : DState n nCam nPose => δ.att := ⟨.get (.att 0), .get (.att 1), .get (.att 2)⟩
lemma vep (c : Fin nCam) : IsLin3 fun δ : DState n nCam nPose => δ.vep c := ⟨.get (.vep c 0), .get (.vep c 1), .get (.vep c 2)⟩
lemma vea (c : Fin nCam) : IsLin3 fun δ : DState n nCam nPose => δ.vea c := ⟨.get (.vea c 0), .get (.vea c 1), .get (.vea c 2)⟩
lemma pop (c : Fin nPose) : IsLin3 fun δ : DState n nCam nPose => δ.pop c := ⟨.get (.pop c 0), .get (.pop c 1), .get (.pop c 2)⟩
lemma poa (c : Fin nPose) : IsLin3 fun δ : DState n nCam nPose => δ.poa c := ⟨.get (.poa c 0), .get (.poa c 1), .get (.poa c 2)⟩

end IsLin3

namespace IsLin2

lemma nor (i : Fin n) : IsLin2 fun δ : DState n nCam nPose => δ.nor i := ⟨.get (.nor i 0), .get (.nor i 1)⟩
lemma zero : IsLin2 fun _ : DState n nCam nPose => 0 := ⟨.zero, .zero⟩
lemma Mt (ν : Nor) {g : DState n nCam nPose → V3} (hg : IsLin3 g) : IsLin2 fun δ => ν.Mt (g δ) := ⟨hg.dot _, hg.dot _⟩
lemma at' {g : DState n nCam nPose → V2} (hg : IsLin2 g) (k : Fin 2) : IsLin fun δ => (g δ).at k := by
  fin_cases k
  · exact hg.x
  · exact hg.y

end IsLin2

lemma IsLin.dep (i : Fin n) : IsLin fun δ : DState n nCam nPose => δ.dep i := .get (.dep i)

namespace State

variable {s : State n nCam nPose}

lemma feaJacVec_lin (m : ImuMeas) (dt : ℝ) (i : Fin n) (a : Fin nCam) (nor : Nor) : IsLin3 (s.feaJacVec m dt i a nor) := by
  unfold feaJacVec
  refine ((((IsLin3.M nor (.nor i)).mulVec _).add (.smul' (.dep i) _)).add ((((IsLin3.vel).mulVec _).smul _).mulVec _)).add (((((IsLin3.gyb).mulVec _).smul _).mulVec _).mulVec _) |>.add ?_
  refine .ite (.add (.sub ?_ ?_) ?_) .zero
  · exact (((((IsLin3.vea a).mulVec _).smul _).mulVec _).mulVec _)
  · exact ((((IsLin3.vea a).mulVec _).smul _).mulVec _)
  · exact ((((IsLin3.vep a).mulVec _).smul _).mulVec _)

lemma ite_lin {c : Prop} [Decidable c] {g h : DState n nCam nPose → ℝ} (hg : IsLin g) (hh : IsLin h) : IsLin fun δ => if c then g δ else h δ := by
  split_ifs
  · exact hg
  · exact hh

lemma feaJacDep_lin (m : ImuMeas) (dt : ℝ) (i : Fin n) (a : Fin nCam) (nor : Nor) : IsLin (s.feaJacDep m dt i a nor) := by
  unfold feaJacDep
  refine ((((IsLin.dep i).mul _).add ((((IsLin3.vel).mulVec _).dot _).mul _)).add ((((IsLin3.gyb).mulVec _).dot _).mul _)).add (((IsLin3.M nor (.nor i)).dot _).mul _) |>.add ?_
  exact ite_lin (.add ((((IsLin3.vea a).mulVec _).dot _).mul _) ((((IsLin3.vep a).mulVec _).dot _).mul _)) .zero

lemma feaNoiseVec_lin (m : ImuMeas) (dt : ℝ) (i : Fin n) (a : Fin nCam) (nor : Nor) : IsLin3 (s.feaNoiseVec m dt i a nor) := by
  unfold feaNoiseVec
  exact (((IsLin3.N nor (.nor i)).smul _).mulVec _).add (((((IsLin3.att).mulVec _).smul _).mulVec _).mulVec _)

lemma feaNoiseDep_lin (dt : ℝ) (i : Fin n) (a : Fin nCam) (nor : Nor) : IsLin (s.feaNoiseDep dt i a nor) := by
  unfold feaNoiseDep
  exact ((IsLin.dep i).mul _).add ((((IsLin3.att).mulVec _).dot _).mul _)

/-- The rows of a feature are a linear function. -/
def RowLin (g : DState n nCam nPose → Option (V2 × ℝ)) : Prop :=
  (∀ δ, g δ = none) ∨ ∃ h : DState n nCam nPose → V2 × ℝ, (∀ δ, g δ = some (h δ)) ∧ IsLin2 (fun δ => (h δ).1) ∧ IsLin fun δ => (h δ).2

lemma feaJac_lin (m : ImuMeas) (dt : ℝ) (i : Fin n) : RowLin (s.feaJac m dt i) := by
  cases hc : camIdx nCam (s.fea i).c.camID with
  | none => exact .inr ⟨fun _ => (0, 0), fun _ => by simp only [feaJac, hc], .zero, .zero⟩
  | some a =>
    cases hn : (s.fea i).c.getNor with
    | none => exact .inl fun _ => by simp only [feaJac, hc, hn]; rfl
    | some p =>
      exact .inr ⟨fun δ => ((p.2.rotated (Quat.exp (bearingStep p.2 (s.fea i).d (s.camVel a (m.gyr - s.gyb)) (s.camRor a (m.gyr - s.gyb)) dt 0))).Mt (s.feaJacVec m dt i a p.2 δ), s.feaJacDep m dt i a p.2 δ),
        fun _ => by simp only [feaJac, hc, hn]; rfl, .Mt _ (feaJacVec_lin _ _ _ _ _), feaJacDep_lin _ _ _ _ _⟩

lemma feaNoise_lin (m : ImuMeas) (dt : ℝ) (i : Fin n) : RowLin (s.feaNoise m dt i) := by
  cases hc : camIdx nCam (s.fea i).c.camID with
  | none => exact .inr ⟨fun _ => (0, 0), fun _ => by simp only [feaNoise, hc], .zero, .zero⟩
  | some a =>
    cases hn : (s.fea i).c.getNor with
    | none => exact .inl fun _ => by simp only [feaNoise, hc, hn]; rfl
    | some p =>
      exact .inr ⟨fun δ => ((p.2.rotated (Quat.exp (bearingStep p.2 (s.fea i).d (s.camVel a (m.gyr - s.gyb)) (s.camRor a (m.gyr - s.gyb)) dt 0))).Mt (s.feaNoiseVec m dt i a p.2 δ), s.feaNoiseDep dt i a p.2 δ),
        fun _ => by simp only [feaNoise, hc, hn]; rfl, .Mt _ (feaNoiseVec_lin _ _ _ _ _), feaNoiseDep_lin _ _ _ _⟩

lemma featureJac_lin (sfv : V3 → Nor) (ig : Bool) (i : Fin n) (b : Fin nCam) : RowLin (s.featureJac sfv ig i b) := by
  by_cases hc : (s.fea i).c.camID ≠ b.val
  · cases hi : camIdx nCam (s.fea i).c.camID with
    | none => exact .inl fun _ => by simp only [featureJac, if_pos hc, hi]; rfl
    | some a =>
      cases hn : (s.fea i).c.getNor with
      | none => exact .inl fun _ => by simp only [featureJac, if_pos hc, hi, hn]; rfl
      | some p =>
        suffices h : ∃ (v : DState n nCam nPose → V3) (c : ℝ) (o : Nor), IsLin3 v ∧ ∀ δ, s.featureJac sfv ig i b δ = some (o.Mt (c • v δ), if ig then 0 else o.vec.dot (v δ)) by
          obtain ⟨v, c, o, hv, he⟩ := h
          exact .inr ⟨_, he, .Mt _ (hv.smul _), ite_lin .zero (hv.dot _)⟩
        refine ⟨_, _, _, ?_, fun δ => by simp only [featureJac, if_pos hc, hi, hn, Option.bind_eq_bind, Option.bind_some]; rfl⟩
        refine .add (.add (((IsLin3.M p.2 (.nor i)).smul _).mulVec _) ((IsLin3.smul' (.dep i) _).mulVec _)) (.ite ?_ .zero)
        exact ((((IsLin3.vea a).mulVec _).add ((IsLin3.vea b).mulVec _)).add ((IsLin3.vep a).mulVec _)).add ((IsLin3.vep b).mulVec _)
  · exact .inr ⟨fun δ => (δ.nor i, δ.dep i), fun _ => by simp only [featureJac, if_neg hc], .nor i, .dep i⟩

lemma optAll_rows {g : DState n nCam nPose → Fin n → Option (V2 × ℝ)} (hg : ∀ i, RowLin fun δ => g δ i) :
    (∀ δ, optAll (g δ) = none) ∨ ∃ h : DState n nCam nPose → Fin n → V2 × ℝ, (∀ δ, optAll (g δ) = some (h δ)) ∧ ∀ i, IsLin2 (fun δ => (h δ i).1) ∧ IsLin fun δ => (h δ i).2 := by
  by_cases hn : ∃ i, ∀ δ, g δ i = none
  · obtain ⟨i, hi⟩ := hn
    refine .inl fun δ => ?_
    unfold optAll
    rw [dif_neg]
    intro h
    have := h i
    rw [hi] at this
    cases this
  · have : ∀ i, ∃ h : DState n nCam nPose → V2 × ℝ, (∀ δ, g δ i = some (h δ)) ∧ IsLin2 (fun δ => (h δ).1) ∧ IsLin fun δ => (h δ).2 := fun i =>
      (hg i).resolve_left fun h => hn ⟨i, h⟩
    choose h hs hl using this
    refine .inr ⟨fun δ i => h i δ, fun δ => ?_, hl⟩
    unfold optAll
    rw [dif_pos fun i => by rw [hs]; rfl]
    congr 1
    funext i
    exact Option.get_of_eq_some _ (hs i δ)

/-- The increment of a linear function. -/
def AllLin (g : DState n nCam nPose → Option (DState n nCam nPose)) : Prop :=
  (∀ δ, g δ = none) ∨ ∃ h : DState n nCam nPose → DState n nCam nPose, (∀ δ, g δ = some (h δ)) ∧ ∀ a, IsLin fun δ => (h δ).get a

lemma predJac_lin (m : ImuMeas) (dt : ℝ) : AllLin (s.predJac m dt) := by
  rcases optAll_rows (g := fun δ i => s.feaJac m dt i δ) (fun i => feaJac_lin m dt i) with h | ⟨h, hs, hl⟩
  · exact .inl fun δ => by unfold predJac; rw [h δ]; rfl
  · refine .inr ⟨fun δ => s.predJacOf m dt δ (h δ), fun δ => by unfold predJac; rw [hs δ]; rfl, fun a => ?_⟩
    cases a with
    | pos k => exact IsLin3.at' (((IsLin3.pos.mulVec _).add (IsLin3.vel.mulVec _)).add (IsLin3.att.mulVec _)) k
    | vel k => exact IsLin3.at' ((((IsLin3.vel.mulVec _).add (IsLin3.acb.mulVec _)).add (IsLin3.gyb.mulVec _)).add (IsLin3.att.mulVec _)) k
    | acb k => exact IsLin3.at' (IsLin3.acb.mulVec _) k
    | gyb k => exact IsLin3.at' (IsLin3.gyb.mulVec _) k
    | att k => exact IsLin3.at' ((IsLin3.gyb.mulVec _).add (IsLin3.att.mulVec _)) k
    | vep c k => exact IsLin3.at' ((IsLin3.vep c).mulVec _) k
    | vea c k => exact IsLin3.at' ((IsLin3.vea c).mulVec _) k
    | nor i k => exact IsLin2.at' (hl i).1 k
    | dep i => exact (hl i).2
    | pop c k => exact IsLin3.at' ((IsLin3.pop c).mulVec _) k
    | poa c k => exact IsLin3.at' ((IsLin3.poa c).mulVec _) k

lemma noiseJac_lin (m : ImuMeas) (dt : ℝ) : AllLin (s.noiseJac m dt) := by
  rcases optAll_rows (g := fun δ i => s.feaNoise m dt i δ) (fun i => feaNoise_lin m dt i) with h | ⟨h, hs, hl⟩
  · exact .inl fun δ => by unfold noiseJac; rw [h δ]; rfl
  · refine .inr ⟨fun δ => s.noiseJacOf m dt δ (h δ), fun δ => by unfold noiseJac; rw [hs δ]; rfl, fun a => ?_⟩
    cases a with
    | pos k => exact IsLin3.at' (IsLin3.pos.mulVec _) k
    | vel k => exact IsLin3.at' ((IsLin3.vel.mulVec _).add (IsLin3.att.mulVec _)) k
    | acb k => exact IsLin3.at' (IsLin3.acb.mulVec _) k
    | gyb k => exact IsLin3.at' (IsLin3.gyb.mulVec _) k
    | att k => exact IsLin3.at' (IsLin3.att.mulVec _) k
    | vep c k => exact IsLin3.at' ((IsLin3.vep c).mulVec _) k
    | vea c k => exact IsLin3.at' ((IsLin3.vea c).mulVec _) k
    | nor i k => exact IsLin2.at' (hl i).1 k
    | dep i => exact (hl i).2
    | pop c k => exact IsLin3.at' ((IsLin3.pop c).mulVec _) k
    | poa c k => exact IsLin3.at' ((IsLin3.poa c).mulVec _) k

end State

lemma IsLin.mulVec {ρ : Type} {g : DState n nCam nPose → ρ → ℝ} (hg : ∀ r, IsLin fun δ => g δ r) (v : Ix n nCam nPose → ℝ) :
    (Matrix.of fun r b => g (DState.unit b) r : Matrix ρ (Ix n nCam nPose) ℝ).mulVec v = g (DState.ofFn v) := by
  funext r
  refine Eq.trans ?_ (hg r (DState.ofFn v)).symm
  simp only [Matrix.mulVec, dotProduct, Matrix.of_apply, DState.get_ofFn]

/-- Jacobians whose columns are all defined or all undefined, the new one acting on turned increments as the old one. -/
lemma colMat_comm {ρ : Type} {g g' : DState n nCam nPose → Option (ρ → ℝ)} {T : Cov n nCam nPose} {D : (ρ → ℝ) → ρ → ℝ} {t : DState n nCam nPose → DState n nCam nPose}
    (hT : ∀ v, DState.ofFn (T.mulVec v) = t (DState.ofFn v)) (ht : ∀ δ, g' (t δ) = (g δ).map D)
    (hg : (∀ δ, g δ = none) ∨ ∃ h : DState n nCam nPose → ρ → ℝ, (∀ δ, g δ = some (h δ)) ∧ ∀ r, IsLin fun δ => h δ r)
    (hg' : (∀ δ, g' δ = none) ∨ ∃ h : DState n nCam nPose → ρ → ℝ, (∀ δ, g' δ = some (h δ)) ∧ ∀ r, IsLin fun δ => h δ r) :
    Both (fun M M' : Matrix ρ (Ix n nCam nPose) ℝ => ∀ v, (M' * T).mulVec v = D (M.mulVec v)) (colMat fun b => g (DState.unit b)) (colMat fun b => g' (DState.unit b)) := by
  have hnone : ∀ {k : DState n nCam nPose → Option (ρ → ℝ)}, (∀ δ, k δ = none) → colMat (fun b => k (DState.unit b)) = none := fun {k} hk => by
    unfold colMat
    rw [dif_neg]
    intro h
    have : (k (DState.unit (.pos 0))).isSome := h (.pos 0)
    rw [hk] at this
    cases this
  have hsome : ∀ {k : DState n nCam nPose → Option (ρ → ℝ)} {h : DState n nCam nPose → ρ → ℝ}, (∀ δ, k δ = some (h δ)) → colMat (fun b => k (DState.unit b)) = some (Matrix.of fun r b => h (DState.unit b) r) := fun {k h} hk => by
    unfold colMat
    rw [dif_pos fun b => by simp only [hk]; rfl]
    congr 1
    ext r b
    simp only [Matrix.of_apply]
    rw [Option.get_of_eq_some _ (hk _)]
  rcases hg with hg | ⟨h, hs, hl⟩
  · rcases hg' with hg' | ⟨h', hs', -⟩
    · rw [hnone hg, hnone hg']; exact .none
    · have := ht (DState.ofFn 0)
      rw [hs', hg] at this
      cases this
  · rcases hg' with hg' | ⟨h', hs', hl'⟩
    · have := ht (DState.ofFn 0)
      rw [hg', hs] at this
      cases this
    · rw [hsome hs, hsome hs']
      refine .some fun v => ?_
      rw [← Matrix.mulVec_mulVec, IsLin.mulVec hl', IsLin.mulVec hl, hT]
      have := ht (DState.ofFn v)
      rw [hs', hs] at this
      exact Option.some.inj this

namespace Spec.ImuFrame

variable {f : ImuFrame} {k : Option (Fin nPose)}

/-! ### The matrix -/

/-- The error vector along the new axes; `t`: also the attitude part (for the noise, where it is that of the gyroscope). -/
def turn (f : ImuFrame) (k : Option (Fin nPose)) (t : Bool) (δ : DState n nCam nPose) : DState n nCam nPose :=
  { δ with
    vel := f.q.rotate δ.vel
    acb := f.q.rotate δ.acb
    gyb := f.q.rotate δ.gyb
    att := if t then f.q.rotate δ.att else δ.att
    vep := fun c => f.q.rotate (δ.vep c)
    pop := fun j => if k = some j then f.q.rotate (δ.pop j) else δ.pop j }

/-- The matrix of `turn`. -/
def tmat (f : ImuFrame) (k : Option (Fin nPose)) (t : Bool) : Cov n nCam nPose := Matrix.of fun
  | .vel a, .vel b => f.rot a b
  | .acb a, .acb b => f.rot a b
  | .gyb a, .gyb b => f.rot a b
  | .att a, .att b => if t then f.rot a b else if a = b then 1 else 0
  | .vep c a, .vep d b => if c = d then f.rot a b else 0
  | .pop i a, .pop j b => if i = j then (if k = some i then f.rot a b else if a = b then 1 else 0) else 0
  | a, b => if a = b then 1 else 0

lemma tmat_false : (f.tmat k false : Cov n nCam nPose) = f.mat k := by
  ext a b
  cases a <;> cases b <;> first | rfl | simp [tmat, mat]

lemma sum_rot (v : Fin 3 → ℝ) (l : Fin 3) : ∑ i, f.rot l i * v i = (f.q.rotate ⟨v 0, v 1, v 2⟩).at l := by
  rw [Fin.sum_univ_three]
  fin_cases l <;> simp [rot, Quat.rotate, V3.at]

lemma sum_block {r v : Ix n nCam nPose → ℝ} (ι : Fin 3 → Ix n nCam nPose) (hι : Function.Injective ι) {l : Fin 3} (h1 : ∀ i, r (ι i) = f.rot l i)
    (h2 : ∀ b, (∀ i, ι i ≠ b) → r b = 0) : ∑ b, r b * v b = (f.q.rotate ⟨v (ι 0), v (ι 1), v (ι 2)⟩).at l := by
  rw [← sum_rot (fun i => v (ι i)) l]
  refine (Fintype.sum_of_injective ι hι _ _ (fun b hb => ?_) (fun i => by rw [h1])).symm
  rw [h2 b fun i e => hb ⟨i, e⟩, zero_mul]

lemma sum_unit {r v : Ix n nCam nPose → ℝ} (a : Ix n nCam nPose) (h : ∀ b, r b = if a = b then 1 else 0) : ∑ b, r b * v b = v a := by
  simp [h]

lemma tmat_mulVec (f : ImuFrame) (k : Option (Fin nPose)) (t : Bool) (v : Ix n nCam nPose → ℝ) : DState.ofFn ((f.tmat k t).mulVec v) = f.turn k t (DState.ofFn v) := by
  refine DState.ext' ?_
  rw [DState.get_ofFn]
  funext a
  have hm : (f.tmat k t).mulVec v a = ∑ b, (f.tmat k t : Cov n nCam nPose) a b * v b := rfl
  rw [hm]
  cases a with
  | vel l => exact sum_block (fun i => .vel i) (fun a b h => by simpa using h) (fun i => rfl) fun b hb => by cases b <;> first | rfl | exact absurd rfl (hb _)
  | acb l => exact sum_block (fun i => .acb i) (fun a b h => by simpa using h) (fun i => rfl) fun b hb => by cases b <;> first | rfl | exact absurd rfl (hb _)
  | gyb l => exact sum_block (fun i => .gyb i) (fun a b h => by simpa using h) (fun i => rfl) fun b hb => by cases b <;> first | rfl | exact absurd rfl (hb _)
  | att l =>
    cases t with
    | true => exact sum_block (fun i => .att i) (fun a b h => by simpa using h) (fun i => rfl) fun b hb => by cases b <;> first | rfl | exact absurd rfl (hb _)
    | false =>
      refine (sum_unit (.att l) fun b => ?_).trans (congrFun (DState.get_ofFn v) (.att l)).symm
      cases b <;> simp [tmat]
  | vep c l =>
    refine sum_block (fun i => .vep c i) (fun a b h => by simpa using h) (fun i => by simp [tmat]) fun b hb => ?_
    cases b with
    | vep d i =>
      have : c ≠ d := fun e => hb i (by rw [e])
      simp [tmat, this]
    | _ => rfl
  | pop j l =>
    by_cases hj : k = some j
    · have e : (f.turn k t (DState.ofFn v)).get (.pop j l) = (f.q.rotate ⟨v (.pop j 0), v (.pop j 1), v (.pop j 2)⟩).at l := by simp [turn, DState.get, hj, DState.ofFn]
      rw [e]
      refine sum_block (fun i => .pop j i) (fun a b h => by simpa using h) (fun i => by simp [tmat, hj]) fun b hb => ?_
      cases b with
      | pop d i =>
        have : j ≠ d := fun e => hb i (by rw [e])
        simp [tmat, this]
      | _ => rfl
    · have e : (f.turn k t (DState.ofFn v)).get (.pop j l) = (DState.ofFn v).get (.pop j l) := by simp [turn, DState.get, hj]
      rw [e, DState.get_ofFn]
      refine sum_unit (.pop j l) fun b => ?_
      cases b with
      | pop d i =>
        by_cases hd : j = d
        · subst hd; simp [tmat, hj]
        · simp [tmat, hd]
      | _ => rfl
  | pos l => exact (sum_unit (.pos l) fun b => by cases b <;> rfl).trans (congrFun (DState.get_ofFn v) (.pos l)).symm
  | vea c l => exact (sum_unit (.vea c l) fun b => by cases b <;> rfl).trans (congrFun (DState.get_ofFn v) (.vea c l)).symm
  | nor i l => exact (sum_unit (.nor i l) fun b => by cases b <;> rfl).trans (congrFun (DState.get_ofFn v) (.nor i l)).symm
  | dep i => exact (sum_unit (.dep i) fun b => by cases b <;> rfl).trans (congrFun (DState.get_ofFn v) (.dep i)).symm
  | poa j l => exact (sum_unit (.poa j l) fun b => by cases b <;> rfl).trans (congrFun (DState.get_ofFn v) (.poa j l)).symm

lemma back_unit (hq : f.q.IsUnit) : f.back.q.IsUnit := hq.inv

lemma back_back (f : ImuFrame) : f.back.back = f := by cases f; simp [back, Quat.inv]

lemma turn_back (hq : f.q.IsUnit) (t : Bool) (δ : DState n nCam nPose) : f.turn k t (f.back.turn k t δ) = δ := by
  have e : ∀ v, f.q.rotate (f.q.inv.rotate v) = v := Quat.rotate_rotate_inv hq
  cases δ with
  | mk p1 p2 p3 p4 p5 p6 p7 p8 p9 p10 p11 =>
  simp only [turn, back, e, DState.mk.injEq, true_and, and_true]
  refine ⟨by cases t <;> simp [e], funext fun j => ?_⟩
  by_cases hj : k = some j <;> simp [hj, e]

lemma rot_back (i j : Fin 3) : f.back.rot i j = f.rot j i := by
  fin_cases i <;> fin_cases j <;> simp [rot, back, Quat.rotate, Quat.inv, V3.at] <;> ring

lemma tmat_back (t : Bool) : (f.back.tmat k t : Cov n nCam nPose) = (f.tmat k t)ᵀ := by
  ext a b
  rw [Matrix.transpose_apply]
  cases a <;> cases b <;> first | rfl | exact rot_back _ _ | skip
  · simp only [tmat, Matrix.of_apply, Ix.pos.injEq, eq_comm]
  · simp only [tmat, Matrix.of_apply, rot_back, eq_comm]
  · rename_i c i d j
    by_cases h : c = d
    · subst h; simp [tmat, rot_back]
    · simp [tmat, h, Ne.symm h]
  · simp only [tmat, Matrix.of_apply, Ix.vea.injEq, eq_comm]
  · simp only [tmat, Matrix.of_apply, Ix.nor.injEq, eq_comm]
  · simp only [tmat, Matrix.of_apply, Ix.dep.injEq, eq_comm]
  · rename_i c i d j
    by_cases h : c = d
    · subst h; simp [tmat, rot_back, eq_comm]
    · simp [tmat, h, Ne.symm h]
  · simp only [tmat, Matrix.of_apply, Ix.poa.injEq, eq_comm]

lemma tmat_orth (hq : f.q.IsUnit) (k : Option (Fin nPose)) (t : Bool) : (f.tmat k t : Cov n nCam nPose) * (f.tmat k t)ᵀ = 1 := by
  refine Matrix.ext_of_mulVec_single fun b => ?_
  rw [← tmat_back, ← Matrix.mulVec_mulVec, Matrix.one_mulVec]
  have := tmat_mulVec f k t ((f.back.tmat k t).mulVec (Pi.single b 1) : Ix n nCam nPose → ℝ)
  rw [tmat_mulVec f.back, turn_back hq] at this
  have h := congrArg DState.get this
  rw [DState.get_ofFn, DState.get_ofFn] at h
  exact h

lemma tmat_diag (hq : f.q.IsUnit) (t : Bool) {p : Ix n nCam nPose → ℝ} (h1 : ∀ l l', p (.vel l) = p (.vel l')) (h2 : ∀ l l', p (.acb l) = p (.acb l')) (h3 : ∀ l l', p (.gyb l) = p (.gyb l'))
    (h4 : t = true → ∀ l l', p (.att l) = p (.att l')) (h5 : ∀ c l l', p (.vep c l) = p (.vep c l')) (h6 : ∀ j l l', k = some j → p (.pop j l) = p (.pop j l')) :
    f.tmat k t * Matrix.diagonal p * (f.tmat k t)ᵀ = Matrix.diagonal p := by
  have e : (f.tmat k t : Cov n nCam nPose) * Matrix.diagonal p = Matrix.diagonal p * f.tmat k t := by
    ext a b
    rw [Matrix.mul_diagonal, Matrix.diagonal_mul]
    have hab : a = b → (f.tmat k t : Cov n nCam nPose) a b * p b = p a * (f.tmat k t : Cov n nCam nPose) a b := fun h => by subst h; ring
    have hz : (f.tmat k t : Cov n nCam nPose) a b = 0 → (f.tmat k t : Cov n nCam nPose) a b * p b = p a * (f.tmat k t : Cov n nCam nPose) a b := fun h => by rw [h]; ring
    have hp : p a = p b → (f.tmat k t : Cov n nCam nPose) a b * p b = p a * (f.tmat k t : Cov n nCam nPose) a b := fun h => by rw [h]; ring
    by_cases hh : a = b
    · exact hab hh
    · cases a <;> cases b <;> first | exact hz rfl | exact hp (h1 _ _) | exact hp (h2 _ _) | exact hp (h3 _ _) | skip
      · rename_i l l'; refine hz ?_; change (if _ then (1:ℝ) else 0) = 0; rw [if_neg hh]
      · rename_i l l'
        cases t with
        | true => exact hp (h4 rfl _ _)
        | false => refine hz ?_; have : l ≠ l' := fun e => hh (by rw [e]); simp [tmat, this]
      · rename_i c l d l'
        by_cases hc : c = d
        · subst hc; exact hp (h5 _ _ _)
        · exact hz (by simp [tmat, hc])
      · refine hz ?_; change (if _ then (1:ℝ) else 0) = 0; rw [if_neg hh]
      · refine hz ?_; change (if _ then (1:ℝ) else 0) = 0; rw [if_neg hh]
      · refine hz ?_; change (if _ then (1:ℝ) else 0) = 0; rw [if_neg hh]
      · rename_i i l j l'
        by_cases hi : i = j
        · subst hi
          by_cases hk : k = some i
          · exact hp (h6 _ _ _ hk)
          · have : l ≠ l' := fun e => hh (by rw [e])
            exact hz (by simp [tmat, hk, this])
        · exact hz (by simp [tmat, hi])
      · refine hz ?_; change (if _ then (1:ℝ) else 0) = 0; rw [if_neg hh]
  rw [e, Matrix.mul_assoc, tmat_orth hq, Matrix.mul_one]

lemma symm_cov (P : Cov n nCam nPose) : symm (f.cov k P) = f.cov k (symm P) := by
  simp only [symm, cov, Matrix.transpose_mul, Matrix.transpose_transpose, Matrix.mul_smul, Matrix.smul_mul, Matrix.mul_add, Matrix.add_mul, Matrix.mul_assoc]

end Spec.ImuFrame

end Rovio
