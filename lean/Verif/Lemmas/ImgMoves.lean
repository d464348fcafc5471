import Verif.Lemmas.Known
import Verif.Spec.ImgMoves
import Verif.Lemmas.ImgSees
import Verif.Lemmas.ImgScan
import Verif.Lemmas.FeatureManager
import Verif.Lemmas.StateCurve
import Verif.Lemmas.ImuPrediction

/-! # Lemmas about what one image may do to the estimate -/

namespace Rovio.ImgFull

open Rovio.Spec Rovio.Img Matrix

variable {n nCam nPose : ℕ}

/-- A two by two matrix as a matrix. -/
def toMat (A : M2) : Matrix (Fin 2) (Fin 2) ℝ := !![A.a, A.b; A.c, A.d]

lemma toMat_mulVec (A : M2) (v : V2) (k : Fin 2) : (A.mulVec v).at k = ∑ l, toMat A k l * v.at l := by
  fin_cases k <;> simp [toMat, M2.mulVec, V2.at, Fin.sum_univ_two]

/-- The Jacobian of an update that is not cancelled is a matrix times the derivative of the bearing. -/
lemma jac_shape (F : Full n nCam nPose) {m : Mem} {cur : Fin nCam → List Level} {mp : MLP} {i : Fin n} {counter : ℕ} {x : State n nCam nPose} {r r' : Scr}
    {J : DState n nCam nPose → Option V2} (h : F.jac m cur mp i counter x r = some (J, false, r')) :
    ∃ (a : Fin nCam) (A : M2), camIdx nCam (x.fea i).c.camID = some a ∧
      ∀ δ, J δ = (x.featureJac F.sfv true i (Rovio.activeCam counter a) δ).map fun d => A.mulVec d.1 := by
  unfold Full.jac at h
  cases hd : F.base.direct with
  | true =>
    rw [hd, if_pos rfl] at h
    simp only [Option.bind_eq_bind, Option.pure_def] at h
    obtain ⟨⟨b, f⟩, hf, h⟩ := Option.bind_eq_some_iff.mp h
    obtain ⟨⟨c, e⟩, he, h⟩ := Option.bind_eq_some_iff.mp h
    unfold State.imgFeature at hf
    simp only [Option.bind_eq_bind, Option.pure_def] at hf
    obtain ⟨a, ha, hf⟩ := Option.bind_eq_some_iff.mp hf
    obtain ⟨f', hf', hf⟩ := Option.bind_eq_some_iff.mp hf
    simp only [Option.some.injEq, Prod.mk.injEq] at hf
    obtain ⟨rfl, rfl⟩ := hf
    dsimp only at h
    cases hr : F.reduce e with
    | none => rw [hr] at h; simp at h
    | some q =>
      obtain ⟨A, v⟩ := q
      rw [hr] at h
      dsimp only at h
      obtain ⟨⟨c', nor⟩, hn, h⟩ := Option.bind_eq_some_iff.mp h
      simp only [Option.some.injEq, Prod.mk.injEq] at h
      obtain ⟨rfl, -, -⟩ := h
      exact ⟨a, _, ha, fun δ => rfl⟩
  | false =>
    rw [hd, if_neg (by simp)] at h
    simp only [Option.bind_eq_bind, Option.pure_def] at h
    obtain ⟨⟨H, r2⟩, hc, h⟩ := Option.bind_eq_some_iff.mp h
    simp only [Option.some.injEq, Prod.mk.injEq, true_and] at h
    obtain ⟨rfl, rfl⟩ := h
    unfold Full.cand at hc
    simp only [Option.bind_eq_bind, Option.pure_def] at hc
    obtain ⟨⟨b, f⟩, hf, hc⟩ := Option.bind_eq_some_iff.mp hc
    dsimp only at hc
    obtain ⟨⟨c', nor⟩, hn, hc2⟩ := Option.bind_eq_some_iff.mp hc
    dsimp only at hc2
    clear hc
    unfold State.imgFeature at hf
    simp only [Option.bind_eq_bind, Option.pure_def] at hf
    obtain ⟨a, ha, hf⟩ := Option.bind_eq_some_iff.mp hf
    obtain ⟨f', hf', hf⟩ := Option.bind_eq_some_iff.mp hf
    simp only [Option.some.injEq, Prod.mk.injEq] at hf hc2
    obtain ⟨rfl, rfl⟩ := hf
    rw [← hc2.1]
    exact ⟨a, _, ha, fun δ => rfl⟩

/-- The filter update: nothing without success, with success a correction with the feature's bearing. -/
lemma ekf_cases (F : Full n nCam nPose) {gate : Gate 2} {R : Matrix (Fin 2) (Fin 2) ℝ} {u : PoseUpd nPose} {m : Mem} {cur : Fin nCam → List Level} {mp : MLP} {meas : Option FC}
    {i : Fin n} {counter : ℕ} {x : State n nCam nPose} {P : Cov n nCam nPose} {r : Scr} :
    (∃ r', ekf gate R u (F.callbacks m cur mp meas i counter) x P r = (x, P, r', false)) ∨
    ∃ (a : Fin nCam) (A : Matrix (Fin 2) (Fin 2) ℝ) (y : Fin 2 → ℝ) (J : Matrix (Fin 2) (Ix n nCam nPose) ℝ) (z : Rovio.FSt n nCam nPose) (r' : M2), ekf gate R u (F.callbacks m cur mp meas i counter) x P r = (z.s, z.P, r', true) ∧ camIdx nCam (x.fea i).c.camID = some a ∧
      (∀ b, (x.featureJac F.sfv true i (Rovio.activeCam counter a) (DState.unit b)).map (fun r => r.1.at) = some fun k => J k b) ∧
      Rovio.FSt.finish ⟨x, P, u⟩ gate y (A * J) R id = some z := by
  unfold ekf
  simp only [Option.bind_eq_bind, Option.pure_def]
  cases (F.callbacks m cur mp meas i counter).innov x 0 r with
  | none => exact .inl ⟨_, rfl⟩
  | some a =>
    obtain ⟨v, stop, r1⟩ := a
    simp only [Option.bind_some]
    cases hJ : (F.callbacks m cur mp meas i counter).jac x r1 with
    | none => exact .inl ⟨_, rfl⟩
    | some a =>
      obtain ⟨J, stop', r2⟩ := a
      simp only [Option.bind_some]
      cases hH : colMat fun b => (J (DState.unit b)).map V2.at with
      | none => exact .inl ⟨_, rfl⟩
      | some H =>
        simp only [Option.bind_some]
        cases hz : Rovio.FSt.finish ⟨x, P, u⟩ gate v.at H R id with
        | none => exact .inl ⟨_, rfl⟩
        | some z =>
          simp only [Option.bind_some]
          cases (F.callbacks m cur mp meas i counter).check z.s true r2 with
          | none => exact .inl ⟨_, rfl⟩
          | some q =>
            obtain ⟨ok, r3⟩ := q
            simp only [Option.bind_some, Option.getD_some]
            by_cases hc : (ok && !stop && !stop') = true
            · simp only [if_pos hc]
              have hs : stop' = false := by cases stop' <;> simp_all
              subst hs
              obtain ⟨a, A, ha, hA⟩ := jac_shape F (m := m) (cur := cur) (mp := mp) hJ
              right
              have hex : ∀ b, ∃ d, x.featureJac F.sfv true i (Rovio.activeCam counter a) (DState.unit b) = some d := fun b => by
                have h1 := colMat_some hH b
                rw [hA] at h1
                cases hd : x.featureJac F.sfv true i (Rovio.activeCam counter a) (DState.unit b) with
                | none => rw [hd] at h1; simp at h1
                | some d => exact ⟨d, rfl⟩
              choose d hd using hex
              have hHA : H = toMat A * Matrix.of fun k b => (d b).1.at k := by
                ext k b
                have h1 := colMat_some hH b
                rw [hA, hd] at h1
                simp only [Option.map_some, Option.some.injEq] at h1
                rw [← congrFun h1 k, toMat_mulVec, Matrix.mul_apply]
                rfl
              refine ⟨a, toMat A, v.at, _, z, _, rfl, ha, fun b => ?_, hHA ▸ hz⟩
              rw [hd]
              rfl
            · simp only [if_neg hc]
              exact .inl ⟨_, rfl⟩

/-! ### Corrections keep the camera of a feature -/

lemma fix_camID {s s' : State n nCam nPose} (h : s.fix = some s') (i : Fin n) : (s'.fea i).c.camID = (s.fea i).c.camID := by
  unfold State.fix at h
  simp only [Option.bind_eq_bind, Option.pure_def] at h
  obtain ⟨fea, hf, h⟩ := Option.bind_eq_some_iff.mp h
  rw [Option.some.injEq] at h
  rw [← h]
  have := optAll_eq_some hf i
  unfold Fea.fix at this
  simp only [Option.bind_eq_bind, Option.pure_def] at this
  obtain ⟨⟨c, nor⟩, hn, this⟩ := Option.bind_eq_some_iff.mp this
  rw [Option.some.injEq] at this
  show (fea i).c.camID = _
  rw [← this]
  show (c.setNor ⟨nor.q.fix⟩ false).camID = _
  rw [show (c.setNor ⟨nor.q.fix⟩ false).camID = c.camID by simp [FC.setNor]]
  obtain ⟨b, hb, -⟩ := FC.getNor_spec hn
  unfold FC.comNor at hb
  by_cases hv : (s.fea i).c.validNor = true
  · rw [if_pos hv] at hb
    simp only [Option.some.injEq, Prod.mk.injEq] at hb
    rw [← hb.1]
  · rw [if_neg hv] at hb
    cases hcam : (s.fea i).c.cam with
    | none => rw [hcam] at hb; simp at hb
    | some cam =>
      rw [hcam] at hb
      dsimp only at hb
      by_cases hC : (s.fea i).c.validC = true
      · rw [if_pos hC] at hb
        simp only [Option.some.injEq, Prod.mk.injEq] at hb
        rw [← hb.1]
      · rw [if_neg hC] at hb
        simp only [Option.some.injEq, Prod.mk.injEq] at hb
        rw [← hb.1]

lemma finish_camID {m : ℕ} {x z : Rovio.FSt n nCam nPose} {gate : Gate m} {y : Fin m → ℝ} {H : Matrix (Fin m) (Ix n nCam nPose) ℝ} {R : Matrix (Fin m) (Fin m) ℝ}
    (h : x.finish gate y H R id = some z) (i : Fin n) : (z.s.fea i).c.camID = (x.s.fea i).c.camID := by
  unfold Rovio.FSt.finish at h
  simp only [Option.bind_eq_bind, Option.pure_def] at h
  obtain ⟨⟨δ, P'⟩, -, h⟩ := Option.bind_eq_some_iff.mp h
  obtain ⟨s', hs, h⟩ := Option.bind_eq_some_iff.mp h
  rw [Option.some.injEq] at h
  rw [← h]
  exact (fix_camID hs i).trans (Fea.boxPlus_cam _ _ _)

/-- A correction computes all bearings. -/
lemma finish_validNor {m : ℕ} {x z : Rovio.FSt n nCam nPose} {gate : Gate m} {y : Fin m → ℝ} {H : Matrix (Fin m) (Ix n nCam nPose) ℝ} {R : Matrix (Fin m) (Fin m) ℝ}
    (h : x.finish gate y H R id = some z) (i : Fin n) : (z.s.fea i).c.validNor = true := by
  unfold Rovio.FSt.finish at h
  simp only [Option.bind_eq_bind, Option.pure_def] at h
  obtain ⟨⟨δ, P'⟩, -, h⟩ := Option.bind_eq_some_iff.mp h
  obtain ⟨s', hs, h⟩ := Option.bind_eq_some_iff.mp h
  rw [Option.some.injEq] at h
  rw [← h]
  unfold State.fix at hs
  simp only [Option.bind_eq_bind, Option.pure_def] at hs
  obtain ⟨fea, hf, hs⟩ := Option.bind_eq_some_iff.mp hs
  rw [Option.some.injEq] at hs
  rw [← hs]
  have := optAll_eq_some hf i
  unfold Fea.fix at this
  simp only [Option.bind_eq_bind, Option.pure_def] at this
  obtain ⟨⟨c, nor⟩, hn, this⟩ := Option.bind_eq_some_iff.mp this
  rw [Option.some.injEq] at this
  show (fea i).c.validNor = true
  rw [← this]
  simp [FC.setNor]

lemma activeCam_same {k : ℕ} {x : ℤ} {a c : Fin nCam} (ha : camIdx nCam x = some a) (hc : Img.activeCam nCam k x = some c) : Rovio.activeCam k a = c := by
  unfold camIdx at ha
  by_cases hx : 0 ≤ x ∧ x < nCam
  · rw [dif_pos hx, Option.some.injEq] at ha
    unfold Img.activeCam at hc
    dsimp only at hc
    split_ifs at hc with hr
    rw [Option.some.injEq] at hc
    rw [← ha, ← hc]
    apply Fin.ext
    show (k + x.toNat) % nCam = (((k : ℤ) + x).tmod nCam).toNat
    obtain ⟨m, rfl⟩ := Int.eq_ofNat_of_zero_le hx.1
    rw [show ((k : ℤ) + (m : ℤ)).tmod nCam = (((k + m) % nCam : ℕ) : ℤ) from by rw [← Int.natCast_add, Int.tmod_eq_emod_of_nonneg (by positivity), Int.natCast_mod]]
    rw [Int.toNat_natCast, Int.toNat_natCast]
  · rw [dif_neg hx] at ha; cases ha

/-! ### The pieces of the image update -/

section

variable {F : Full n nCam nPose} {fcfg : FCfg n nCam nPose} {gate : Gate 2} {R : Matrix (Fin 2) (Fin 2) ℝ} {u : PoseUpd nPose} {x₀ : State n nCam nPose} {P₀ : Cov n nCam nPose}
  {mem : FSt n nCam nPose → Mem} {mem' : ℝ → Slot MLP → Mem} {cfg : Cfg}

/-- The estimate of a filter state is reached by corrections for the features in `l`. -/
def By (F : Full n nCam nPose) (gate : Gate 2) (R : Matrix (Fin 2) (Fin 2) ℝ) (u : PoseUpd nPose) (x₀ : State n nCam nPose) (P₀ : Cov n nCam nPose)
    (l : List (Fin n × Fin nCam)) (s : FSt n nCam nPose) : Prop := ByMatches F.sfv F.C gate R u x₀ P₀ l (here s) s.cov

lemma By.change {l : List (Fin n × Fin nCam)} {s s' : FSt n nCam nPose} (h : By F gate R u x₀ P₀ l s) (hx : s'.w.x = s.w.x) (hP : s'.cov = s.cov) : By F gate R u x₀ P₀ l s' := by
  have e : here s' = { here s with fea := (here s').fea } := by unfold here; rw [hx]
  unfold By
  rw [e, hP]
  exact h.features _

lemma By.remove {l : List (Fin n × Fin nCam)} {s : FSt n nCam nPose} (h : By F gate R u x₀ P₀ l s) (i : Fin n) :
    By F gate R u x₀ P₀ l (s.remove (((F.withFilter fcfg gate R u)).env mem mem') i) := by
  have e : here (s.remove (((F.withFilter fcfg gate R u)).env mem mem') i) = { here s with fea := (here (s.remove (((F.withFilter fcfg gate R u)).env mem mem') i)).fea } := rfl
  unfold By
  rw [e]
  exact (h.features _).reset i (.inl rfl)

lemma By.fold {l : List (Fin n × Fin nCam)} {α : Type} (f : FSt n nCam nPose → α → FSt n nCam nPose) (hf : ∀ s i, By F gate R u x₀ P₀ l s → By F gate R u x₀ P₀ l (f s i)) (is : List α) :
    ∀ s, By F gate R u x₀ P₀ l s → By F gate R u x₀ P₀ l (is.foldl f s) := by
  induction is with
  | nil => exact fun s h => h
  | cons i is ih => exact fun s h => ih _ (hf s i h)

lemma By.removeNegative {l : List (Fin n × Fin nCam)} {s : FSt n nCam nPose} (h : By F gate R u x₀ P₀ l s) :
    By F gate R u x₀ P₀ l (Img.removeNegative cfg ((F.withFilter fcfg gate R u).env mem mem') s) := by
  unfold Img.removeNegative
  by_cases hc : cfg.removeNegative = true
  · rw [if_pos hc]
    refine By.fold _ (fun s i h => ?_) _ s h
    split
    · split
      · exact h.remove i
      · exact h
    · exact h
  · rw [if_neg hc]; exact h

/-- The initialisation of a feature changes features and resets its covariance. -/
lemma initNewFeature_moves {ncfg : NewCfg n} {mc : MultiCamera nCam} {sfv : V3 → Nor} {c : Fin nCam} {med : ℝ} {out : Fea} {i : Fin n} {l : List (Fin n × Fin nCam)}
    {sfv' : V3 → Nor} {x : State n nCam nPose} {P : Cov n nCam nPose} {r : Fea × State n nCam nPose × Cov n nCam nPose}
    (h : initNewFeature ncfg mc sfv c med (out, x, P) i = some r) (hb : ByMatches sfv' ncfg.C gate R u x₀ P₀ l x P) :
    ByMatches sfv' ncfg.C gate R u x₀ P₀ l r.2.1 r.2.2 := by
  have hset : ∀ {x : State n nCam nPose} {P : Cov n nCam nPose} d, ByMatches sfv' ncfg.C gate R u x₀ P₀ l x P → ByMatches sfv' ncfg.C gate R u x₀ P₀ l (x.setDist i d) P :=
    fun {x P} d h => h.features _
  have h1 := (hset { (x.fea i).d with p := med } hb).reset i (.inr (.inr ⟨((x.setDist i { (x.fea i).d with p := med }).fea i).d, rfl⟩))
  unfold initNewFeature at h
  simp only [Option.bind_eq_bind, Option.pure_def] at h
  by_cases hc : nCam > 1 ∧ ncfg.stereo = true
  · rw [if_pos hc] at h
    obtain ⟨out', ho, h⟩ := Option.bind_eq_some_iff.mp h
    cases hf : ncfg.found i out'.c.view with
    | none => simp only [hf] at h; cases h; exact h1
    | some al =>
      simp only [hf] at h
      obtain ⟨⟨s2, P2⟩, hst, h⟩ := Option.bind_eq_some_iff.mp h
      cases h
      unfold stereoInit at hst
      simp only [Option.bind_eq_bind, Option.pure_def] at hst
      obtain ⟨⟨_, v1⟩, hv1, hst⟩ := Option.bind_eq_some_iff.mp hst
      obtain ⟨⟨_, v2⟩, hv2, hst⟩ := Option.bind_eq_some_iff.mp hst
      dsimp only at hst
      generalize FC.depthFromTriangulation v1.vec v2.vec _ _ _ = D at hst
      cases D with
      | none => cases hst; exact h1
      | some D =>
        dsimp only at hst
        obtain ⟨d, hd, hst⟩ := Option.bind_eq_some_iff.mp hst
        cases hst
        exact (hset d h1).reset i (.inr (.inl rfl))
  · rw [if_neg hc] at h
    cases h
    exact h1

lemma By.initNew {l : List (Fin n × Fin nCam)} {s : FSt n nCam nPose} (med : ℝ) (c : Fin nCam) (i : Fin n) (h : By F gate R u x₀ P₀ l s) :
    By F gate R u x₀ P₀ l (Img.initNew ((F.withFilter fcfg gate R u).env mem mem') med c s i) := by
  unfold Img.initNew
  dsimp only
  generalize hs1 : ({ s with ext := Function.update s.ext i { stat := { Stat.resetStatistics (s.ext i).stat s.t with
    status := Function.update (Stat.resetStatistics (s.ext i).stat s.t).status c Stat.Status.tracked }, lastPatch := s.t } } : FSt n nCam nPose) = s1
  have h1 : By F gate R u x₀ P₀ l s1 := h.change (by rw [← hs1]) (by rw [← hs1])
  suffices hk : By F gate R u x₀ P₀ l { s1 with w := ((F.withFilter fcfg gate R u).initFeature (mem s1) med s1 i c).1, cov := ((F.withFilter fcfg gate R u).initFeature (mem s1) med s1 i c).2 } from
    hk.change rfl rfl
  unfold Full.initFeature
  generalize hr : initNewFeature ((F.withFilter fcfg gate R u).newCfg (mem s1) s1 c) (F.withFilter fcfg gate R u).mc (F.withFilter fcfg gate R u).sfv c med
    ((F.withFilter fcfg gate R u).outOf (mem s1).out, here s1, s1.cov) i = r
  cases r with
  | none => exact h1.change rfl rfl
  | some r =>
    obtain ⟨o, x, P⟩ := r
    have h2 := initNewFeature_moves hr h1
    exact h2.features fun j => { x.fea j with c := known (s1.fsm.slots j).coord }

/-! ### The loop -/

/-- The visits of the record so far and the corrections made. -/
def Listed (log : List (Visit n nCam)) (l : List (Fin n × Fin nCam)) : Prop := List.Sublist (pairs Tracked log) l ∧ List.Sublist l (pairs Reached log)

lemma pairs_append (p : Visit n nCam → Bool) (log log' : List (Visit n nCam)) : pairs p (log ++ log') = pairs p log ++ pairs p log' := by
  simp [pairs]

/-- A visit that does not reach the filter. -/
lemma Listed.miss {log : List (Visit n nCam)} {l : List (Fin n × Fin nCam)} (h : Listed log l) {v : Visit n nCam} (hv : v.result = some .notInFrame ∨ v.result = some .failedAlignment) :
    Listed (log ++ [v]) l := by
  have h1 : pairs Tracked [v] = [] := by rcases hv with hv | hv <;> simp [pairs, Tracked, hv]
  have h2 : pairs Reached [v] = [] := by rcases hv with hv | hv <;> simp [pairs, Reached, hv]
  unfold Listed
  rw [pairs_append, pairs_append, h1, h2, List.append_nil, List.append_nil]
  exact h

/-- A visit that reached the filter, without correction. -/
lemma Listed.fail {log : List (Visit n nCam)} {l : List (Fin n × Fin nCam)} (h : Listed log l) {v : Visit n nCam} (hv : v.result ≠ some .tracked) :
    Listed (log ++ [v]) l := by
  have h1 : pairs Tracked [v] = [] := by simp [pairs, Tracked, hv]
  unfold Listed
  rw [pairs_append, pairs_append, h1, List.append_nil]
  exact ⟨h.1, h.2.trans (List.sublist_append_left _ _)⟩

/-- A visit with a correction. -/
lemma Listed.hit {log : List (Visit n nCam)} {l : List (Fin n × Fin nCam)} (h : Listed log l) {v : Visit n nCam} (hv : Reached v = true) :
    Listed (log ++ [v]) (l ++ [(v.i, v.c)]) := by
  have h2 : pairs Reached [v] = [(v.i, v.c)] := by simp [pairs, hv]
  have h1 : List.Sublist (pairs Tracked [v]) [(v.i, v.c)] := by
    unfold pairs
    by_cases ht : Tracked v = true
    · simp [ht]
    · simp [ht]
  unfold Listed
  rw [pairs_append, pairs_append, h2]
  exact ⟨h.1.append h1, h.2.append (List.Sublist.refl _)⟩

/-- The invariant of the loop. -/
def Inv (F : Full n nCam nPose) (gate : Gate 2) (R : Matrix (Fin 2) (Fin 2) ℝ) (u : PoseUpd nPose) (x₀ : State n nCam nPose) (P₀ : Cov n nCam nPose) (s : FSt n nCam nPose) : Prop :=
  ∃ l, Listed s.log l ∧ By F gate R u x₀ P₀ l s

lemma probe_inr {env : Env MLP (World n nCam nPose) (Cov n nCam nPose) n nCam} {s : FSt n nCam nPose} {i : Fin n} {c : Fin nCam} {st : Stat.Status}
    (h : probe cfg env s i c = .inr st) : st = .notInFrame ∨ st = .failedAlignment := by
  unfold probe at h
  split at h
  · cases h; exact .inl rfl
  · split at h
    · cases h
    · split at h
      · split at h
        · split at h
          · cases h; exact .inr rfl
          · cases h
        · cases h; exact .inr rfl
      · cases h; exact .inr rfl

lemma probe_inl {env : Env MLP (World n nCam nPose) (Cov n nCam nPose) n nCam} {s s' : FSt n nCam nPose} {i : Fin n} {c : Fin nCam}
    (h : probe cfg env s i c = .inl s') : s'.w = s.w ∧ s'.cov = s.cov ∧ s'.log = s.log := by
  unfold probe at h
  split at h
  · cases h
  · split at h
    · cases h; exact ⟨rfl, rfl, rfl⟩
    · split at h
      · split at h
        · split at h
          · cases h
          · cases h; exact ⟨rfl, rfl, rfl⟩
        · cases h
      · cases h

lemma enter_same (s : FSt n nCam nPose) (i : Fin n) : (s.enter i).w = s.w ∧ (s.enter i).cov = s.cov ∧ (s.enter i).log = s.log := by
  unfold St.enter
  split
  · exact ⟨rfl, rfl, rfl⟩
  · exact ⟨rfl, rfl, rfl⟩

lemma advance_same (s : FSt n nCam nPose) : (advance cfg s).w = s.w ∧ (advance cfg s).cov = s.cov ∧ (advance cfg s).log = s.log := by
  unfold advance
  split
  · exact ⟨rfl, rfl, rfl⟩
  · exact ⟨rfl, rfl, rfl⟩

lemma Inv.change {s s' : FSt n nCam nPose} (h : Inv F gate R u x₀ P₀ s) (hx : s'.w = s.w) (hP : s'.cov = s.cov) (hl : s'.log = s.log) : Inv F gate R u x₀ P₀ s' := by
  obtain ⟨l, h1, h2⟩ := h
  exact ⟨l, hl ▸ h1, h2.change (by rw [hx]) hP⟩

lemma Inv.scan : ∀ (fuel : ℕ) (s : FSt n nCam nPose) (s' : FSt n nCam nPose) (b : Bool), Img.scan cfg ((F.withFilter fcfg gate R u).env mem mem') fuel s = some (s', b) →
    Inv F gate R u x₀ P₀ s → Inv F gate R u x₀ P₀ s' := by
  intro fuel
  induction fuel with
  | zero => intro s s' b h; cases h
  | succ fuel ih =>
    intro s s' b h hs
    rw [Img.scan] at h
    split at h
    · rename_i hid
      split at h
      · split at h
        · cases h
        · rename_i c hc
          have he := enter_same s ⟨s.id, hid⟩
          split at h
          · rename_i s1 hp
            cases h
            have := probe_inl hp
            exact hs.change (this.1.trans he.1) (this.2.1.trans he.2.1) (this.2.2.trans he.2.2)
          · rename_i st hp
            refine ih _ _ _ h ?_
            obtain ⟨l, h1, h2⟩ := hs
            refine Inv.change (s := (s.enter ⟨s.id, hid⟩).setStatus ⟨s.id, hid⟩ c st) ⟨l, ?_, ?_⟩ (advance_same _).1 (advance_same _).2.1 (advance_same _).2.2
            · show Listed ((s.enter ⟨s.id, hid⟩).log ++ [_]) l
              rw [he.2.2]
              exact h1.miss ((probe_inr hp).imp (fun h => by rw [h]) fun h => by rw [h])
            · exact h2.change (by show (s.enter ⟨s.id, hid⟩).w.x = _; rw [he.1]) he.2.1
      · exact ih _ _ _ h (hs.change (advance_same _).1 (advance_same _).2.1 (advance_same _).2.2)
    · cases h; exact hs

lemma removeNegative_log {env : Env MLP (World n nCam nPose) (Cov n nCam nPose) n nCam} (s : FSt n nCam nPose) : (Img.removeNegative cfg env s).log = s.log := by
  unfold Img.removeNegative
  split
  · generalize List.finRange n = is
    induction is generalizing s with
    | nil => rfl
    | cons i is ih =>
      rw [List.foldl_cons, ih]
      split
      · split <;> rfl
      · rfl
  · rfl

/-- What the record says after a filter update. -/
lemma postVisit_log {env : Env MLP (World n nCam nPose) (Cov n nCam nPose) n nCam} (s : FSt n nCam nPose) (ok : Bool) (i : Fin n) (c : Fin nCam) :
    ∃ st, (Img.postVisit cfg env s ok i c).log = s.log ++ [⟨i, c, st⟩] ∧ Reached (⟨i, c, st⟩ : Visit n nCam) = true ∧ (ok = false → st ≠ some .tracked) := by
  unfold Img.postVisit
  dsimp only
  rw [(advance_same _).2.2]
  split
  · refine ⟨some (verdict env (Img.removeNegative cfg env s) ok i c), ?_, ?_, ?_⟩
    · show (Img.removeNegative cfg env s).log ++ _ = _
      rw [removeNegative_log]
    · unfold verdict
      cases ok
      · rfl
      · simp only [if_true]
        split <;> rfl
    · intro h
      subst h
      simp [verdict]
  · refine ⟨none, ?_, rfl, fun _ => by simp⟩
    show (Img.removeNegative cfg env s).log ++ _ = _
    rw [removeNegative_log]

lemma By.postVisit {l : List (Fin n × Fin nCam)} {s : FSt n nCam nPose} (h : By F gate R u x₀ P₀ l s) (ok : Bool) (i : Fin n) (c : Fin nCam) :
    By F gate R u x₀ P₀ l (Img.postVisit cfg ((F.withFilter fcfg gate R u).env mem mem') s ok i c) := by
  unfold Img.postVisit
  dsimp only
  have h1 := h.removeNegative (cfg := cfg) (fcfg := fcfg) (mem := mem) (mem' := mem')
  refine By.change (s := Img.removeNegative cfg ((F.withFilter fcfg gate R u).env mem mem') s) h1 ?_ ?_
  · rw [(advance_same _).1]; split <;> rfl
  · rw [(advance_same _).2.1]; split <;> rfl

/-- A filter update: nothing, or a correction with this feature in this camera. -/
lemma By.update {l : List (Fin n × Fin nCam)} {s : FSt n nCam nPose} (h : By F gate R u x₀ P₀ l s) {i : Fin n} {c : Fin nCam}
    (hc : Img.activeCam nCam s.cam (s.camID i) = some c) :
    (By F gate R u x₀ P₀ l (applyUpdate ((F.withFilter fcfg gate R u).env mem mem') s i c).1 ∧ (applyUpdate ((F.withFilter fcfg gate R u).env mem mem') s i c).2 = false) ∨
      By F gate R u x₀ P₀ (l ++ [(i, c)]) (applyUpdate ((F.withFilter fcfg gate R u).env mem mem') s i c).1 := by
  unfold applyUpdate
  dsimp only
  rw [show ((F.withFilter fcfg gate R u).env mem mem').update s i c = (F.withFilter fcfg gate R u).update (mem s) s i c from rfl]
  unfold Full.update
  split
  · rename_i f hf
    rw [show (F.withFilter fcfg gate R u).lwf = ekf gate R u from rfl]
    rcases ekf_cases (F.withFilter fcfg gate R u) (gate := gate) (R := R) (u := u) (m := mem s) (cur := (F.withFilter fcfg gate R u).imgs s.t) (mp := (s.fsm.slots i).patch)
      (meas := s.meas i) (i := i) (counter := s.cam) (x := here s) (P := s.cov) (r := ((F.withFilter fcfg gate R u).started s i c f, s.w.cJ)) with
      ⟨r', hr⟩ | ⟨a, A, y, J, z, r', hr, ha, hJ, hz⟩
    · left
      rw [hr]
      exact ⟨h.features _, rfl⟩
    · right
      rw [hr]
      have ha' : camIdx nCam (s.camID i) = some a := by
        have e : ((here s).fea i).c.camID = s.camID i := known_camID _
        rw [← e]; exact ha
      have hac : Rovio.activeCam s.cam a = c := activeCam_same ha' hc
      rw [hac] at hJ
      exact (h.correct i c A y hJ hz).features _
  · exact .inl ⟨h.change rfl rfl, rfl⟩

lemma Inv.loop : ∀ (fuel : ℕ) (s s' : FSt n nCam nPose), Img.loop cfg ((F.withFilter fcfg gate R u).env mem mem') fuel s = some s' → Inv F gate R u x₀ P₀ s → Inv F gate R u x₀ P₀ s' := by
  intro fuel
  induction fuel with
  | zero => intro s s' h; cases h
  | succ fuel ih =>
    intro s s' h hs
    rw [Img.loop] at h
    split at h
    · cases h
    · rename_i s1 hsc
      cases h
      exact hs.scan _ _ _ _ hsc
    · rename_i s1 hsc
      have h1 := hs.scan _ _ _ _ hsc
      split at h
      · rename_i hid
        split at h
        · cases h
        · rename_i c hc
          refine ih _ _ h ?_
          obtain ⟨l, hl, hb⟩ := h1
          obtain ⟨st, e, hr, hst⟩ := postVisit_log (cfg := cfg) (env := (F.withFilter fcfg gate R u).env mem mem')
            (applyUpdate ((F.withFilter fcfg gate R u).env mem mem') s1 ⟨s1.id, hid⟩ c).1 (applyUpdate ((F.withFilter fcfg gate R u).env mem mem') s1 ⟨s1.id, hid⟩ c).2 ⟨s1.id, hid⟩ c
          have e' : (applyUpdate ((F.withFilter fcfg gate R u).env mem mem') s1 ⟨s1.id, hid⟩ c).1.log = s1.log := rfl
          rw [e'] at e
          rcases hb.update (fcfg := fcfg) (mem := mem) (mem' := mem') hc with ⟨h2, h3⟩ | h2
          · exact ⟨l, e ▸ hl.fail (hst h3), h2.postVisit _ _ _⟩
          · exact ⟨l ++ [(⟨s1.id, hid⟩, c)], e ▸ hl.hit hr, h2.postVisit _ _ _⟩
      · cases h

/-! ### The record of visits stays as it is afterwards -/

lemma foldl_keep {α β : Type} {Q : β → Prop} {f : β → α → β} (hf : ∀ s i, Q s → Q (f s i)) (is : List α) : ∀ s, Q s → Q (is.foldl f s) := by
  induction is with
  | nil => exact fun s h => h
  | cons i is ih => exact fun s h => ih _ (hf s i h)

lemma foldlM_keep {α β : Type} {Q : β → Prop} {f : β → α → Option β} (hf : ∀ s i s', f s i = some s' → Q s → Q s') (is : List α) :
    ∀ s s', is.foldlM f s = some s' → Q s → Q s' := by
  induction is with
  | nil => intro s s' h hs; rw [List.foldlM_nil] at h; cases h; exact hs
  | cons i is ih =>
    intro s s' h hs
    rw [List.foldlM_cons] at h
    obtain ⟨s1, h1, h2⟩ := Option.bind_eq_some_iff.mp h
    exact ih _ _ h2 (hf _ _ _ h1 hs)

/-- A property that holds before the removal, refreshing and addition of features and that these keep. -/
structure Post (I : USet) (order : Finset (Fin n) → List (Fin n)) (env : Env MLP (World n nCam nPose) (Cov n nCam nPose) n nCam) (Q : FSt n nCam nPose → Prop) : Prop where
  remove : ∀ s i, Q s → s.valid i = true → Q (s.remove env i)
  install : ∀ s i q, Q s → Q (installPatch s i q)
  detect : ∀ med c s fsm ids b st, ({ env.detect s c with camID := c.val, maxAdded := b, requireMax := false, minScore := st } : AddArgs MLP).addBestCandidates I s.fsm =
    some (fsm, ids) → Q s → Q ((order ids).foldl (initNew env med c) { s with fsm := fsm })

lemma forced_keep {env : Env MLP (World n nCam nPose) (Cov n nCam nPose) n nCam} {Q : FSt n nCam nPose → Prop} (hQ : ∀ s i, Q s → s.valid i = true → Q (s.remove env i))
    {required : ℤ} : ∀ (fuel : ℕ) (factor : ℝ) (k : ℕ) (s s' : FSt n nCam nPose), Img.forced cfg env required fuel factor k s = some s' → Q s → Q s' := by
  intro fuel
  induction fuel with
  | zero =>
    intro factor k s s' h hs
    rw [Img.forced] at h
    split at h
    · cases h
    · cases h; exact hs
  | succ fuel ih =>
    intro factor k s s' h hs
    rw [Img.forced] at h
    split at h
    · split at h
      · rename_i hk
        have h1 : Q (forceOne cfg env factor s ⟨k, hk⟩) := by
          unfold forceOne
          split
          · rename_i hv
            split
            · exact hQ _ _ hs hv
            · exact hs
          · exact hs
        split at h
        · exact ih _ _ _ _ h h1
        · exact ih _ _ _ _ h h1
      · cases h
    · cases h; exact hs

lemma Post.common {env : Env MLP (World n nCam nPose) (Cov n nCam nPose) n nCam} {Q : FSt n nCam nPose → Prop} {I : USet}
    {order : Finset (Fin n) → List (Fin n)} (hQ : Post I order env Q) {fuel : ℕ} {s s' : FSt n nCam nPose} (h : commonPost I order cfg env fuel s = some s') (hs : Q s) :
    ∃ s1, Q s1 ∧ s' = zeroVelocity cfg env { s1 with w := env.finish s1.t s1.w } := by
  unfold commonPost at h
  simp only [Option.bind_eq_bind, Option.pure_def] at h
  obtain ⟨s1, h1, h⟩ := Option.bind_eq_some_iff.mp h
  obtain ⟨req, -, h⟩ := Option.bind_eq_some_iff.mp h
  obtain ⟨s2, h2, h⟩ := Option.bind_eq_some_iff.mp h
  obtain ⟨s3, h3, h⟩ := Option.bind_eq_some_iff.mp h
  rw [Option.some.injEq] at h
  refine ⟨s3, ?_, h.symm⟩
  have q1 : Q s1 := by
    unfold Img.refreshAll at h1
    refine foldlM_keep (fun s i s' h hs => ?_) _ _ _ h1 hs
    unfold refreshPatch at h
    split at h
    · split at h
      · split at h
        · split at h
          · cases h; exact hs
          · split at h
            · cases h; exact hQ.install _ _ _ hs
            · cases h; exact hs
        · cases h; exact hs
      · cases h
    · cases h; exact hs
  have q1' : Q (Img.removeBad cfg env s1) := by
    unfold Img.removeBad
    refine foldl_keep (fun s i h => ?_) _ _ q1
    split
    · rename_i hv
      split
      · exact hQ.remove _ _ h hv
      · exact h
    · exact h
  have q2 : Q s2 := forced_keep hQ.remove _ _ _ _ _ h2 q1'
  unfold Img.detectAll at h3
  split at h3
  · refine foldlM_keep (fun s c s' he hs => ?_) _ _ _ h3 q2
    unfold detectCam at he
    dsimp only at he
    split at he
    · cases he
    · rename_i fsm ids ha
      cases he
      exact hQ.detect _ _ s fsm ids _ _ ha hs
  · cases h3; exact q2

lemma post_by {I : USet} {order : Finset (Fin n) → List (Fin n)} (l : List (Fin n × Fin nCam)) (L : List (Visit n nCam)) :
    Post I order ((F.withFilter fcfg gate R u).env mem mem') fun s => By F gate R u x₀ P₀ l s ∧ s.log = L where
  remove s i h _ := ⟨h.1.remove i, h.2⟩
  install s i q h := ⟨h.1.change rfl rfl, h.2⟩
  detect med c s fsm ids b st ha h := by
    refine foldl_keep (Q := fun s => By F gate R u x₀ P₀ l s ∧ s.log = L) (fun s i h => ⟨h.1.initNew _ _ _, h.2⟩) _ _ ⟨h.1.change rfl rfl, h.2⟩

lemma commonPre_same {env : Env MLP (World n nCam nPose) (Cov n nCam nPose) n nCam} (s : FSt n nCam nPose) :
    (commonPre cfg env s).w = s.w ∧ (commonPre cfg env s).cov = s.cov ∧ (commonPre cfg env s).log = s.log ∧ (commonPre cfg env s).fsm = s.fsm := by
  unfold commonPre
  dsimp only
  split
  · split <;> exact ⟨rfl, rfl, rfl, rfl⟩
  · exact ⟨rfl, rfl, rfl, rfl⟩

/-- The zero-velocity update at the end of an image. -/
lemma zeroVelocity_here (s : FSt n nCam nPose) :
    (here (zeroVelocity cfg ((F.withFilter fcfg gate R u).env mem mem') s), (zeroVelocity cfg ((F.withFilter fcfg gate R u).env mem mem') s).cov) =
      if cfg.zeroVelocity && cfg.visualMotion && decide (s.sinceImage > cfg.minTimeZeroVelocity) && decide (s.sinceInertial > cfg.minTimeZeroVelocity) then
        zeroUpdate fcfg u (here s) s.cov else (here s, s.cov) := by
  unfold zeroVelocity
  split
  · rename_i hc
    show (here _, (zeroUpdate fcfg u (here s) s.cov).2) = zeroUpdate fcfg u (here s) s.cov
    refine Prod.ext ?_ rfl
    have hcam : ∀ j, (((zeroUpdate fcfg u (here s) s.cov).1.fea j).c).camID = (s.fsm.slots j).coord.camID := fun j => by
      unfold zeroUpdate keepOr
      split
      · rename_i y hy
        unfold Rovio.FSt.zeroVel at hy
        rw [if_pos rfl] at hy
        exact (finish_camID hy j).trans (known_camID _)
      · exact known_camID _
    have hkn : ∀ j, known ((zeroUpdate fcfg u (here s) s.cov).1.fea j).c = ((zeroUpdate fcfg u (here s) s.cov).1.fea j).c := fun j => by
      unfold zeroUpdate keepOr
      split
      · rename_i y hy
        unfold Rovio.FSt.zeroVel at hy
        rw [if_pos rfl] at hy
        exact known_of_valid (finish_validNor hy j)
      · exact known_known _
    show ({ (zeroUpdate fcfg u (here s) s.cov).1 with fea := fun j => { (zeroUpdate fcfg u (here s) s.cov).1.fea j with
      c := known { ((zeroUpdate fcfg u (here s) s.cov).1.fea j).c with camID := (s.fsm.slots j).coord.camID } } } : State n nCam nPose) = _
    simp only [← hcam, hkn]
  · rfl

/-! ### Images in which nothing is found -/

omit fcfg in
lemma scan_nothing {env : Env MLP (World n nCam nPose) (Cov n nCam nPose) n nCam} : ∀ (fuel : ℕ) (s s' : FSt n nCam nPose) (b : Bool), Img.scan cfg env fuel s = some (s', b) →
    s'.w = s.w ∧ s'.cov = s.cov ∧ s'.fsm = s.fsm ∧ ∃ t, s'.log = s.log ++ t := by
  intro fuel
  induction fuel with
  | zero => intro s s' b h; cases h
  | succ fuel ih =>
    intro s s' b h
    have hadv : ∀ s : FSt n nCam nPose, (advance cfg s).fsm = s.fsm := fun s => by unfold advance; split <;> rfl
    rw [Img.scan] at h
    split at h
    · rename_i hid
      have hent : (s.enter ⟨s.id, hid⟩).fsm = s.fsm := by unfold St.enter; split <;> rfl
      split at h
      · split at h
        · cases h
        · rename_i c hc
          have he := enter_same s ⟨s.id, hid⟩
          split at h
          · rename_i s1 hp
            cases h
            have h1 := probe_inl hp
            have h2 : s'.fsm = (s.enter ⟨s.id, hid⟩).fsm := by
              unfold probe at hp
              split at hp
              · cases hp
              · split at hp
                · cases hp; rfl
                · split at hp
                  · split at hp
                    · split at hp
                      · cases hp
                      · cases hp; rfl
                    · cases hp
                  · cases hp
            exact ⟨h1.1.trans he.1, h1.2.1.trans he.2.1, h2.trans hent, [], by rw [h1.2.2, he.2.2, List.append_nil]⟩
          · rename_i st hp
            obtain ⟨a1, a2, a3, t, a4⟩ := ih _ _ _ h
            have b := advance_same (cfg := cfg) ((s.enter ⟨s.id, hid⟩).setStatus ⟨s.id, hid⟩ c st)
            refine ⟨?_, ?_, ?_, [⟨⟨s.id, hid⟩, c, some st⟩] ++ t, ?_⟩
            · rw [a1, b.1]; exact he.1
            · rw [a2, b.2.1]; exact he.2.1
            · rw [a3, hadv]; exact hent
            · rw [a4, b.2.2]
              show ((s.enter ⟨s.id, hid⟩).log ++ _) ++ t = _
              rw [he.2.2, List.append_assoc]
      · obtain ⟨a1, a2, a3, t, a4⟩ := ih _ _ _ h
        have b := advance_same (cfg := cfg) s
        exact ⟨a1.trans b.1, a2.trans b.2.1, a3.trans (hadv s), t, by rw [a4, b.2.2]⟩
    · cases h; exact ⟨rfl, rfl, rfl, [], (List.append_nil _).symm⟩

lemma loop_log {env : Env MLP (World n nCam nPose) (Cov n nCam nPose) n nCam} : ∀ (fuel : ℕ) (s s' : FSt n nCam nPose), Img.loop cfg env fuel s = some s' →
    ∃ t, s'.log = s.log ++ t := by
  intro fuel
  induction fuel with
  | zero => intro s s' h; cases h
  | succ fuel ih =>
    intro s s' h
    rw [Img.loop] at h
    split at h
    · cases h
    · rename_i s1 hsc
      cases h
      exact (scan_nothing _ _ _ _ hsc).2.2.2
    · rename_i s1 hsc
      obtain ⟨t, ht⟩ := (scan_nothing _ _ _ _ hsc).2.2.2
      split at h
      · rename_i hid
        split at h
        · cases h
        · rename_i c hc
          obtain ⟨t2, ht2⟩ := ih _ _ h
          obtain ⟨st, e, -, -⟩ := postVisit_log (cfg := cfg) (env := env) (applyUpdate env s1 ⟨s1.id, hid⟩ c).1 (applyUpdate env s1 ⟨s1.id, hid⟩ c).2 ⟨s1.id, hid⟩ c
          rw [e, show (applyUpdate env s1 ⟨s1.id, hid⟩ c).1.log = s1.log from rfl, ht] at ht2
          exact ⟨t ++ [⟨⟨s1.id, hid⟩, c, st⟩] ++ t2, by rw [ht2]; simp⟩
      · cases h

lemma loop_nothing {env : Env MLP (World n nCam nPose) (Cov n nCam nPose) n nCam} (fuel : ℕ) (s s' : FSt n nCam nPose) (h : Img.loop cfg env fuel s = some s')
    (hl : ∀ v ∈ s'.log, Reached v = false) : s'.w = s.w ∧ s'.cov = s.cov ∧ s'.fsm = s.fsm := by
  cases fuel with
  | zero => cases h
  | succ fuel =>
    rw [Img.loop] at h
    split at h
    · cases h
    · rename_i s1 hsc
      cases h
      have := scan_nothing _ _ _ _ hsc
      exact ⟨this.1, this.2.1, this.2.2.1⟩
    · rename_i s1 hsc
      split at h
      · rename_i hid
        split at h
        · cases h
        · rename_i c hc
          obtain ⟨t2, ht2⟩ := loop_log _ _ _ h
          obtain ⟨st, e, hr, -⟩ := postVisit_log (cfg := cfg) (env := env) (applyUpdate env s1 ⟨s1.id, hid⟩ c).1 (applyUpdate env s1 ⟨s1.id, hid⟩ c).2 ⟨s1.id, hid⟩ c
          have := hl ⟨⟨s1.id, hid⟩, c, st⟩ (by rw [ht2, e]; simp)
          rw [hr] at this
          cases this
      · cases h

/-- Nothing but features that do not survive has changed. -/
structure Kept (s₀ s : FSt n nCam nPose) : Prop where
  platform : SamePlatformEstimate s₀.w.x s.w.x
  maxIdx : s₀.fsm.maxIdx ≤ s.fsm.maxIdx
  point : ∀ i, Survives s₀ s i → SamePoint (s₀.fsm.slots i).coord (s.fsm.slots i).coord
  dist : ∀ i, Survives s₀ s i → (s.w.x.fea i).d = (s₀.w.x.fea i).d
  cov : ∀ a b, keptRow (Survives s₀ s) a → keptRow (Survives s₀ s) b → s.cov a b = s₀.cov a b

lemma keptRow_mono {p q : Fin n → Prop} (h : ∀ i, p i → q i) {a : Ix n nCam nPose} (ha : keptRow p a) : keptRow q a := by
  cases a <;> first | trivial | exact h _ ha

lemma keptRow_slot {p : Fin n → Prop} {i : Fin n} (h : ¬ p i) {a : Ix n nCam nPose} (ha : keptRow p a) (k : Fin 3) : a ≠ slotIx i k := by
  rintro rfl
  fin_cases k <;> exact h ha

lemma reset_kept {p : Fin n → Prop} {i : Fin n} (h : ¬ p i) (P : Cov n nCam nPose) (C : Matrix (Fin 3) (Fin 3) ℝ) {a b : Ix n nCam nPose} (ha : keptRow p a) (hb : keptRow p b) :
    P.resetFeature i C a b = P a b := (C52_entries P i C).1 a b (keptRow_slot h ha) (keptRow_slot h hb)

/-- The initialisation of a feature changes that feature's distance and rows only. -/
lemma initNewFeature_local {ncfg : NewCfg n} {mc : MultiCamera nCam} {sfv : V3 → Nor} {c : Fin nCam} {med : ℝ} {out : Fea} {i : Fin n}
    {x : State n nCam nPose} {P : Cov n nCam nPose} {r : Fea × State n nCam nPose × Cov n nCam nPose} (h : initNewFeature ncfg mc sfv c med (out, x, P) i = some r) :
    SamePlatformEstimate x r.2.1 ∧ (∀ j, j ≠ i → (r.2.1.fea j).d = (x.fea j).d) ∧
      ∀ (p : Fin n → Prop), ¬ p i → ∀ a b : Ix n nCam nPose, keptRow p a → keptRow p b → r.2.2 a b = P a b := by
  have hset : ∀ (x : State n nCam nPose) d, SamePlatformEstimate x (x.setDist i d) ∧ ∀ j, j ≠ i → ((x.setDist i d).fea j).d = (x.fea j).d := fun x d =>
    ⟨rfl, fun j hj => by unfold State.setDist; simp [Function.update_of_ne hj]⟩
  have h1 := hset x { (x.fea i).d with p := med }
  have htr : ∀ {x y z : State n nCam nPose}, SamePlatformEstimate x y → SamePlatformEstimate y z → SamePlatformEstimate x z := fun {x y z} h1 h2 => by
    unfold SamePlatformEstimate at *
    rw [h2, h1]
  unfold initNewFeature at h
  simp only [Option.bind_eq_bind, Option.pure_def] at h
  by_cases hc : nCam > 1 ∧ ncfg.stereo = true
  · rw [if_pos hc] at h
    obtain ⟨out', ho, h⟩ := Option.bind_eq_some_iff.mp h
    cases hf : ncfg.found i out'.c.view with
    | none => simp only [hf] at h; cases h; exact ⟨h1.1, h1.2, fun p hp a b ha hb => reset_kept hp _ _ ha hb⟩
    | some al =>
      simp only [hf] at h
      obtain ⟨⟨s2, P2⟩, hst, h⟩ := Option.bind_eq_some_iff.mp h
      cases h
      unfold stereoInit at hst
      simp only [Option.bind_eq_bind, Option.pure_def] at hst
      obtain ⟨⟨_, v1⟩, hv1, hst⟩ := Option.bind_eq_some_iff.mp hst
      obtain ⟨⟨_, v2⟩, hv2, hst⟩ := Option.bind_eq_some_iff.mp hst
      dsimp only at hst
      generalize FC.depthFromTriangulation v1.vec v2.vec _ _ _ = D at hst
      cases D with
      | none => cases hst; exact ⟨h1.1, h1.2, fun p hp a b ha hb => reset_kept hp _ _ ha hb⟩
      | some D =>
        dsimp only at hst
        obtain ⟨d, hd, hst⟩ := Option.bind_eq_some_iff.mp hst
        cases hst
        have h2 := hset (x.setDist i { (x.fea i).d with p := med }) d
        exact ⟨htr h1.1 h2.1, fun j hj => (h2.2 j hj).trans (h1.2 j hj), fun p hp a b ha hb => (reset_kept hp _ _ ha hb).trans (reset_kept hp _ _ ha hb)⟩
  · rw [if_neg hc] at h
    cases h
    exact ⟨h1.1, h1.2, fun p hp a b ha hb => reset_kept hp _ _ ha hb⟩

lemma Kept.refl (s : FSt n nCam nPose) : Kept s s :=
  ⟨rfl, le_rfl, fun _ _ => ⟨rfl, rfl, rfl, rfl, rfl, rfl⟩, fun _ _ => rfl, fun _ _ _ _ => rfl⟩

lemma Kept.remove {s₀ s : FSt n nCam nPose} (h : Kept s₀ s) (i : Fin n) : Kept s₀ (s.remove ((F.withFilter fcfg gate R u).env mem mem') i) := by
  have hi : ¬ Survives s₀ (s.remove ((F.withFilter fcfg gate R u).env mem mem') i) i := by
    rintro ⟨-, h2, -⟩
    simp [St.remove, St.valid, FeatSet.removeFeature] at h2
  have hs : ∀ j, Survives s₀ (s.remove ((F.withFilter fcfg gate R u).env mem mem') i) j → j ≠ i ∧ Survives s₀ s j := by
    intro j hj
    have hji : j ≠ i := fun e => hi (e ▸ hj)
    refine ⟨hji, hj.1, ?_, ?_⟩
    · have := hj.2.1; simpa [St.remove, St.valid, FeatSet.removeFeature, Function.update_of_ne hji] using this
    · have := hj.2.2; simpa [St.remove, FeatSet.removeFeature, Function.update_of_ne hji] using this
  refine ⟨h.platform, h.maxIdx, fun j hj => ?_, fun j hj => h.dist j (hs j hj).2, fun a b ha hb => ?_⟩
  · show SamePoint _ ((s.fsm.removeFeature i).slots j).coord
    rw [show (s.fsm.removeFeature i).slots j = s.fsm.slots j by simp [FeatSet.removeFeature, Function.update_of_ne (hs j hj).1]]
    exact h.point j (hs j hj).2
  · show s.cov.resetFeature i 1 a b = _
    rw [reset_kept hi _ _ ha hb]
    exact h.cov a b (keptRow_mono (fun j hj => (hs j hj).2) ha) (keptRow_mono (fun j hj => (hs j hj).2) hb)

lemma Kept.install {s₀ s : FSt n nCam nPose} (h : Kept s₀ s) (i : Fin n) (q : MLP) : Kept s₀ (installPatch s i q) := by
  have hsl : ∀ j, ((installPatch s i q).fsm.slots j).valid = (s.fsm.slots j).valid ∧ ((installPatch s i q).fsm.slots j).idx = (s.fsm.slots j).idx ∧
      SamePoint (s.fsm.slots j).coord ((installPatch s i q).fsm.slots j).coord := by
    intro j
    by_cases hj : j = i
    · have e : (installPatch s i q).fsm.slots j = { s.fsm.slots i with patch := q, coord := (s.fsm.slots i).coord.setWarpIdentity } := by
        subst hj; simp only [installPatch, Function.update_self]
      rw [e, hj]; exact ⟨rfl, rfl, rfl, rfl, rfl, rfl, rfl, rfl⟩
    · have e : (installPatch s i q).fsm.slots j = s.fsm.slots j := by simp only [installPatch, Function.update_of_ne hj]
      rw [e]; exact ⟨rfl, rfl, rfl, rfl, rfl, rfl, rfl, rfl⟩
  have hs : ∀ j, Survives s₀ (installPatch s i q) j → Survives s₀ s j := fun j hj => ⟨hj.1, by rw [← hj.2.1]; exact (hsl j).1.symm, by rw [← hj.2.2]; exact (hsl j).2.1.symm⟩
  refine ⟨h.platform, h.maxIdx, fun j hj => ?_, fun j hj => h.dist j (hs j hj), fun a b ha hb => h.cov a b (keptRow_mono hs ha) (keptRow_mono hs hb)⟩
  have a := h.point j (hs j hj)
  have b := (hsl j).2.2
  exact ⟨b.c.trans a.c, b.validC.trans a.validC, b.nor.trans a.nor, b.validNor.trans a.validNor, b.camID.trans a.camID, b.cam.trans a.cam⟩

lemma Kept.initNew {s₀ s : FSt n nCam nPose} (h : Kept s₀ s) (med : ℝ) (c : Fin nCam) {i : Fin n} (hi : ¬ Survives s₀ s i) :
    Kept s₀ (Img.initNew ((F.withFilter fcfg gate R u).env mem mem') med c s i) := by
  unfold Img.initNew
  dsimp only
  generalize hs1 : ({ s with ext := Function.update s.ext i { stat := { Stat.resetStatistics (s.ext i).stat s.t with
    status := Function.update (Stat.resetStatistics (s.ext i).stat s.t).status c Stat.Status.tracked }, lastPatch := s.t } } : FSt n nCam nPose) = s1
  have e1 : s1.w = s.w := by rw [← hs1]
  have e2 : s1.cov = s.cov := by rw [← hs1]
  have e3 : s1.fsm = s.fsm := by rw [← hs1]
  show Kept s₀ { s with ext := _, w := ((F.withFilter fcfg gate R u).initFeature (mem s1) med s1 i c).1, cov := ((F.withFilter fcfg gate R u).initFeature (mem s1) med s1 i c).2 }
  unfold Full.initFeature
  generalize hr : initNewFeature ((F.withFilter fcfg gate R u).newCfg (mem s1) s1 c) (F.withFilter fcfg gate R u).mc (F.withFilter fcfg gate R u).sfv c med
    ((F.withFilter fcfg gate R u).outOf (mem s1).out, here s1, s1.cov) i = r
  cases r with
  | none => dsimp only; rw [e1, e2]; exact ⟨h.platform, h.maxIdx, h.point, h.dist, h.cov⟩
  | some r =>
    obtain ⟨o, x, P⟩ := r
    obtain ⟨h1, h2, h3⟩ := initNewFeature_local hr
    refine ⟨?_, h.maxIdx, h.point, fun j hj => ?_, fun a b ha hb => ?_⟩
    · have hp := h.platform
      unfold SamePlatformEstimate at hp h1 ⊢
      have h1' : x = { s.w.x with fea := x.fea } := by
        have : x = { here s1 with fea := x.fea } := h1
        rw [this]; unfold here; rw [e1]
      show x = _
      rw [h1', hp]
    · show (x.fea j).d = _
      have hji : j ≠ i := fun e => hi (e ▸ hj)
      rw [h2 j hji]
      show (s1.w.x.fea j).d = _
      rw [e1]
      exact h.dist j hj
    · show P a b = _
      have := h3 (Survives s₀ s) hi a b ha hb
      rw [e2] at this
      exact this.trans (h.cov a b ha hb)

lemma post_kept {I : USet} (hI : I.Lawful) {order : Finset (Fin n) → List (Fin n)} (ho : ∀ S, ∀ i ∈ order S, i ∈ S)
    (hF : ∀ s c, (((F.withFilter fcfg gate R u).env mem mem').detect s c).Sane) {s₀ : FSt n nCam nPose} (h₀ : ∀ i, s₀.valid i = true → (s₀.fsm.slots i).idx < s₀.fsm.maxIdx)
    (L : List (Visit n nCam)) : Post I order ((F.withFilter fcfg gate R u).env mem mem') fun s => Kept s₀ s ∧ s.log = L where
  remove s i h _ := ⟨h.1.remove i, h.2⟩
  install s i q h := ⟨h.1.install i q, h.2⟩
  detect med c s fsm ids b st ha h := by
    have hsane : ({ ((F.withFilter fcfg gate R u).env mem mem').detect s c with camID := c.val, maxAdded := b, requireMax := false, minScore := st } : AddArgs MLP).Sane :=
      ⟨(hF s c).1, (hF s c).2, (hF s c).3, (hF s c).4, (hF s c).5⟩
    revert ha
    generalize ({ ((F.withFilter fcfg gate R u).env mem mem').detect s c with camID := c.val, maxAdded := b, requireMax := false, minScore := st } : AddArgs MLP) = A at hsane ⊢
    intro ha
    have hpl : ∃ xs ss, AddArgs.Placed A s.fsm xs ss fsm ∧ ids = ss.toFinset := by
      by_cases hm : A.minScore < A.maxScore
      · obtain ⟨xs, ss, t', h1, _, h3⟩ := AddArgs.addBestCandidates_spec hI hsane s.fsm hm
        rw [h1] at ha
        simp only [Option.some.injEq, Prod.mk.injEq] at ha
        exact ⟨xs, ss, ha.1 ▸ h3, ha.2.symm⟩
      · unfold AddArgs.addBestCandidates at ha
        rw [if_pos (not_lt.mp hm)] at ha
        simp only [Option.some.injEq, Prod.mk.injEq] at ha
        rw [← ha.1, ← ha.2]
        exact ⟨[], [], .nil s.fsm, rfl⟩
    obtain ⟨xs, ss, hp, rfl⟩ := hpl
    obtain ⟨f1, f2, f3⟩ := hp.free
    have hnew : ∀ i ∈ ss, (s.fsm.maxIdx : ℤ) ≤ (fsm.slots i).idx := fun i hi => by
      obtain ⟨k, x, hk, hs⟩ := hp.index hi
      rw [hp.slot k x i hk hs]
      show (s.fsm.maxIdx : ℤ) ≤ ((s.fsm.maxIdx + k : ℕ) : ℤ)
      push_cast; omega
    have hdead : ∀ i ∈ ss, ¬ Survives s₀ { s with fsm := fsm } i := by
      rintro i hi ⟨a1, a2, a3⟩
      have h1 := h₀ i a1
      have h2 := hnew i hi
      have h3 := h.1.maxIdx
      have h4 : (fsm.slots i).idx = (s₀.fsm.slots i).idx := a3
      have h5 : (s₀.fsm.maxIdx : ℤ) ≤ s.fsm.maxIdx := by exact_mod_cast h3
      omega
    have hk : Kept s₀ { s with fsm := fsm } := by
      have hs : ∀ j, Survives s₀ { s with fsm := fsm } j → Survives s₀ s j ∧ fsm.slots j = s.fsm.slots j := fun j hj => by
        have e : fsm.slots j = s.fsm.slots j := f3 j fun hi => hdead j hi hj
        exact ⟨⟨hj.1, by have := hj.2.1; simp only [St.valid] at this ⊢; rw [← e]; exact this, by have := hj.2.2; rw [← e]; exact this⟩, e⟩
      refine ⟨h.1.platform, h.1.maxIdx.trans (by show s.fsm.maxIdx ≤ fsm.maxIdx; rw [hp.maxIdx]; omega), fun j hj => ?_, fun j hj => h.1.dist j (hs j hj).1,
        fun a b ha hb => h.1.cov a b (keptRow_mono (fun j hj => (hs j hj).1) ha) (keptRow_mono (fun j hj => (hs j hj).1) hb)⟩
      show SamePoint _ (fsm.slots j).coord
      rw [(hs j hj).2]
      exact h.1.point j (hs j hj).1
    have hord : ∀ i ∈ order ss.toFinset, i ∈ ss := fun i hi => by simpa using ho _ i hi
    have : ∀ (is : List (Fin n)), (∀ i ∈ is, i ∈ ss) → ∀ s1 : FSt n nCam nPose, s1.fsm = fsm → Kept s₀ s1 ∧ s1.log = L →
        Kept s₀ (is.foldl (Img.initNew ((F.withFilter fcfg gate R u).env mem mem') med c) s1) ∧ (is.foldl (Img.initNew ((F.withFilter fcfg gate R u).env mem mem') med c) s1).log = L := by
      intro is
      induction is with
      | nil => intro _ s1 _ h; exact h
      | cons i is ih =>
        intro his s1 hf h
        refine ih (fun j hj => his j (List.mem_cons_of_mem _ hj)) _ hf ⟨h.1.initNew med c ?_, h.2⟩
        intro hsv
        refine hdead i (his i List.mem_cons_self) ⟨hsv.1, ?_, ?_⟩
        · have := hsv.2.1; simp only [St.valid] at this ⊢; rw [← hf]; exact this
        · have := hsv.2.2; rw [hf] at this; exact this
    exact this _ hord _ rfl ⟨hk, h.2⟩

end

end Rovio.ImgFull
