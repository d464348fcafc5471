import Verif.Lemmas.ImgFull
import Verif.Props.FeatureCovariance

/-!
# Lemmas for C98: the initialisations of different new features commute
-/

namespace Rovio

open Distance

variable {n nCam nPose : ℕ}

/-- What the initialisation of feature `i` decides: its distance and the block of the covariance. -/
noncomputable def newOutcome (cfg : NewCfg n) (mc : MultiCamera nCam) (sfv : V3 → Nor) (c : Fin nCam) (med : ℝ) (out : Fea) (s : State n nCam nPose)
    (i : Fin n) : Option (FeatureDistance × Matrix (Fin 3) (Fin 3) ℝ) := do
  let s := s.setDist i { (s.fea i).d with p := med }
  let r := ((s.fea i).d, scaleDepth cfg.C (s.fea i).d)
  if nCam > 1 ∧ cfg.stereo = true then do
    let out ← s.featureOut mc sfv i (otherCam c) out
    match cfg.found i out.c.view with
    | none => return r
    | some al => do
      let (_, v1) ← (s.fea i).c.getNor
      let (_, v2) ← al.getNor
      let o := otherCam c
      match FC.depthFromTriangulation v1.vec v2.vec ((s.qCM o).rotate (s.MrMC c - s.MrMC o)) (s.qCM o * (s.qCM c).inv) 0.01 with
      | none => return r
      | some D => do
        let d ← setParameter (s.fea i).d D
        return (d, cfg.C)
  else return r

lemma setDist_self (s : State n nCam nPose) (i : Fin n) (d d' : FeatureDistance) : (s.setDist i d).setDist i d' = s.setDist i d' := by
  simp [State.setDist]

lemma setDist_same (s : State n nCam nPose) (i : Fin n) (d : FeatureDistance) : s.setDist i d = (s.setDist i d).setDist i ((s.setDist i d).fea i).d := by
  simp [State.setDist]

lemma setDist_comm (s : State n nCam nPose) {i j : Fin n} (h : i ≠ j) (d d' : FeatureDistance) :
    (s.setDist i d).setDist j d' = (s.setDist j d').setDist i d := by
  simp only [State.setDist, Function.update_of_ne h, Function.update_of_ne (Ne.symm h)]
  rw [Function.update_comm h]

lemma initNewFeature_outcome (cfg : NewCfg n) (mc : MultiCamera nCam) (sfv : V3 → Nor) (c : Fin nCam) (med : ℝ) (out : Fea) (s : State n nCam nPose)
    (P : Cov n nCam nPose) (i : Fin n) : (initNewFeature cfg mc sfv c med (out, s, P) i).map Prod.snd =
      (newOutcome cfg mc sfv c med out s i).map fun r => (s.setDist i r.1, P.resetFeature i r.2) := by
  unfold initNewFeature newOutcome
  simp only [Option.bind_eq_bind, Option.pure_def]
  have e : s.setDist i ((s.setDist i { (s.fea i).d with p := med }).fea i).d = s.setDist i { (s.fea i).d with p := med } := by
    simp [State.setDist]
  split_ifs
  · generalize State.featureOut _ mc sfv i (otherCam c) out = f
    cases f with
    | none => rfl
    | some f =>
      simp only [Option.bind_some]
      generalize cfg.found i f.c.view = g
      cases g with
      | none => simp only [Option.map_some, e]
      | some al =>
        simp only [stereoInit, Option.bind_eq_bind, Option.pure_def]
        generalize FC.getNor ((s.setDist i { (s.fea i).d with p := med }).fea i).c = v1
        cases v1 with
        | none => rfl
        | some v1 =>
          simp only [Option.bind_some]
          generalize FC.getNor al = v2
          cases v2 with
          | none => rfl
          | some v2 =>
            simp only [Option.bind_some]
            generalize FC.depthFromTriangulation _ _ _ _ _ = D
            cases D with
            | none => simp only [Option.bind_some, Option.map_some, e]
            | some D =>
              simp only
              generalize setParameter _ D = d
              cases d with
              | none => rfl
              | some d =>
                simp only [Option.bind_some, Option.map_some, setDist_self, (C52_order (i := i) (j := i) P _ _).2]
  · simp only [Option.map_some, e]

/-- The state as the initialisation of feature `i` sees it after another feature was initialised. -/
lemma newOutcome_other (cfg : NewCfg n) (mc : MultiCamera nCam) (sfv : V3 → Nor) (c : Fin nCam) (med : ℝ) (out : Fea) (s : State n nCam nPose)
    {i j : Fin n} (h : i ≠ j) (d : FeatureDistance) :
    newOutcome cfg mc sfv c med out (s.setDist j d) i = newOutcome cfg mc sfv c med out s i := by
  have e : ((s.setDist j d).fea i) = s.fea i := by simp [State.setDist, Function.update_of_ne h]
  unfold newOutcome
  simp only [e, setDist_comm s (Ne.symm h)]
  have e2 : ∀ x : State n nCam nPose, (x.setDist j d).fea i = x.fea i := fun x => by simp [State.setDist, Function.update_of_ne h]
  have e3 : ∀ (x : State n nCam nPose) o, (x.setDist j d).featureOut mc sfv i (otherCam c) o = x.featureOut mc sfv i (otherCam c) o := by
    intro x o
    have h1 : (x.setDist j d).updateMultiCamera mc = x.updateMultiCamera mc := rfl
    have h2 : ∀ a b nor, (x.setDist j d).bearingBlock sfv i a b nor = x.bearingBlock sfv i a b nor := by
      intro a b nor
      unfold State.bearingBlock
      simp only [e2]
      rfl
    unfold State.featureOut
    simp only [e2, h1, h2]
  have e4 : ∀ (x : State n nCam nPose) a, (x.setDist j d).qCM a = x.qCM a := fun _ _ => rfl
  have e5 : ∀ (x : State n nCam nPose) a, (x.setDist j d).MrMC a = x.MrMC a := fun _ _ => rfl
  simp only [e2, e3, e4, e5]

namespace ImgFull

open Rovio.Img Rovio.Spec

variable {F : Full n nCam nPose}

lemma initFeature_outcome (m : Mem) (med : ℝ) (s : FSt n nCam nPose) (i : Fin n) (c : Fin nCam) :
    F.initFeature m med s i c = ((newOutcome (F.newCfg m s c) F.mc F.sfv c med (F.outOf m.out) (here s) i).map fun r =>
      ({ s.w with x := (here s).setDist i r.1 }, s.cov.resetFeature i r.2)).getD (s.w, s.cov) := by
  have h := initNewFeature_outcome (F.newCfg m s c) F.mc F.sfv c med (F.outOf m.out) (here s) s.cov i
  unfold Full.initFeature
  revert h
  generalize initNewFeature (F.newCfg m s c) F.mc F.sfv c med (F.outOf m.out, here s, s.cov) i = r
  generalize newOutcome (F.newCfg m s c) F.mc F.sfv c med (F.outOf m.out) (here s) i = r'
  intro h
  cases r with
  | none =>
    cases r' with
    | none => rfl
    | some r' => simp at h
  | some r =>
    cases r' with
    | none => simp at h
    | some r' =>
      obtain ⟨o, x, P⟩ := r
      simp only [Option.map_some, Option.some.injEq, Prod.mk.injEq] at h
      simp only [Option.map_some, Option.getD_some, h.1, h.2]

/-- The image processing with scratch memory that always holds the same. -/
noncomputable abbrev fixed (F : Full n nCam nPose) (m : Mem) : Env MLP (World n nCam nPose) (Cov n nCam nPose) n nCam := F.env (fun _ => m) fun _ _ => m

/-- The outcome for one feature in a filter state. -/
noncomputable def outcomeOf (F : Full n nCam nPose) (m : Mem) (med : ℝ) (c : Fin nCam) (s : FSt n nCam nPose) (i : Fin n) :
    Option (FeatureDistance × Matrix (Fin 3) (Fin 3) ℝ) :=
  newOutcome (F.newCfg m s c) F.mc F.sfv c med (F.outOf m.out) (here s) i

lemma initNew_fixed (m : Mem) (med : ℝ) (c : Fin nCam) (s : FSt n nCam nPose) (i : Fin n) : initNew (fixed F m) med c s i =
    { s with
      ext := Function.update s.ext i (newExt c (s.ext i) s.t)
      w := ((outcomeOf F m med c s i).map fun r => { s.w with x := (here s).setDist i r.1 }).getD s.w
      cov := ((outcomeOf F m med c s i).map fun r => s.cov.resetFeature i r.2).getD s.cov } := by
  rw [initNew_eq]
  have e : (fixed F m).initFeature med { s with ext := Function.update s.ext i (newExt c (s.ext i) s.t) } i c =
      ((outcomeOf F m med c s i).map fun r => ({ s.w with x := (here s).setDist i r.1 }, s.cov.resetFeature i r.2)).getD (s.w, s.cov) :=
    initFeature_outcome m med { s with ext := Function.update s.ext i (newExt c (s.ext i) s.t) } i c
  rw [e]
  cases outcomeOf F m med c s i <;> rfl

lemma here_setDist (s : FSt n nCam nPose) (i : Fin n) (d : FeatureDistance) (e : Fin n → Ext nCam) (P : Cov n nCam nPose) :
    here { s with ext := e, w := { s.w with x := (here s).setDist i d }, cov := P } = (here s).setDist i d := by
  simp only [here, State.setDist]
  congr 1
  funext j
  by_cases hj : j = i
  · subst hj; simp
  · simp [Function.update_of_ne hj]

lemma outcomeOf_other (m : Mem) (med : ℝ) (c : Fin nCam) (s : FSt n nCam nPose) {i j : Fin n} (h : i ≠ j) :
    outcomeOf F m med c (initNew (fixed F m) med c s j) i = outcomeOf F m med c s i := by
  rw [initNew_fixed]
  cases outcomeOf F m med c s j with
  | none => rfl
  | some r =>
    simp only [Option.map_some, Option.getD_some]
    unfold outcomeOf
    rw [here_setDist]
    exact newOutcome_other (F.newCfg m s c) F.mc F.sfv c med (F.outOf m.out) (here s) h r.1

lemma initNew_comm (m : Mem) (med : ℝ) (c : Fin nCam) (s : FSt n nCam nPose) (i j : Fin n) :
    initNew (fixed F m) med c (initNew (fixed F m) med c s i) j = initNew (fixed F m) med c (initNew (fixed F m) med c s j) i := by
  by_cases h : i = j
  · subst h; rfl
  rw [initNew_fixed m med c (initNew (fixed F m) med c s i) j, initNew_fixed m med c (initNew (fixed F m) med c s j) i,
    outcomeOf_other m med c s (Ne.symm h), outcomeOf_other m med c s h, initNew_fixed m med c s i, initNew_fixed m med c s j]
  have hext : Function.update (Function.update s.ext i (newExt c (s.ext i) s.t)) j (newExt c (Function.update s.ext i (newExt c (s.ext i) s.t) j) s.t) =
      Function.update (Function.update s.ext j (newExt c (s.ext j) s.t)) i (newExt c (Function.update s.ext j (newExt c (s.ext j) s.t) i) s.t) := by
    rw [Function.update_of_ne h, Function.update_of_ne (Ne.symm h), Function.update_comm h]
  cases outcomeOf F m med c s i with
  | none =>
    cases outcomeOf F m med c s j with
    | none => simp only [Option.map_none, Option.getD_none, hext]
    | some r =>
      simp only [Option.map_none, Option.getD_none, Option.map_some, Option.getD_some, hext]
      rfl
  | some r =>
    cases outcomeOf F m med c s j with
    | none =>
      simp only [Option.map_none, Option.getD_none, Option.map_some, Option.getD_some, hext]
      rfl
    | some r' =>
      simp only [Option.map_some, Option.getD_some, here_setDist, hext, setDist_comm _ h, (C52_order (i := i) (j := j) s.cov _ _).1 h]

end ImgFull

end Rovio
