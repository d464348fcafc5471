import Verif.Props.LifeLive
import Verif.Props.Predicted

/-!
# C78: a correction by a feature has a result once its equations could be formed
-/

namespace Rovio.ImgFull

open Rovio.Img Matrix Spec

variable {n nCam nPose : ℕ}

/-- In a proper state the Jacobian of a feature has all its columns. -/
lemma jac_columns {F : Full n nCam nPose} {m : Mem} {cur : Fin nCam → List Level} {mp : MLP} {i : Fin n} {counter : ℕ} {x : State n nCam nPose} {r r2 : Scr}
    {J : DState n nCam nPose → Option V2} {stop : Bool} (hx : ∀ i, (x.fea i).c.validNor = true) (h : F.jac m cur mp i counter x r = some (J, stop, r2)) (δ : DState n nCam nPose) :
    ∃ v, J δ = some v := by
  have hcol : ∀ (b : Fin nCam) (A : M2), (∃ a, camIdx nCam (x.fea i).c.camID = some a) → ∃ v, ((x.featureJac F.sfv true i b δ).map fun d => A.mulVec d.1) = some v := fun b A ha => by
    obtain ⟨w, hw⟩ := State.featureJac_some (s := x) (sfv := F.sfv) (ig := true) (b := b) (hx i) ha δ
    exact ⟨_, by rw [hw]; rfl⟩
  have hcam : ∀ {out : Fea} {q : Fin nCam × Fea}, x.imgFeature F.mc F.sfv i counter out = some q → ∃ a, camIdx nCam (x.fea i).c.camID = some a := fun {out q} hq => by
    unfold State.imgFeature at hq
    simp only [Option.bind_eq_bind] at hq
    obtain ⟨a, ha, -⟩ := Option.bind_eq_some_iff.mp hq
    exact ⟨a, ha⟩
  unfold Full.jac at h
  split_ifs at h with hd
  · simp only [Option.bind_eq_bind] at h
    obtain ⟨⟨b, f⟩, h1, h⟩ := Option.bind_eq_some_iff.mp h
    obtain ⟨⟨c, e⟩, -, h⟩ := Option.bind_eq_some_iff.mp h
    dsimp only at h
    cases he : F.reduce e with
    | none =>
      rw [he] at h
      simp only [Option.pure_def, Option.some.injEq, Prod.mk.injEq] at h
      exact ⟨0, by rw [← h.1]⟩
    | some q =>
      rw [he] at h
      obtain ⟨⟨c', nor⟩, -, h⟩ := Option.bind_eq_some_iff.mp h
      simp only [Option.pure_def, Option.some.injEq, Prod.mk.injEq] at h
      rw [← h.1]
      exact hcol b _ (hcam h1)
  · simp only [Option.bind_eq_bind] at h
    obtain ⟨⟨H, r'⟩, h1, h⟩ := Option.bind_eq_some_iff.mp h
    unfold Full.cand at h1
    simp only [Option.bind_eq_bind] at h1
    obtain ⟨⟨b, f⟩, h2, h1⟩ := Option.bind_eq_some_iff.mp h1
    obtain ⟨⟨c, nor⟩, -, h1⟩ := Option.bind_eq_some_iff.mp h1
    simp only [Option.pure_def, Option.some.injEq, Prod.mk.injEq] at h h1
    rw [← h.1, ← h1.1]
    exact hcol b _ (hcam h2)

lemma colMat_entry {ρ : Type} {f : Ix n nCam nPose → Option (ρ → ℝ)} {H : Matrix ρ (Ix n nCam nPose) ℝ} (h : colMat f = some H) (a : ρ) (b : Ix n nCam nPose) {v : ρ → ℝ} (hv : f b = some v) :
    H a b = v a := by
  classical
  unfold colMat at h
  split_ifs at h with hs
  rw [Option.some.injEq] at h
  rw [← h, Matrix.of_apply]
  exact congrFun (Option.get_of_eq_some _ hv) a

/-- **C78, correction by a feature.**  In a proper state with a covariance, and with positive definite measurement noise: once the prediction of the feature lies in the image and its
innovation and Jacobian could be formed from the image, the Jacobian is complete and the correction has a result, a covariance again and no larger than before.  Which of the two the
filter goes on with is decided by the feature alone: the result if neither equation was given up and the check of the corrected patch accepts it, the state before otherwise. -/
theorem C78_feature (F : Full n nCam nPose) (fcfg : FCfg n nCam nPose) (gate : Gate 2) (R : Matrix (Fin 2) (Fin 2) ℝ) (hR : IsCov R) (hR' : StrictPos R) (u : PoseUpd nPose)
    (s : FSt n nCam nPose) (hs : Sound s) (hc : IsCov s.cov) (m : Mem) (i : Fin n) (c : Fin nCam) (f : FC) (ht : F.tested m s i c = some (f, true)) (y : V2) (stop : Bool) (r1 : Scr)
    (hy : F.innov m (F.imgs s.t) (s.fsm.slots i).patch (s.meas i) i s.cam (here s) 0 (F.started s i c f, s.w.cJ) = some (y, stop, r1))
    (J : DState n nCam nPose → Option V2) (stop' : Bool) (r2 : Scr) (hJ : F.jac m (F.imgs s.t) (s.fsm.slots i).patch i s.cam (here s) r1 = some (J, stop', r2)) :
    ∃ (H : Matrix (Fin 2) (Ix n nCam nPose) ℝ) (z : Rovio.FSt n nCam nPose),
      (∀ b, ∃ v, J (DState.unit b) = some v ∧ H 0 b = v.x ∧ H 1 b = v.y) ∧
      Rovio.FSt.finish ⟨here s, s.cov, u⟩ gate y.at H R id = some z ∧ IsCov z.P ∧ IsCov (s.cov - z.P) ∧
      ∀ ok r3, F.check m (F.imgs s.t) (s.fsm.slots i).patch i s.cam z.s true r2 = some (ok, r3) →
        let o := (F.withFilter fcfg gate R u).update m s i c
        o.2.2.2 = (ok && !stop && !stop') ∧ o.1.x = (if ok && !stop && !stop' then z.s else here s) ∧ o.2.1 = (if ok && !stop && !stop' then z.P else s.cov) ∧
          ∀ j, o.2.2.1 j = (o.1.x.fea j).c := by
  have hcol : ∀ b, ∃ v, J (DState.unit b) = some v := fun b => jac_columns hs.good.nor hJ _
  obtain ⟨H, hH⟩ := colMat_of (f := fun b => (J (DState.unit b)).map V2.at) (fun b => by
    obtain ⟨v, hv⟩ := hcol b
    exact ⟨v.at, by rw [hv]; rfl⟩)
  obtain ⟨z, hz⟩ := Option.isSome_iff_exists.mp (finish_result (x := ⟨here s, s.cov, u⟩) (gate := gate) (v := y.at) (H := H) (post := id) (fun _ h => h) hs.good hc hR')
  obtain ⟨z1, z2, -⟩ := Rovio.FSt.finish_cov (x := ⟨here s, s.cov, u⟩) hc hR hz
  refine ⟨H, z, fun b => ?_, hz, z1, z2, fun ok r3 hk => ?_⟩
  · obtain ⟨v, hv⟩ := hcol b
    have hb : (J (DState.unit b)).map V2.at = some v.at := by rw [hv]; rfl
    exact ⟨v, hv, colMat_entry hH 0 b hb, colMat_entry hH 1 b hb⟩
  · have he : ekf gate R u (F.callbacks m (F.imgs s.t) (s.fsm.slots i).patch (s.meas i) i s.cam) (here s) s.cov (F.started s i c f, s.w.cJ) =
        if ok && !stop && !stop' then (z.s, z.P, r3.2, true) else (here s, s.cov, r3.2, false) := by
      unfold ekf
      simp only [Full.callbacks, hy, hJ, hH, hz, hk, Option.bind_eq_bind, Option.bind_some, Option.pure_def, Option.getD_some]
    have ht' : (F.withFilter fcfg gate R u).tested m s i c = some (f, true) := ht
    have ho : (F.withFilter fcfg gate R u).update m s i c =
        (let r := ekf gate R u (F.callbacks m (F.imgs s.t) (s.fsm.slots i).patch (s.meas i) i s.cam) (here s) s.cov (F.started s i c f, s.w.cJ)
        ({ s.w with x := r.1, cJ := r.2.2.1 }, r.2.1, fun j => (r.1.fea j).c, r.2.2.2)) := by
      unfold Full.update
      rw [ht']
      rfl
    dsimp only
    rw [ho, he]
    cases ok && !stop && !stop' <;> exact ⟨rfl, rfl, rfl, fun _ => rfl⟩

/-! ## Non-vacuity -/

-- a feature seen in its own camera, on the sample image, with unit covariance and a match
example (G : Full 1 2 1) (s₀ : FSt 1 2 1) (hi : ∀ i, s₀.valid i = true → (s₀.fsm.slots i).idx < s₀.fsm.maxIdx) (sfv : V3 → Nor) (m : Mem) (meas : FC) (hm : meas.validC = true)
    (fcfg : FCfg 1 2 1) (gate : Gate 2) (u : PoseUpd 1) :
    ∃ (F : Full 1 2 1) (s : FSt 1 2 1) (y : V2) (H : Matrix (Fin 2) (Ix 1 2 1) ℝ) (z : Rovio.FSt 1 2 1), Sound s ∧ IsCov s.cov ∧
      Rovio.FSt.finish ⟨here s, s.cov, u⟩ gate y.at H 1 id = some z ∧ IsCov z.P := by
  let cam := demoCam.toI sfv (fun _ => ⟨Quat.one⟩)
  let F : Full 1 2 1 := { G with base := { G.base with direct := false, p := 2, start := 0, stop := 0 }, mc := demoCams sfv, sfv := sfv }
  let s : FSt 1 2 1 := { s₀ with
    w := { s₀.w with x := { demoState3 sfv with att := Quat.one, vea := fun _ => Quat.one, fea := fun _ => ⟨demoPlain cam, ⟨.inverse, 0.5⟩⟩ }, prev := fun _ => demoPyr }
    fsm := { s₀.fsm with slots := fun j => { s₀.fsm.slots j with coord := demoPlain cam } }
    cov := 1, cam := 0, meas := fun _ => some meas }
  have hpl : (demoPlain cam).Plain := ⟨rfl, rfl, rfl⟩
  have ht : F.tested m s 0 0 = some (demoPlain cam, true) := by
    have h1 := inFrame_plain (p := 2) (junk := m.junk) (pyr := demoPyr) (l := 0) rfl rfl hpl false
    have h2 : Patch.PlainIn (⟨6, 6, fun y x => 10 * y + x⟩ : Rovio.Img) (levelPixel 0 0 0 0 (demoPlain cam).c) (halfPatch 2 false) := by
      norm_num [Patch.PlainIn, levelPixel, demoPlain, halfPatch]
    exact h1.trans (by congr 2; exact @decide_eq_true _ (_) h2)
  have hS : Sound s := ⟨Quat.isUnit_one, fun _ => Quat.isUnit_one, fun _ => Quat.isUnit_one, fun _ => Quat.isUnit_one, fun _ => ⟨demoPlain cam, rfl, Quat.isUnit_one⟩, fun _ _ => rfl, hi⟩
  have hmc : meas.getC = some (meas, meas.c) := by simp [FC.getC, FC.comC, hm]
  have hy : ∃ y r1, F.innov m (F.imgs s.t) (s.fsm.slots 0).patch (s.meas 0) 0 s.cam (here s) 0 (F.started s 0 0 (demoPlain cam), s.w.cJ) = some (y, false, r1) := by
    refine ⟨(⟨meas.c.x - (demoPlain cam).c.x, meas.c.y - (demoPlain cam).c.y⟩ + 0 : V2), (demoPlain cam, s.w.cJ), ?_⟩
    show (meas.getC).bind (fun q => some ((⟨q.2.x - (demoPlain cam).c.x, q.2.y - (demoPlain cam).c.y⟩ + 0 : V2), false, (demoPlain cam, s.w.cJ))) = _
    rw [hmc]; rfl
  obtain ⟨y, r1, hy⟩ := hy
  have hJ : ∃ J r2, F.jac m (F.imgs s.t) (s.fsm.slots 0).patch 0 s.cam (here s) r1 = some (J, false, r2) := ⟨_, _, rfl⟩
  obtain ⟨J, r2, hJ⟩ := hJ
  obtain ⟨H, z, -, h1, h2, -⟩ := C78_feature F fcfg gate 1 isCov_id strictPos_one u s hS isCov_id m 0 0 _ ht y false r1 hy J false r2 hJ
  exact ⟨F, s, y, H, z, hS, isCov_id, h1, h2⟩

end Rovio.ImgFull
