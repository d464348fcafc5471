import Verif.Props.ImgSees
import Verif.Props.FilterCov
import Verif.Props.Normalised
import Verif.Props.NewFeature

/-!
# C77 and C81 from pixels: covariance and rotations stay what they should be

The whole filter of `Model/ImgEkf.lean`, from IMU measurements, velocities and images to estimate and covariance.
-/

namespace Rovio.ImgFull

open Rovio.Spec Rovio.Img Matrix

variable {n nCam nPose : ℕ}

/-- Specification: attitude, camera mounting and additional poses are rotations. -/
structure UnitPlatform (s : State n nCam nPose) : Prop where
  att : s.att.IsUnit
  vea : ∀ c, (s.vea c).IsUnit
  poa : ∀ k, (s.poa k).IsUnit

/-- Equal estimates whose rotations are rotations. -/
def SoundX (x y : State n nCam nPose) : Prop := x = y ∧ UnitPlatform x

/-- Equal covariances that are covariances. -/
def SoundP (P Q : Cov n nCam nPose) : Prop := P = Q ∧ IsCov P

lemma unnoticed_sound : Unnoticed (n := n) (nCam := nCam) (nPose := nPose) true IsCov SoundX SoundP where
  scene x y h := by obtain ⟨rfl, -⟩ := h; exact ⟨rfl, rfl, fun _ => rfl, fun _ => rfl⟩
  calib _ _ _ _ := rfl
  cov P Q h := by obtain ⟨rfl, -⟩ := h; exact fun _ _ _ _ => rfl
  fea x y h f := by obtain ⟨rfl, h⟩ := h; exact ⟨rfl, h.att, h.vea, h.poa⟩
  reset P Q h i C hC := by obtain ⟨rfl, h⟩ := h; exact ⟨rfl, C52_cov h i hC⟩

lemma scaleDepth_cov {C : Matrix (Fin 3) (Fin 3) ℝ} (hC : IsCov C) (h01 : C 0 1 = 0) (h02 : C 0 2 = 0) (d : Distance.FeatureDistance) : IsCov (scaleDepth C d) := by
  have h10 : C 1 0 = 0 := by have := congrFun (congrFun hC.symm 1) 0; rw [Matrix.transpose_apply] at this; rw [← this]; exact h01
  have h20 : C 2 0 = 0 := by have := congrFun (congrFun hC.symm 2) 0; rw [Matrix.transpose_apply] at this; rw [← this]; exact h02
  have e : scaleDepth C d = Matrix.diagonal ![Distance.getParameterDerivative d * Distance.getDistance d, 1, 1] * C *
      (Matrix.diagonal ![Distance.getParameterDerivative d * Distance.getDistance d, 1, 1])ᵀ := by
    rw [Matrix.diagonal_transpose]
    ext k l
    rw [Matrix.mul_diagonal, Matrix.diagonal_mul]
    fin_cases k <;> fin_cases l <;> simp [scaleDepth, h01, h02, h10, h20]
    ring
  rw [e]
  exact hC.conj _

lemma initOk_cov {C : Matrix (Fin 3) (Fin 3) ℝ} (hC : IsCov C) (h01 : C 0 1 = 0) (h02 : C 0 2 = 0) : InitOk IsCov C where
  one := ⟨Matrix.transpose_one, fun x => by rw [Matrix.one_mulVec]; exact Finset.sum_nonneg fun i _ => mul_self_nonneg _⟩
  conf := hC
  scaled := scaleDepth_cov hC h01 h02

lemma fix_platform {s s' : State n nCam nPose} (h : s.fix = some s') (hs : s.att.normSq ≠ 0 ∧ (∀ c, (s.vea c).normSq ≠ 0) ∧ ∀ k, (s.poa k).normSq ≠ 0) : UnitPlatform s' := by
  unfold State.fix at h
  simp only [Option.bind_eq_bind, Option.pure_def] at h
  obtain ⟨fea, hf, h⟩ := Option.bind_eq_some_iff.mp h
  rw [Option.some.injEq] at h
  subst h
  exact ⟨Quat.isUnit_fix hs.1, fun c => Quat.isUnit_fix (hs.2.1 c), fun k => Quat.isUnit_fix (hs.2.2 k)⟩

lemma Quat.ne_of_unit {q : Quat} (h : q.IsUnit) : q.normSq ≠ 0 := by
  have : q.normSq = 1 := h
  rw [this]; norm_num

lemma finish_sound {m : ℕ} {gate : Gate m} {v : Fin m → ℝ} {H : Matrix (Fin m) (Ix n nCam nPose) ℝ} {R : Matrix (Fin m) (Fin m) ℝ} (hR : IsCov R)
    {x z : Rovio.FSt n nCam nPose} (hx : UnitPlatform x.s) (hP : IsCov x.P) (hf : x.finish gate v H R id = some z) : UnitPlatform z.s ∧ IsCov z.P := by
  refine ⟨?_, (Rovio.FSt.finish_cov hP hR hf).1⟩
  unfold Rovio.FSt.finish at hf
  simp only [Option.bind_eq_bind, Option.pure_def] at hf
  obtain ⟨⟨δ, P'⟩, -, hf⟩ := Option.bind_eq_some_iff.mp hf
  obtain ⟨s', hs, hf⟩ := Option.bind_eq_some_iff.mp hf
  rw [Option.some.injEq] at hf
  rw [← hf]
  exact fix_platform hs ⟨Quat.exp_mul_ne (Quat.ne_of_unit hx.att) _, fun c => Quat.exp_mul_ne (Quat.ne_of_unit (hx.vea c)) _,
    fun k => Quat.exp_mul_ne (Quat.ne_of_unit (hx.poa k)) _⟩

lemma sound_both {f : State n nCam nPose → Cov n nCam nPose → Option (Rovio.FSt n nCam nPose)} {x y : State n nCam nPose} {P Q : Cov n nCam nPose} (hx : SoundX x y)
    (hP : SoundP P Q) (h : ∀ z, UnitPlatform x → IsCov P → f x P = some z → UnitPlatform z.s ∧ IsCov z.P) :
    Both (fun z z' => SoundX z.s z'.s ∧ SoundP z.P z'.P) (f x P) (f y Q) := by
  obtain ⟨rfl, hx⟩ := hx
  obtain ⟨rfl, hP⟩ := hP
  cases hf : f x P with
  | none => exact .none
  | some z => exact .some ⟨⟨rfl, (h z hx hP hf).1⟩, rfl, (h z hx hP hf).2⟩

lemma predict_platform {s s' : State n nCam nPose} (h : UnitPlatform s) (cfg : PredCfg) (m : ImuMeas) (dt : ℝ) (w : DState n nCam nPose)
    (hs : s.evalPrediction cfg m true s w dt = some s') : UnitPlatform s' := by
  unfold State.evalPrediction at hs
  by_cases hdt : dt ≤ 0
  · rw [if_pos hdt] at hs; cases hs
  rw [if_neg hdt] at hs
  simp only [Option.bind_eq_bind, Option.pure_def, if_true] at hs
  obtain ⟨fea, hf, hs⟩ := Option.bind_eq_some_iff.mp hs
  obtain ⟨o, ho, hs⟩ := Option.bind_eq_some_iff.mp hs
  rw [Option.some.injEq] at hs
  have hu : UnitPlatform o := by
    refine fix_platform ho ⟨?_, ?_, ?_⟩
    · show (s.att * Quat.exp _).normSq ≠ 0
      rw [Quat.normSq_mul, show (Quat.exp _).normSq = 1 from Quat.isUnit_exp _, mul_one]; exact Quat.ne_of_unit h.att
    · intro c
      show ((if s.aux.doVE then _ else _ : Fin nCam → Quat) c).normSq ≠ 0
      split
      · rename_i hd
        refine Quat.exp_mul_ne ?_ _
        unfold State.qCM
        rw [if_pos hd]
        exact Quat.ne_of_unit (h.vea c)
      · exact Quat.ne_of_unit (h.vea c)
    · intro k; exact Quat.exp_mul_ne (Quat.ne_of_unit (h.poa k)) _
  rw [← hs]
  exact ⟨hu.att, hu.vea, hu.poa⟩

lemma sound_imu {cfg : FCfg n nCam nPose} (hc : cfg.NoiseOk) (u : PoseUpd nPose) (m : ImuMeas) (dt : ℝ) :
    StepKeeps SoundX SoundP (fun x P => keepOr (Rovio.FSt.predict cfg m dt ⟨x, P, u⟩) x P) fun x P => keepOr (Rovio.FSt.predict cfg m dt ⟨x, P, u⟩) x P := by
  intro x y P Q hx hP
  refine keepOr_keeps hx hP (sound_both hx hP (f := fun x P => Rovio.FSt.predict cfg m dt ⟨x, P, u⟩) fun z hx hP hf => ?_)
  unfold Rovio.FSt.predict at hf
  simp only [Option.bind_eq_bind, Option.pure_def] at hf
  obtain ⟨F, -, hf⟩ := Option.bind_eq_some_iff.mp hf
  obtain ⟨G, -, hf⟩ := Option.bind_eq_some_iff.mp hf
  obtain ⟨s, hs, hf⟩ := Option.bind_eq_some_iff.mp hf
  rw [Option.some.injEq] at hf
  rw [← hf]
  refine ⟨predict_platform hx _ _ _ _ hs, ?_⟩
  have h := (hP.conj F).add ((IsCov.diagonal hc.q).conj G)
  simp only [Rovio.FSt.symm_cov h]
  exact h

/-- What the filter is given is sound: resets are to states without features whose covariance is one and whose rotations are rotations. -/
def SoundInputs (es : List (Input n nCam nPose)) : Prop :=
  ∀ init t, Input.reset init t ∈ es → (∀ i, init.valid i = false) ∧ IsCov init.cov ∧ UnitPlatform init.w.x

lemma life_sound (I : USet) (hI : I.Lawful) (order : Finset (Fin n) → List (Fin n)) (ho : ∀ S, ∀ i ∈ order S, i ∈ S) (cfg : Cfg)
    (hst : -1 ≤ cfg.minAbsST) (F : Full n nCam nPose) (hp : Even F.base.p) (hmc : ∀ c, (F.mc.cams c).WF) (hC : IsCov F.C) (h01 : F.C 0 1 = 0) (h02 : F.C 0 2 = 0)
    (fcfg : FCfg n nCam nPose) (hn : fcfg.NoiseOk) (gate : Gate 2) (R : Matrix (Fin 2) (Fin 2) ℝ) (hR : IsCov R) (u : PoseUpd nPose)
    (mem : FSt n nCam nPose → Mem) (k : ℝ → Slot MLP → Mem) (fuel : ℕ) (es : List (Input n nCam nPose)) (hf : SoundInputs es) (s s' : FSt n nCam nPose)
    (hs : IsCov s.cov) (hx : UnitPlatform s.w.x) (h : life I order cfg F fcfg gate R u mem k fuel es s = some s') : IsCov s'.cov ∧ UnitPlatform s'.w.x := by
  have refl : ∀ s : FSt n nCam nPose, IsCov s.cov → UnitPlatform s.w.x → SimBy (seenRels F.base.p F.base.start SoundX SoundP) s s := fun s hs hx =>
    ⟨⟨⟨rfl, hx⟩, rfl, rfl⟩, ⟨rfl, hs⟩, ⟨fun _ => ⟨rfl, rfl, rfl, fun _ => sameMLP_refl _ _ _⟩, rfl⟩, fun _ => rfl, rfl, rfl, rfl, rfl, rfl, rfl, rfl, rfl⟩
  have := run_seen unnoticed_sound I hI order ho cfg hst (F.withFilter fcfg gate R u) hp hmc (initOk_cov hC h01 h02)
    (ekf_keeps unnoticed_sound fun v H _ x y P Q hx hP => sound_both hx hP (f := fun x P => Rovio.FSt.finish ⟨x, P, u⟩ gate v H R id)
      fun z hx hP h => finish_sound hR hx hP h)
    (fun _ x y P Q hx hP => keepOr_keeps hx hP (sound_both hx hP (f := fun x P => Rovio.FSt.zeroVel fcfg (fun _ => true) ⟨x, P, u⟩)
      fun z hx hP h => finish_sound hn.zeroR hx hP h))
    mem mem k k fuel (es := es.map (Input.happening fcfg u)) (es' := es.map (Input.happening fcfg u))
    (by
      rw [List.forall₂_map_left_iff, List.forall₂_map_right_iff]
      refine List.forall₂_same.2 fun e he => ?_
      cases e with
      | imu m dt => exact .filter _ _ _ _ _ (sound_imu hn u m dt) fun x y hxy => by rw [hxy.1]
      | velocity v => exact .filter _ _ _ _ _ (fun x y P Q hx hP => keepOr_keeps hx hP (sound_both hx hP
          (f := fun x P => Rovio.FSt.velocity fcfg v ⟨x, P, u⟩) fun z hx hP h => finish_sound hn.velR hx hP h)) fun _ _ _ => rfl
      | image t => exact .image t
      | reset i t =>
        obtain ⟨h1, h2, h3⟩ := hf i t he
        exact .reset _ _ _ (refl i h2 h3) h1)
    s s (refl s hs hx)
  unfold life at h
  rw [h] at this
  cases this with
  | some this => exact ⟨this.cov.2, this.w.1.2⟩

/-- **C77, from pixels.** The whole filter, from IMU measurements, velocities and images to estimate and covariance, in any order and number, with resets: if the noise
settings are covariances, the covariance of the estimate is symmetric and positive semi-definite at the end, whatever the images show and the scratch memory holds.
(The initial covariance of features has no correlation between distance and bearing: only its diagonal can be configured.) -/
theorem C77_pixels (I : USet) (hI : I.Lawful) (order : Finset (Fin n) → List (Fin n)) (ho : ∀ S, ∀ i ∈ order S, i ∈ S) (cfg : Cfg)
    (hst : -1 ≤ cfg.minAbsST) (F : Full n nCam nPose) (hp : Even F.base.p) (hmc : ∀ c, (F.mc.cams c).WF) (hC : IsCov F.C) (h01 : F.C 0 1 = 0) (h02 : F.C 0 2 = 0)
    (fcfg : FCfg n nCam nPose) (hn : fcfg.NoiseOk) (gate : Gate 2) (R : Matrix (Fin 2) (Fin 2) ℝ) (hR : IsCov R) (u : PoseUpd nPose)
    (mem : FSt n nCam nPose → Mem) (k : ℝ → Slot MLP → Mem) (fuel : ℕ) (es : List (Input n nCam nPose)) (hf : SoundInputs es) (s s' : FSt n nCam nPose)
    (hs : IsCov s.cov) (hx : UnitPlatform s.w.x) (h : life I order cfg F fcfg gate R u mem k fuel es s = some s') : IsCov s'.cov :=
  (life_sound I hI order ho cfg hst F hp hmc hC h01 h02 fcfg hn gate R hR u mem k fuel es hf s s' hs hx h).1

/-- **C81, from pixels.** Likewise attitude, camera mounting and additional poses are rotations at the end: unit quaternions. -/
theorem C81_pixels (I : USet) (hI : I.Lawful) (order : Finset (Fin n) → List (Fin n)) (ho : ∀ S, ∀ i ∈ order S, i ∈ S) (cfg : Cfg)
    (hst : -1 ≤ cfg.minAbsST) (F : Full n nCam nPose) (hp : Even F.base.p) (hmc : ∀ c, (F.mc.cams c).WF) (hC : IsCov F.C) (h01 : F.C 0 1 = 0) (h02 : F.C 0 2 = 0)
    (fcfg : FCfg n nCam nPose) (hn : fcfg.NoiseOk) (gate : Gate 2) (R : Matrix (Fin 2) (Fin 2) ℝ) (hR : IsCov R) (u : PoseUpd nPose)
    (mem : FSt n nCam nPose → Mem) (k : ℝ → Slot MLP → Mem) (fuel : ℕ) (es : List (Input n nCam nPose)) (hf : SoundInputs es) (s s' : FSt n nCam nPose)
    (hs : IsCov s.cov) (hx : UnitPlatform s.w.x) (h : life I order cfg F fcfg gate R u mem k fuel es s = some s') : UnitPlatform s'.w.x :=
  (life_sound I hI order ho cfg hst F hp hmc hC h01 h02 fcfg hn gate R hR u mem k fuel es hf s s' hs hx h).2

/-- An image processed by `demoFull` with unit variances: the result has a covariance. -/
example (F : Full 3 2 1) (C : Fin 2 → Camera) (f : V3 → Nor) (g : V2 → Nor) (fcfg : FCfg 3 2 1) (hn : fcfg.NoiseOk) (gate : Gate 2) (u : PoseUpd 1)
    (x : State 3 2 1) (hx : UnitPlatform x) (prev : Fin 2 → List Level) (q : MLP) (m : Mem) :
    ∃ fuel r, life AddArgs.listUSet (fun S => (List.finRange 3).filter (· ∈ S)) (zvCfg true) (demoFull { F with C := 1 } C f g) fcfg gate 1 u
        (fun _ => m) (fun _ _ => m) fuel [.image 6] (demoFSt x prev 1 q) = some r ∧ IsCov r.cov ∧ UnitPlatform r.w.x := by
  have one : ∀ {ι : Type} [Fintype ι] [DecidableEq ι], IsCov (1 : Matrix ι ι ℝ) := fun {ι} _ _ =>
    ⟨Matrix.transpose_one, fun x => by rw [Matrix.one_mulVec]; exact Finset.sum_nonneg fun i _ => mul_self_nonneg _⟩
  obtain ⟨fuel, r, hr⟩ := demo_life { F with C := 1 } C f g fcfg gate 1 u true m { demoFSt x prev 1 q with t := 6 } (demoFSt_wf x prev 1 q 6)
  have hl : life AddArgs.listUSet (fun S => (List.finRange 3).filter (· ∈ S)) (zvCfg true) (demoFull { F with C := 1 } C f g) fcfg gate 1 u
        (fun _ => m) (fun _ _ => m) fuel [.image 6] (demoFSt x prev 1 q) = some r := by
    unfold life run
    simp only [List.map_cons, List.map_nil, Input.happening, List.foldlM_cons, step, Option.bind_eq_bind]
    dsimp only at hr
    rw [hr]
    rfl
  refine ⟨fuel, r, hl, ?_⟩
  exact life_sound AddArgs.listUSet AddArgs.listUSet_lawful (fun S => (List.finRange 3).filter (· ∈ S)) (by simp) (zvCfg true)
    (by simp only [zvCfg, demoCfg]; norm_num) (demoFull { F with C := 1 } C f g) (by simp only [demoFull]; decide) (fun c => C09_camera_is_wf _ _ _) one
    (Matrix.one_apply_ne (by decide)) (Matrix.one_apply_ne (by decide)) fcfg hn gate 1 one u (fun _ => m) (fun _ _ => m) fuel [.image 6]
    (by intro init t h; simp at h) (demoFSt x prev 1 q) r one hx hl

end Rovio.ImgFull
