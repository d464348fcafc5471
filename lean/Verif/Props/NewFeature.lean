import Verif.Model.NewFeature
import Verif.Props.FeatureCovariance
import Verif.Props.FeatureDistance
import Verif.Props.FeatureOutput
import Verif.Props.FeatureCoordinates
import Verif.Props.ImgInnov

/-! # C82: initialisation of new features -/

namespace Rovio

open Matrix Spec Distance

variable {n nCam nPose : ℕ}

/-- Specification: to first order, the distance described by the stored parameter (a random variable of variance `v`) has
variance `w`. -/
def DistVariance (d : FeatureDistance) (v w : ℝ) : Prop :=
  ∃ J, HasDerivAt (fun q => getDistance ⟨d.type, q⟩) J d.p ∧ J ^ 2 * v = w

/-- Specification: the two states agree except for the distance of feature `i`. -/
def OnlyDistance (i : Fin n) (s s' : State n nCam nPose) : Prop := ∃ d, s' = s.setDist i d

/-- Specification: the covariance differs from `P` only in the rows and columns of feature `i`; there it is the block `C` and
no correlation with anything else. -/
def FreshBlock (i : Fin n) (C : Matrix (Fin 3) (Fin 3) ℝ) (P P' : Cov n nCam nPose) : Prop :=
  (∀ a b, (∀ k, a ≠ slotIx i k) → (∀ k, b ≠ slotIx i k) → P' a b = P a b) ∧
  (∀ a k, (∀ k, a ≠ slotIx i k) → P' a (slotIx i k) = 0 ∧ P' (slotIx i k) a = 0) ∧
  ∀ k l, P' (slotIx i k) (slotIx i l) = C k l

lemma setParameter_type {f g : FeatureDistance} {d : ℝ} (h : setParameter f d = some g) : g.type = f.type := by
  obtain ⟨t, p⟩ := f
  cases t <;> simp only [setParameter] at h
  · simp only [Option.some.injEq] at h; rw [← h]
  · simp only [Option.some.injEq] at h; rw [← h]
  · split at h <;> simp only [Option.some.injEq, reduceCtorEq] at h; rw [← h]
  · simp only [Option.some.injEq] at h; rw [← h]

lemma setParameter_congr {f g : FeatureDistance} (h : f.type = g.type) (d : ℝ) : setParameter f d = setParameter g d := by
  obtain ⟨t, p⟩ := f
  obtain ⟨t', p'⟩ := g
  simp only at h
  subst h
  cases t <;> simp only [setParameter]

lemma setDist_setDist (s : State n nCam nPose) (i : Fin n) (d e : FeatureDistance) : (s.setDist i d).setDist i e = s.setDist i e := by
  simp [State.setDist]

lemma setDist_fea (s : State n nCam nPose) (i : Fin n) (d : FeatureDistance) : (s.setDist i d).fea i = ⟨(s.fea i).c, d⟩ := by
  simp [State.setDist]

lemma setDist_qCM (s : State n nCam nPose) (i : Fin n) (d : FeatureDistance) (c : Fin nCam) : (s.setDist i d).qCM c = s.qCM c := rfl
lemma setDist_MrMC (s : State n nCam nPose) (i : Fin n) (d : FeatureDistance) (c : Fin nCam) : (s.setDist i d).MrMC c = s.MrMC c := rfl

lemma setDist_comm (s : State n nCam nPose) {i j : Fin n} (hij : i ≠ j) (d e : FeatureDistance) :
    (s.setDist i d).setDist j e = (s.setDist j e).setDist i d := by
  simp only [State.setDist, Function.update_of_ne hij, Function.update_of_ne hij.symm]
  rw [Function.update_comm hij]

lemma scaleDepth_variance (C : Matrix (Fin 3) (Fin 3) ℝ) (d : FeatureDistance) (h : Unclamped d.type d.p) :
    DistVariance d (scaleDepth C d 0 0) (C 0 0 * getDistance d ^ 2) := by
  refine ⟨getDistanceDerivative d, C02_distance_derivative d.type d.p h, ?_⟩
  have h1 := C02_reciprocal d
  simp only [scaleDepth, and_self, if_true]
  calc getDistanceDerivative d ^ 2 * (C 0 0 * (getParameterDerivative d * getDistance d) ^ 2)
      = (getParameterDerivative d * getDistanceDerivative d) ^ 2 * (C 0 0 * getDistance d ^ 2) := by ring
    _ = _ := by rw [h1]; ring

lemma freshBlock_reset (i : Fin n) (C : Matrix (Fin 3) (Fin 3) ℝ) (P : Cov n nCam nPose) : FreshBlock i C P (P.resetFeature i C) :=
  C52_entries P i C

/-- What the triangulation step does. -/
lemma stereoInit_cases {C : Matrix (Fin 3) (Fin 3) ℝ} {c : Fin nCam} {s s' : State n nCam nPose} {P P' : Cov n nCam nPose} {i : Fin n} {al : FC}
    (h : stereoInit C c s P i al = some (s', P')) :
    (s' = s ∧ P' = P) ∨ ∃ c1 m1 c2 m2 D d, (s.fea i).c.getNor = some (c1, m1) ∧ al.getNor = some (c2, m2) ∧
      FC.depthFromTriangulation m1.vec m2.vec ((s.qCM (otherCam c)).rotate (s.MrMC c - s.MrMC (otherCam c)))
        (s.qCM (otherCam c) * (s.qCM c).inv) 0.01 = some D ∧
      setParameter (s.fea i).d D = some d ∧ s' = s.setDist i d ∧ P' = P.resetFeature i C := by
  unfold stereoInit at h
  simp only [Option.bind_eq_bind, Option.pure_def] at h
  obtain ⟨⟨c1, m1⟩, h1, h⟩ := Option.bind_eq_some_iff.mp h
  obtain ⟨⟨c2, m2⟩, h2, h⟩ := Option.bind_eq_some_iff.mp h
  simp only at h
  split at h
  · simp only [Option.some.injEq, Prod.mk.injEq] at h
    exact .inl ⟨h.1.symm, h.2.symm⟩
  · rename_i D hD
    obtain ⟨d, hd, h⟩ := Option.bind_eq_some_iff.mp h
    simp only [Option.some.injEq, Prod.mk.injEq] at h
    exact .inr ⟨c1, m1, c2, m2, D, d, h1, h2, hD, hd, h.1.symm, h.2.symm⟩

/-- Specification: a new feature starts from the prior, i.e. at the given distance parameter, and the relative variance of its
distance is the configured one. -/
def FromPrior (C : Matrix (Fin 3) (Fin 3) ℝ) (med : ℝ) (i : Fin n) (s : State n nCam nPose) (P : Cov n nCam nPose)
    (s' : State n nCam nPose) (P' : Cov n nCam nPose) : Prop :=
  s' = s.setDist i ⟨(s.fea i).d.type, med⟩ ∧ FreshBlock i (scaleDepth C ⟨(s.fea i).d.type, med⟩) P P' ∧
  (Unclamped (s.fea i).d.type med →
    DistVariance (s'.fea i).d (P' (.dep i) (.dep i)) (C 0 0 * getDistance (s'.fea i).d ^ 2)) ∧
  ∀ k l, P' (.nor i k) (.nor i l) = C k.succ l.succ

/-- Specification: a new feature starts from a triangulation between its camera `c` and the next one: its distance is the one
obtained from the two bearings, and its covariance block the configured one. -/
def FromStereo (C : Matrix (Fin 3) (Fin 3) ℝ) (c : Fin nCam) (al : FC) (i : Fin n) (s : State n nCam nPose) (P : Cov n nCam nPose)
    (s' : State n nCam nPose) (P' : Cov n nCam nPose) : Prop :=
  FreshBlock i C P P' ∧ OnlyDistance i s s' ∧ ∃ c1 m1 c2 m2 D, (s.fea i).c.getNor = some (c1, m1) ∧ al.getNor = some (c2, m2) ∧
    FC.depthFromTriangulation m1.vec m2.vec ((s.qCM (otherCam c)).rotate (s.MrMC c - s.MrMC (otherCam c)))
      (s.qCM (otherCam c) * (s.qCM c).inv) 0.01 = some D ∧
    (s'.fea i).d.type = (s.fea i).d.type ∧ setParameter (s.fea i).d D = some (s'.fea i).d

lemma nor_slot (i : Fin n) (k : Fin 2) : (Ix.nor i k : Ix n nCam nPose) = slotIx i k.succ := by
  fin_cases k <;> rfl

lemma fromPrior_reset (C : Matrix (Fin 3) (Fin 3) ℝ) (med : ℝ) (i : Fin n) (s : State n nCam nPose) (P : Cov n nCam nPose) :
    FromPrior C med i s P (s.setDist i ⟨(s.fea i).d.type, med⟩) (P.resetFeature i (scaleDepth C ⟨(s.fea i).d.type, med⟩)) := by
  have hb := freshBlock_reset i (scaleDepth C ⟨(s.fea i).d.type, med⟩) P
  refine ⟨rfl, hb, fun hu => ?_, fun k l => ?_⟩
  · have := hb.2.2 0 0
    simp only [slotIx] at this
    rw [this, setDist_fea]
    exact scaleDepth_variance C ⟨(s.fea i).d.type, med⟩ hu
  · rw [nor_slot, nor_slot, hb.2.2 k.succ l.succ]
    simp [scaleDepth]

/-- Every new feature starts either from the prior or from the triangulation with an accepted match in the next camera, and
nothing else in state or covariance changes. -/
theorem C82_outcome (cfg : NewCfg n) (mc : MultiCamera nCam) (sfv : V3 → Nor) (c : Fin nCam) (med : ℝ) (out out' : Fea)
    (s s' : State n nCam nPose) (P P' : Cov n nCam nPose) (i : Fin n)
    (h : initNewFeature cfg mc sfv c med (out, s, P) i = some (out', s', P')) :
    FromPrior cfg.C med i s P s' P' ∨
    (1 < nCam ∧ cfg.stereo = true ∧ ∃ al, cfg.found i out'.c.view = some al ∧ FromStereo cfg.C c al i s P s' P') := by
  unfold initNewFeature at h
  simp only [Option.bind_eq_bind, Option.pure_def, setDist_fea] at h
  split at h
  · rename_i hst
    obtain ⟨o, ho, h⟩ := Option.bind_eq_some_iff.mp h
    split at h
    · simp only [Option.some.injEq, Prod.mk.injEq] at h
      obtain ⟨-, rfl, rfl⟩ := h
      exact .inl (fromPrior_reset cfg.C med i s P)
    · rename_i al hal
      obtain ⟨⟨s2, P2⟩, h2, h⟩ := Option.bind_eq_some_iff.mp h
      simp only [Option.some.injEq, Prod.mk.injEq] at h
      obtain ⟨rfl, rfl, rfl⟩ := h
      rcases stereoInit_cases h2 with ⟨rfl, rfl⟩ | ⟨c1, m1, c2, m2, D, d, h1, h2', hD, hd, rfl, rfl⟩
      · exact .inl (fromPrior_reset cfg.C med i s P)
      · right
        refine ⟨hst.1, hst.2, al, hal, ?_, ⟨d, by rw [setDist_setDist]⟩, c1, m1, c2, m2, D, ?_, h2', ?_, ?_, ?_⟩
        · rw [(C52_order P (i := i) (j := i) _ _).2]; exact freshBlock_reset i cfg.C P
        · rw [setDist_fea] at h1; exact h1
        · simpa only [setDist_qCM, setDist_MrMC] using hD
        · have := setParameter_type hd
          rw [setDist_fea] at this ⊢
          rw [this]
        · rw [setDist_fea]
          simp only
          rw [← hd, setDist_fea]
          exact setParameter_congr rfl D
  · simp only [Option.some.injEq, Prod.mk.injEq] at h
    obtain ⟨-, rfl, rfl⟩ := h
    exact .inl (fromPrior_reset cfg.C med i s P)

/-- Without stereo initialisation, without an accepted match, and with a refused triangulation, the prior is used. -/
theorem C82_prior (cfg : NewCfg n) (mc : MultiCamera nCam) (sfv : V3 → Nor) (c : Fin nCam) (med : ℝ) (out out' : Fea)
    (s s' : State n nCam nPose) (P P' : Cov n nCam nPose) (i : Fin n)
    (h : initNewFeature cfg mc sfv c med (out, s, P) i = some (out', s', P'))
    (hno : nCam = 1 ∨ cfg.stereo = false ∨ cfg.found i out'.c.view = none ∨
      ∃ al c1 m1 c2 m2, cfg.found i out'.c.view = some al ∧ (s.fea i).c.getNor = some (c1, m1) ∧ al.getNor = some (c2, m2) ∧
        FC.depthFromTriangulation m1.vec m2.vec ((s.qCM (otherCam c)).rotate (s.MrMC c - s.MrMC (otherCam c)))
          (s.qCM (otherCam c) * (s.qCM c).inv) 0.01 = none) :
    FromPrior cfg.C med i s P s' P' := by
  rcases C82_outcome cfg mc sfv c med out out' s s' P P' i h with h | ⟨h1, h2, al, h3, -, -, c1, m1, c2, m2, D, h4, h5, h6, -⟩
  · exact h
  · exfalso
    rcases hno with h' | h' | h' | ⟨al', c1', m1', c2', m2', g1, g2, g3, g4⟩
    · omega
    · rw [h2] at h'; cases h'
    · rw [h3] at h'; cases h'
    · rw [h3] at g1; obtain rfl := Option.some.inj g1
      rw [h4] at g2; obtain ⟨rfl, rfl⟩ := Prod.mk.inj (Option.some.inj g2)
      rw [h5] at g3; obtain ⟨rfl, rfl⟩ := Prod.mk.inj (Option.some.inj g3)
      rw [h6] at g4; cases g4

/-- If the match in the next camera is the image of the same point `X` (given in the body frame), at least a centimetre away and
with enough parallax, the new feature gets its true distance, whatever the prior. -/
theorem C82_stereo_exact (cfg : NewCfg n) (mc : MultiCamera nCam) (sfv : V3 → Nor) (c : Fin nCam) (med : ℝ) (out f : Fea)
    (s : State n nCam nPose) (P : Cov n nCam nPose) (i : Fin n) (hq : ∀ c, (s.qCM c).IsUnit) (hn : 1 < nCam) (hst : cfg.stereo = true)
    (hf : (s.setDist i ⟨(s.fea i).d.type, med⟩).featureOut mc sfv i (otherCam c) out = some f)
    (al c1 c2 : FC) (m1 m2 : Nor) (hal : cfg.found i f.c.view = some al) (h1 : (s.fea i).c.getNor = some (c1, m1)) (h2 : al.getNor = some (c2, m2))
    (hm1 : m1.q.IsUnit) (hm2 : m2.q.IsUnit) (X : V3) (D E : ℝ)
    (hX1 : (s.qCM c).rotate (X - s.MrMC c) = D • m1.vec) (hX2 : (s.qCM (otherCam c)).rotate (X - s.MrMC (otherCam c)) = E • m2.vec)
    (hpar : (((s.qCM (otherCam c)).rotate ((s.qCM c).inv.rotate m1.vec)).dot m2.vec) ^ 2 ≤ 1 - 1e-6) (hD : 0.01 ≤ D)
    (hr : Representable (s.fea i).d.type D) :
    ∃ s' P', initNewFeature cfg mc sfv c med (out, s, P) i = some (f, s', P') ∧ getDistance (s'.fea i).d = D ∧
      OnlyDistance i s s' ∧ FreshBlock i cfg.C P P' := by
  set o := otherCam c with ho
  have hmeet : (s.qCM o * (s.qCM c).inv).rotate (D • m1.vec) + (s.qCM o).rotate (s.MrMC c - s.MrMC o) = E • m2.vec := by
    rw [← hX1, ← hX2, Quat.rotate_mul, Quat.rotate_inv_rotate (hq c), ← Quat.rotate_add]
    congr 1
    ext <;> simp
  have hdep := FC.C60_exact m1.vec m2.vec ((s.qCM o).rotate (s.MrMC c - s.MrMC o)) (s.qCM o * (s.qCM c).inv) D E 0.01
    ((hq o).mul (hq c).inv) (Nor.norm_vec hm1) (Nor.norm_vec hm2) hmeet (by rw [Quat.rotate_mul]; exact hpar) hD
  obtain ⟨d, hd, ht, hg⟩ := C01_roundtrip (s.fea i).d D hr
  have hd' : setParameter ⟨(s.fea i).d.type, med⟩ D = some d := by rw [← hd]; exact setParameter_congr rfl D
  refine ⟨s.setDist i d, P.resetFeature i cfg.C, ?_, by rw [setDist_fea]; exact hg, ⟨d, rfl⟩, freshBlock_reset i cfg.C P⟩
  unfold initNewFeature stereoInit
  have hcond : nCam > 1 ∧ cfg.stereo = true := ⟨hn, hst⟩
  simp only [Option.bind_eq_bind, Option.pure_def, setDist_fea, if_pos hcond, hf, Option.bind_some, hal, h1, h2, setDist_qCM, setDist_MrMC, ← ho, hdep, hd',
    setDist_setDist, (C52_order P (i := i) (j := i) _ _).2]

/-- Finding: after a successful triangulation the configured relative variance is written to the distance *parameter* without the
scaling applied to the prior.  For the (default) inverse parametrisation the relative variance of the distance is then the
configured one times the squared distance. -/
theorem C82_finding_stereo_variance (C : Matrix (Fin 3) (Fin 3) ℝ) (c : Fin nCam) (al : FC) (i : Fin n) (s s' : State n nCam nPose)
    (P P' : Cov n nCam nPose) (h : FromStereo C c al i s P s' P') (ht : (s.fea i).d.type = .inverse)
    (hu : Unclamped .inverse (s'.fea i).d.p) :
    DistVariance (s'.fea i).d (P' (.dep i) (.dep i)) (C 0 0 * getDistance (s'.fea i).d ^ 2 * getDistance (s'.fea i).d ^ 2) := by
  obtain ⟨hb, -, -, -, -, -, -, -, -, -, ht', -⟩ := h
  have h00 : P' (.dep i) (.dep i) = C 0 0 := hb.2.2 0 0
  rw [ht] at ht'
  generalize hd : (s'.fea i).d = d at *
  obtain ⟨t, p⟩ := d
  simp only at ht' hu
  subst ht'
  refine ⟨_, C02_distance_derivative .inverse p hu, ?_⟩
  rw [h00]
  have h0 := makeNonZero_ne_zero p
  simp only [getDistanceDerivative, getDistance]
  field_simp

/-- The covariance stays symmetric and positive semi-definite; the configured block is diagonal between distance and bearing
(`registerDiagonalMatrix`). -/
theorem C82_cov (cfg : NewCfg n) (mc : MultiCamera nCam) (sfv : V3 → Nor) (c : Fin nCam) (med : ℝ) (out out' : Fea)
    (s s' : State n nCam nPose) (P P' : Cov n nCam nPose) (i : Fin n) (hP : IsCov P) (hC : IsCov cfg.C) (h01 : cfg.C 0 1 = 0) (h02 : cfg.C 0 2 = 0)
    (h : initNewFeature cfg mc sfv c med (out, s, P) i = some (out', s', P')) : IsCov P' := by
  have uniq : ∀ {E : Matrix (Fin 3) (Fin 3) ℝ}, FreshBlock i E P P' → P' = P.resetFeature i E := by
    intro E hb
    have hr := freshBlock_reset i E P
    ext a b
    by_cases ha : ∀ k, a ≠ slotIx i k
    · by_cases hb' : ∀ k, b ≠ slotIx i k
      · rw [hb.1 a b ha hb', hr.1 a b ha hb']
      · push Not at hb'
        obtain ⟨k, rfl⟩ := hb'
        rw [(hb.2.1 a k ha).1, (hr.2.1 a k ha).1]
    · push Not at ha
      obtain ⟨k, rfl⟩ := ha
      by_cases hb' : ∀ k, b ≠ slotIx i k
      · rw [(hb.2.1 b k hb').2, (hr.2.1 b k hb').2]
      · push Not at hb'
        obtain ⟨l, rfl⟩ := hb'
        rw [hb.2.2 k l, hr.2.2 k l]
  have h10 : cfg.C 1 0 = 0 := by have := congrFun (congrFun hC.symm 1) 0; rw [Matrix.transpose_apply] at this; rw [← this]; exact h01
  have h20 : cfg.C 2 0 = 0 := by have := congrFun (congrFun hC.symm 2) 0; rw [Matrix.transpose_apply] at this; rw [← this]; exact h02
  have hscale : ∀ d, IsCov (scaleDepth cfg.C d) := by
    intro d
    have e : scaleDepth cfg.C d = Matrix.diagonal ![getParameterDerivative d * getDistance d, 1, 1] * cfg.C *
        (Matrix.diagonal ![getParameterDerivative d * getDistance d, 1, 1])ᵀ := by
      rw [Matrix.diagonal_transpose]
      ext k l
      rw [Matrix.mul_diagonal, Matrix.diagonal_mul]
      fin_cases k <;> fin_cases l <;> simp [scaleDepth, h01, h02, h10, h20]
      ring
    rw [e]
    exact hC.conj _
  rcases C82_outcome cfg mc sfv c med out out' s s' P P' i h with h | ⟨-, -, al, -, h⟩
  · rw [uniq h.2.1]; exact C52_cov hP i (hscale _)
  · rw [uniq h.1]; exact C52_cov hP i hC

/-- The same feature re-expressed in another camera, written to two different objects: what the alignment reads is the same. -/
lemma featureOut_view {s s2 : State n nCam nPose} {mc : MultiCamera nCam} {sfv : V3 → Nor} {i : Fin n} {b : Fin nCam} (hfea : s.fea i = s2.fea i)
    (hq : s.qCM = s2.qCM) (hm : s.MrMC = s2.MrMC) (hb : (s.fea i).c.camID ≠ b.val) {o o2 : Fea} (ho : o.d.type = o2.d.type) :
    (s.featureOut mc sfv i b o).map (fun f => (f.c.view, f.d)) = (s2.featureOut mc sfv i b o2).map (fun f => (f.c.view, f.d)) := by
  have hb2 : (s2.fea i).c.camID ≠ b.val := hfea ▸ hb
  have hmc : s.updateMultiCamera mc = s2.updateMultiCamera mc := by
    simp only [State.updateMultiCamera, hq, hm]
  have hbb : ∀ a m, s.bearingBlock sfv i a b m = s2.bearingBlock sfv i a b m := by
    intro a m; simp only [State.bearingBlock, hq, hm, hfea]
  unfold State.featureOut MultiCamera.transformFeature
  rw [hmc]
  simp only [hfea, if_pos hb2, hbb]
  simp only [Option.bind_eq_bind, Option.pure_def]
  rcases camIdx nCam (s2.fea i).c.camID with _ | a
  · rfl
  rcases (s2.fea i).c.getNor with _ | ⟨v, m⟩
  · rfl
  simp only [Option.bind_some, setParameter_congr ho]
  rcases setParameter o2.d _ with _ | d
  · rfl
  simp only [Option.bind_some]
  cases htw : (s2.fea i).c.trackWarping
  · simp only [Bool.false_eq_true, if_false, Option.map_some]
    cases v.trackWarping <;> simp [FC.view]
  · simp only [if_true]
    rcases (s2.fea i).c.comWarpNor with _ | ⟨fc, ok⟩
    · rfl
    simp only [Option.bind_some]
    cases ok
    · simp only [Bool.false_eq_true, if_false, Option.map_some]
      cases v.trackWarping <;> simp [FC.view]
    · simp only [if_true]
      rcases camIdx nCam fc.camID with _ | a'
      · rfl
      rcases fc.getNor with _ | ⟨fc', m'⟩
      · rfl
      simp only [Option.bind_some]
      rcases fc'.getWarpNor with _ | ⟨fc'', w⟩
      · rfl
      simp only [Option.bind_some, Option.map_some]
      cases v.trackWarping <;> simp [FC.view, FC.setWarpNor]

lemma featureOut_type {s : State n nCam nPose} {mc : MultiCamera nCam} {sfv : V3 → Nor} {i : Fin n} {b : Fin nCam} (hb : (s.fea i).c.camID ≠ b.val)
    {o f : Fea} (h : s.featureOut mc sfv i b o = some f) : f.d.type = o.d.type := by
  unfold State.featureOut MultiCamera.transformFeature at h
  simp only [if_pos hb, Option.bind_eq_bind, Option.pure_def] at h
  obtain ⟨⟨c, d⟩, hcd, h⟩ := Option.bind_eq_some_iff.mp h
  obtain ⟨a, -, hcd⟩ := Option.bind_eq_some_iff.mp hcd
  obtain ⟨⟨v, m⟩, -, hcd⟩ := Option.bind_eq_some_iff.mp hcd
  obtain ⟨d', hd', hcd⟩ := Option.bind_eq_some_iff.mp hcd
  simp only [Option.some.injEq, Prod.mk.injEq] at hcd
  have ht := setParameter_type hd'
  rw [hcd.2] at ht
  have hfd : f.d = d := by
    simp only at h
    split at h
    · obtain ⟨⟨fc, ok⟩, -, h⟩ := Option.bind_eq_some_iff.mp h
      simp only at h
      split at h
      · obtain ⟨a', -, h⟩ := Option.bind_eq_some_iff.mp h
        obtain ⟨⟨x, y⟩, -, h⟩ := Option.bind_eq_some_iff.mp h
        obtain ⟨⟨x', y'⟩, -, h⟩ := Option.bind_eq_some_iff.mp h
        simp only [Option.some.injEq] at h; rw [← h]
      · simp only [Option.some.injEq] at h; rw [← h]
    · simp only [Option.some.injEq] at h; rw [← h]
  rw [hfd, ht]

/-- The initialisation of one feature only depends on that feature, the extrinsics and the type of `featureOutput_`. -/
lemma init_local (cfg : NewCfg n) (mc : MultiCamera nCam) (sfv : V3 → Nor) (c : Fin nCam) (med : ℝ) (i : Fin n) (o : Fea) (s : State n nCam nPose)
    (hcam : (s.fea i).c.camID = c.val) :
    ∃ r : Option (FeatureDistance × Matrix (Fin 3) (Fin 3) ℝ), ∀ (o2 : Fea) (s2 : State n nCam nPose) (P2 : Cov n nCam nPose), s.fea i = s2.fea i → s.qCM = s2.qCM →
      s.MrMC = s2.MrMC → o.d.type = o2.d.type →
      (initNewFeature cfg mc sfv c med (o2, s2, P2) i).map (fun y => (y.1.d.type, y.2)) =
        r.map fun dC => (o.d.type, s2.setDist i dC.1, P2.resetFeature i dC.2) := by
  have hoc : 1 < nCam → (c.val : ℤ) ≠ (otherCam c).val := by
    intro hn e
    have e : c.val = (c.val + 1) % nCam := by exact_mod_cast e
    have := c.isLt
    rcases Nat.lt_or_ge (c.val + 1) nCam with h | h
    · rw [Nat.mod_eq_of_lt h] at e; omega
    · have : c.val + 1 = nCam := by omega
      rw [this, Nat.mod_self] at e; omega
  set d0 : FeatureDistance := ⟨(s.fea i).d.type, med⟩ with hd0
  by_cases hst : nCam > 1 ∧ cfg.stereo = true
  · have hb : ((s.setDist i d0).fea i).c.camID ≠ (otherCam c).val := by rw [setDist_fea]; simpa [hcam] using hoc hst.1
    have hview : ∀ (o2 : Fea) (s2 : State n nCam nPose), s.fea i = s2.fea i → s.qCM = s2.qCM → s.MrMC = s2.MrMC → o.d.type = o2.d.type → _ :=
      fun o2 s2 h1 h2 h3 h4 => featureOut_view (s := s.setDist i d0) (s2 := s2.setDist i d0) (mc := mc) (sfv := sfv) (i := i) (b := otherCam c)
        (by rw [setDist_fea, setDist_fea, h1]) (show s.qCM = s2.qCM from h2) (show s.MrMC = s2.MrMC from h3) hb h4
    have hty : ∀ (o2 : Fea) (s2 : State n nCam nPose) (f : Fea), s.fea i = s2.fea i → (s2.setDist i d0).featureOut mc sfv i (otherCam c) o2 = some f →
        f.d.type = o2.d.type := fun o2 s2 f h1 h => featureOut_type (s := s2.setDist i d0)
          (by rw [setDist_fea, ← h1]; simpa [hcam] using hoc hst.1) h
    cases hf : (s.setDist i d0).featureOut mc sfv i (otherCam c) o with
    | none =>
      refine ⟨none, fun o2 s2 P2 h1 h2 h3 h4 => ?_⟩
      have hv := hview o2 s2 h1 h2 h3 h4
      rw [hf] at hv
      simp only [Option.map_none, eq_comm (a := none), Option.map_eq_none_iff] at hv
      unfold initNewFeature
      simp only [Option.bind_eq_bind, Option.pure_def, if_pos hst, ← h1, ← hd0, hv, Option.bind_none, Option.map_none]
    | some f =>
      have key : ∀ (o2 : Fea) (s2 : State n nCam nPose), s.fea i = s2.fea i → s.qCM = s2.qCM → s.MrMC = s2.MrMC → o.d.type = o2.d.type →
          ∃ f2, (s2.setDist i d0).featureOut mc sfv i (otherCam c) o2 = some f2 ∧ f2.c.view = f.c.view ∧ f2.d.type = o.d.type := by
        intro o2 s2 h1 h2 h3 h4
        have hv := hview o2 s2 h1 h2 h3 h4
        rw [hf, Option.map_some, eq_comm, Option.map_eq_some_iff] at hv
        obtain ⟨f2, hf2, he⟩ := hv
        exact ⟨f2, hf2, (Prod.mk.inj he).1, by rw [hty o2 s2 f2 h1 hf2, h4]⟩
      cases hal : cfg.found i f.c.view with
      | none =>
        refine ⟨some (d0, scaleDepth cfg.C d0), fun o2 s2 P2 h1 h2 h3 h4 => ?_⟩
        obtain ⟨f2, hf2, hv2, ht2⟩ := key o2 s2 h1 h2 h3 h4
        unfold initNewFeature
        simp only [Option.bind_eq_bind, Option.pure_def, if_pos hst, ← h1, ← hd0, hf2, Option.bind_some, hv2, hal, Option.map_some, setDist_fea, ht2]
      | some al =>
        have hstep : ∀ (o2 : Fea) (s2 : State n nCam nPose) (P2 : Cov n nCam nPose), s.fea i = s2.fea i → s.qCM = s2.qCM → s.MrMC = s2.MrMC → o.d.type = o2.d.type →
            (initNewFeature cfg mc sfv c med (o2, s2, P2) i).map (fun y => (y.1.d.type, y.2)) =
              (stereoInit cfg.C c (s2.setDist i d0) (P2.resetFeature i (scaleDepth cfg.C d0)) i al).map fun y => (o.d.type, y) := by
          intro o2 s2 P2 h1 h2 h3 h4
          obtain ⟨f2, hf2, hv2, ht2⟩ := key o2 s2 h1 h2 h3 h4
          unfold initNewFeature
          simp only [Option.bind_eq_bind, Option.pure_def, if_pos hst, ← h1, ← hd0, hf2, Option.bind_some, hv2, hal, setDist_fea]
          rcases stereoInit cfg.C c (s2.setDist i d0) (P2.resetFeature i (scaleDepth cfg.C d0)) i al with _ | ⟨s3, P3⟩
          · rfl
          · simp [ht2]
        cases h1 : (s.fea i).c.getNor with
        | none =>
          refine ⟨none, fun o2 s2 P2 g1 g2 g3 g4 => ?_⟩
          rw [hstep o2 s2 P2 g1 g2 g3 g4]
          simp [stereoInit, setDist_fea, ← g1, h1]
        | some x1 =>
          cases h2 : al.getNor with
          | none =>
            refine ⟨none, fun o2 s2 P2 g1 g2 g3 g4 => ?_⟩
            rw [hstep o2 s2 P2 g1 g2 g3 g4]
            simp [stereoInit, setDist_fea, ← g1, h1, h2]
          | some x2 =>
            cases hD : FC.depthFromTriangulation x1.2.vec x2.2.vec ((s.qCM (otherCam c)).rotate (s.MrMC c - s.MrMC (otherCam c)))
                (s.qCM (otherCam c) * (s.qCM c).inv) 0.01 with
            | none =>
              refine ⟨some (d0, scaleDepth cfg.C d0), fun o2 s2 P2 g1 g2 g3 g4 => ?_⟩
              rw [hstep o2 s2 P2 g1 g2 g3 g4]
              simp only [stereoInit, setDist_fea, ← g1, h1, h2, setDist_qCM, setDist_MrMC, ← g2, ← g3, hD, Option.bind_eq_bind, Option.bind_some,
                Option.pure_def, Option.map_some]
            | some D =>
              cases hd : setParameter d0 D with
              | none =>
                refine ⟨none, fun o2 s2 P2 g1 g2 g3 g4 => ?_⟩
                rw [hstep o2 s2 P2 g1 g2 g3 g4]
                simp only [stereoInit, setDist_fea, ← g1, h1, h2, setDist_qCM, setDist_MrMC, ← g2, ← g3, hD, hd, Option.bind_eq_bind, Option.bind_some,
                  Option.bind_none, Option.map_none]
              | some d =>
                refine ⟨some (d, cfg.C), fun o2 s2 P2 g1 g2 g3 g4 => ?_⟩
                rw [hstep o2 s2 P2 g1 g2 g3 g4]
                simp only [stereoInit, setDist_fea, ← g1, h1, h2, setDist_qCM, setDist_MrMC, ← g2, ← g3, hD, hd, Option.bind_eq_bind, Option.bind_some,
                  Option.pure_def, Option.map_some, setDist_setDist, (C52_order P2 (i := i) (j := i) _ _).2]
  · refine ⟨some (d0, scaleDepth cfg.C d0), fun o2 s2 P2 h1 h2 h3 h4 => ?_⟩
    unfold initNewFeature
    simp only [Option.pure_def, if_neg hst, ← h1, ← hd0, setDist_fea, Option.map_some, h4]

/-- The new features are kept in a hash set: the order in which they are initialised does not matter.  Both orders fail or both
succeed, with the same state and covariance. -/
theorem C82_order (cfg : NewCfg n) (mc : MultiCamera nCam) (sfv : V3 → Nor) (c : Fin nCam) (med : ℝ) (l l' : List (Fin n)) (hp : l.Perm l') (hl : l.Nodup)
    (out : Fea) (s : State n nCam nPose) (P : Cov n nCam nPose) (hcam : ∀ i ∈ l, (s.fea i).c.camID = c.val) :
    (initNewFeatures cfg mc sfv c med l (out, s, P)).map (·.2) = (initNewFeatures cfg mc sfv c med l' (out, s, P)).map (·.2) := by
  suffices H : ∀ (o o' : Fea) (s : State n nCam nPose) (P : Cov n nCam nPose), o.d.type = o'.d.type → (∀ i ∈ l, (s.fea i).c.camID = c.val) →
      (initNewFeatures cfg mc sfv c med l (o, s, P)).map (fun y => (y.1.d.type, y.2)) =
      (initNewFeatures cfg mc sfv c med l' (o', s, P)).map (fun y => (y.1.d.type, y.2)) by
    have h := congrArg (Option.map Prod.snd) (H out out s P rfl hcam)
    simpa only [Option.map_map, Function.comp_def] using h
  clear hcam out s P
  have keep : ∀ (s : State n nCam nPose) (i j : Fin n) (d : FeatureDistance), ((s.setDist i d).fea j).c = (s.fea j).c := by
    intro s i j d
    by_cases h : j = i
    · subst h; rw [setDist_fea]
    · simp [State.setDist, h]
  induction hp with
  | nil =>
    intro o o' s P ho _
    simp [initNewFeatures, ho]
  | cons i hp ih =>
    rename_i m m'
    intro o o' s P ho hc
    obtain ⟨hi, hm⟩ := List.nodup_cons.mp hl
    obtain ⟨q, hq⟩ := init_local (nPose := nPose) cfg mc sfv c med i o s (hc i (by simp))
    have e1 := hq o s P rfl rfl rfl rfl
    have e2 := hq o' s P rfl rfl rfl ho
    unfold initNewFeatures
    rw [List.foldlM_cons, List.foldlM_cons]
    cases q with
    | none =>
      simp only [Option.map_none, Option.map_eq_none_iff] at e1 e2
      rw [e1, e2]; rfl
    | some dC =>
      rw [Option.map_some, Option.map_eq_some_iff] at e1 e2
      obtain ⟨⟨a1, a2⟩, ha, hae⟩ := e1
      obtain ⟨⟨b1, b2⟩, hb, hbe⟩ := e2
      obtain ⟨f1, f2⟩ := Prod.mk.inj hae
      obtain ⟨g1, g2⟩ := Prod.mk.inj hbe
      simp only at f1 f2 g1 g2
      subst f2 g2
      rw [ha, hb]
      exact ih hm a1 b1 _ _ (f1.trans g1.symm) (fun j hj => by rw [keep]; exact hc j (by simp [hj]))
  | swap i j m =>
    intro o o' s P ho hc
    have hij : i ≠ j := by intro e; subst e; simp at hl
    have hm : m.Nodup := (List.nodup_cons.mp (List.nodup_cons.mp hl).2).2
    obtain ⟨qi, hqi⟩ := init_local (nPose := nPose) cfg mc sfv c med i o s (hc i (by simp))
    obtain ⟨qj, hqj⟩ := init_local (nPose := nPose) cfg mc sfv c med j o s (hc j (by simp))
    have oth : ∀ {a b : Fin n} (h : a ≠ b) (d : FeatureDistance), s.fea b = (s.setDist a d).fea b := by
      intro a b h d; simp [State.setDist, h.symm]
    -- the tail only depends on the type of the output object
    have tail : ∀ (m : List (Fin n)) (o o' : Fea) (s : State n nCam nPose) (P : Cov n nCam nPose), o.d.type = o'.d.type → (∀ i ∈ m, (s.fea i).c.camID = c.val) →
        (initNewFeatures cfg mc sfv c med m (o, s, P)).map (fun y => (y.1.d.type, y.2)) =
        (initNewFeatures cfg mc sfv c med m (o', s, P)).map (fun y => (y.1.d.type, y.2)) := by
      intro m
      induction m with
      | nil => intro o o' s P ho _; simp [initNewFeatures, ho]
      | cons k m ih =>
        intro o o' s P ho hc
        obtain ⟨q, hq⟩ := init_local (nPose := nPose) cfg mc sfv c med k o s (hc k (by simp))
        have e1 := hq o s P rfl rfl rfl rfl
        have e2 := hq o' s P rfl rfl rfl ho
        unfold initNewFeatures
        rw [List.foldlM_cons, List.foldlM_cons]
        cases q with
        | none =>
          simp only [Option.map_none, Option.map_eq_none_iff] at e1 e2
          rw [e1, e2]
        | some dC =>
          rw [Option.map_some, Option.map_eq_some_iff] at e1 e2
          obtain ⟨⟨a1, a2⟩, ha, hae⟩ := e1
          obtain ⟨⟨b1, b2⟩, hb, hbe⟩ := e2
          obtain ⟨f1, f2⟩ := Prod.mk.inj hae
          obtain ⟨g1, g2⟩ := Prod.mk.inj hbe
          simp only at f1 f2 g1 g2
          subst f2 g2
          rw [ha, hb]
          exact ih a1 b1 _ _ (f1.trans g1.symm) (fun j hj => by rw [keep]; exact hc j (by simp [hj]))
    unfold initNewFeatures
    simp only [List.foldlM_cons]
    have e1 := hqj o s P rfl rfl rfl rfl
    have e2 := hqi o' s P rfl rfl rfl ho
    cases qj with
    | none =>
      simp only [Option.map_none, Option.map_eq_none_iff] at e1
      rw [e1]
      cases qi with
      | none =>
        simp only [Option.map_none, Option.map_eq_none_iff] at e2
        rw [e2]; rfl
      | some dC =>
        rw [Option.map_some, Option.map_eq_some_iff] at e2
        obtain ⟨⟨b1, b2⟩, hb, hbe⟩ := e2
        obtain ⟨g1, g2⟩ := Prod.mk.inj hbe
        simp only at g1 g2
        subst g2
        have e3 := hqj b1 (s.setDist i dC.1) (P.resetFeature i dC.2) (oth hij _) rfl rfl g1.symm
        simp only [Option.map_none, Option.map_eq_none_iff] at e3
        rw [hb]
        simp only [Option.bind_eq_bind, Option.bind_some, Option.bind_none, e3]
    | some dCj =>
      rw [Option.map_some, Option.map_eq_some_iff] at e1
      obtain ⟨⟨a1, a2⟩, ha, hae⟩ := e1
      obtain ⟨f1, f2⟩ := Prod.mk.inj hae
      simp only at f1 f2
      subst f2
      have e4 := hqi a1 (s.setDist j dCj.1) (P.resetFeature j dCj.2) (oth hij.symm _) rfl rfl f1.symm
      rw [ha]
      cases qi with
      | none =>
        simp only [Option.map_none, Option.map_eq_none_iff] at e2 e4
        rw [e2]
        simp only [Option.bind_eq_bind, Option.bind_some, Option.bind_none, e4]
      | some dCi =>
        rw [Option.map_some, Option.map_eq_some_iff] at e2 e4
        obtain ⟨⟨b1, b2⟩, hb, hbe⟩ := e2
        obtain ⟨g1, g2⟩ := Prod.mk.inj hbe
        simp only at g1 g2
        subst g2
        have e3 := hqj b1 (s.setDist i dCi.1) (P.resetFeature i dCi.2) (oth hij _) rfl rfl g1.symm
        rw [Option.map_some, Option.map_eq_some_iff] at e3
        obtain ⟨⟨u1, u2⟩, hu, hue⟩ := e3
        obtain ⟨v1, v2⟩ := Prod.mk.inj hue
        obtain ⟨⟨w1, w2⟩, hw, hwe⟩ := e4
        obtain ⟨x1, x2⟩ := Prod.mk.inj hwe
        simp only at v1 v2 x1 x2
        subst v2 x2
        rw [hb]
        simp only [Option.bind_eq_bind, Option.bind_some, hu, hw]
        rw [setDist_comm s hij, (C52_order P (i := i) (j := j) dCi.2 dCj.2).1 hij]
        exact tail m w1 u1 _ _ (x1.trans v1.symm) (fun k hk => by rw [keep, keep]; exact hc k (by simp [hk]))
  | trans h1 h2 ih1 ih2 =>
    intro o o' s P ho hc
    rw [ih1 hl o o s P rfl hc]
    exact ih2 (h1.nodup_iff.mp hl) o o' s P ho (fun i hi => hc i (h1.mem_iff.mpr hi))

/-! Non-vacuity: the feature of `demoState3` starts at one metre; the match in the second camera, half a metre to the right, is
the image of a point two metres ahead. -/

/-- Matched coordinates in the second camera. -/
noncomputable def demoMatch (sfv : V3 → Nor) : FC := { demoCoord none 1 with nor := sfv ⟨-0.5, 0, 2⟩, validNor := true }

/-- Stereo initialisation with that match. -/
noncomputable def demoNew (sfv : V3 → Nor) : NewCfg 1 := ⟨Matrix.diagonal ![0.25, 1, 1], true, fun _ _ => some (demoMatch sfv)⟩

lemma demoOut (sfv : V3 → Nor) : ∃ f, ((demoState3 sfv).setDist 0 ⟨.inverse, 1⟩).featureOut (demoCams sfv) sfv 0 1 ⟨demoCoord none 0, ⟨.inverse, 0.5⟩⟩ = some f := by
  obtain ⟨f₀, hf₀, -⟩ := featureOut_some (s := (demoState3 sfv).setDist 0 ⟨.inverse, 1⟩) (i := 0) (a := 0) (mc := demoCams sfv) (sfv := sfv)
    (out := ⟨demoCoord none 0, ⟨.inverse, 0.5⟩⟩)
    (d' := ⟨.inverse, 1 / makeNonZero (((demoState3 sfv).setDist 0 ⟨.inverse, 1⟩).seenFrom 0 0 1).norm⟩) (b := 1)
    ⟨by rw [setDist_fea]; rfl, by rw [setDist_fea]; rfl, by rw [setDist_fea]; exact Quat.isUnit_one⟩ Quat.isUnit_one (fun _ => rfl) (.inr (by rw [setDist_fea]; rfl))
  exact ⟨f₀, hf₀⟩

example (sfv : V3 → Nor) (hs : SetFromVector sfv) :
    ∃ f s' P', initNewFeature (demoNew sfv) (demoCams sfv) sfv 0 1 (⟨demoCoord none 0, ⟨.inverse, 0.5⟩⟩, demoState3 sfv, 1) 0 = some (f, s', P') ∧
      getDistance (s'.fea 0).d = 2 := by
  obtain ⟨f, hf⟩ := demoOut sfv
  have hn : (⟨-0.5, 0, 2⟩ : V3).norm = Real.sqrt 4.25 := by simp only [V3.norm, V3.normSq]; norm_num
  have hs4 : (0:ℝ) < Real.sqrt 4.25 := Real.sqrt_pos.mpr (by norm_num)
  have hge : (1e-6 : ℝ) < (⟨-0.5, 0, 2⟩ : V3).norm := by
    rw [hn]; exact lt_of_lt_of_le (by norm_num : (1e-6:ℝ) < 1) (Real.one_le_sqrt.mpr (by norm_num))
  have hv := hs.vec ⟨-0.5, 0, 2⟩ hge
  rw [V3.normalized, hn] at hv
  obtain ⟨s', P', h, hd, -⟩ := C82_stereo_exact (demoNew sfv) (demoCams sfv) sfv 0 1 ⟨demoCoord none 0, ⟨.inverse, 0.5⟩⟩ f (demoState3 sfv) 1 0
    (fun c => Quat.isUnit_one) (by norm_num) rfl hf (demoMatch sfv) ((demoState3 sfv).fea 0).c (demoMatch sfv) ((demoState3 sfv).fea 0).c.nor (sfv ⟨-0.5, 0, 2⟩)
    rfl (MultiCamera.getNor_of_valid rfl) (MultiCamera.getNor_of_valid rfl) Quat.isUnit_one (hs.unit _) ⟨0, 0, 2⟩ 2 (Real.sqrt 4.25)
    (by ext <;> simp [demoState3, demoState, State.qCM, State.MrMC, demoCoord, Nor.vec, V3.ez, Quat.rotate])
    (by
      rw [hv]
      have : otherCam (0 : Fin 2) = 1 := rfl
      rw [this]
      ext <;> simp [demoState3, demoState, State.qCM, State.MrMC, Quat.rotate] <;> field_simp)
    (by
      rw [hv]
      have : otherCam (0 : Fin 2) = 1 := rfl
      rw [this]
      have e : (((demoState3 sfv).qCM 1).rotate (((demoState3 sfv).qCM 0).inv.rotate ((demoState3 sfv).fea 0).c.nor.vec)) = ⟨0, 0, 1⟩ := by
        ext <;> simp [demoState3, demoState, State.qCM, demoCoord, Nor.vec, V3.ez, Quat.rotate, Quat.inv, Quat.one]
      rw [e]
      have h2 : (1 / Real.sqrt 4.25) ^ 2 = 1 / 4.25 := by rw [div_pow, Real.sq_sqrt (by norm_num)]; norm_num
      have e2 : (V3.dot ⟨0, 0, 1⟩ ((1 / Real.sqrt 4.25) • (⟨-0.5, 0, 2⟩ : V3))) = 2 * (1 / Real.sqrt 4.25) := by simp [V3.dot]; ring
      rw [e2, mul_pow, h2]; norm_num)
    (by norm_num) (by
      show Representable .inverse 2
      norm_num [Representable])
  exact ⟨f, s', P', h, hd⟩

/-- Without stereo initialisation: two features in a two-camera filter, either order, starting from the prior at four metres. -/
example (sfv : V3 → Nor) (s : State 2 2 0) (hs : ∀ i, (s.fea i).c.camID = 1 ∧ (s.fea i).d.type = .inverse) (out : Fea) :
    ∃ y, initNewFeatures ⟨Matrix.diagonal ![0.25, 1, 1], false, fun _ _ => none⟩ (demoCams sfv) sfv 1 0.25 [0, 1] (out, s, 1) = some y ∧
      (initNewFeatures ⟨Matrix.diagonal ![0.25, 1, 1], false, fun _ _ => none⟩ (demoCams sfv) sfv 1 0.25 [1, 0] (out, s, 1)).map (·.2) = some y.2 ∧
      IsCov y.2.2 := by
  refine ⟨_, rfl, ?_, ?_⟩
  · rw [← C82_order ⟨Matrix.diagonal ![0.25, 1, 1], false, fun _ _ => none⟩ (demoCams sfv) sfv 1 0.25 [0, 1] [1, 0] (List.Perm.swap _ _ _).symm (by simp) out s 1
      (fun i _ => (hs i).1)]
    rfl
  · have hC : IsCov (Matrix.diagonal ![0.25, 1, 1] : Matrix (Fin 3) (Fin 3) ℝ) := by
      refine ⟨Matrix.diagonal_transpose _, fun x => ?_⟩
      simp only [dotProduct, Matrix.mulVec_diagonal, Fin.sum_univ_three]
      simp
      nlinarith [sq_nonneg (x 0), sq_nonneg (x 1), sq_nonneg (x 2)]
    refine C82_cov ⟨Matrix.diagonal ![0.25, 1, 1], false, fun _ _ => none⟩ (demoCams sfv) sfv 1 0.25 out out _ _ _ _ 1 (C82_cov
      ⟨Matrix.diagonal ![0.25, 1, 1], false, fun _ _ => none⟩ (demoCams sfv) sfv 1 0.25 out out s _ 1 _ 0 isCov_one hC (by simp) (by simp) rfl) hC (by simp) (by simp) rfl

end Rovio
