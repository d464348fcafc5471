import Verif.Lemmas.Known
import Verif.Props.Assembled
import Verif.Props.FeatureCoordinates
import Verif.Props.OutputCov
import Verif.Lemmas.Tracker

/-!
# The predicted pixel of the assembled filter (C62, C70)

The pixel uncertainty with which the image update starts its search, and what its alignment hands on as a match.
-/

namespace Rovio.Spec

/-- What is assumed of the solver: for a symmetric 2x2 matrix it returns two orthonormal eigenvectors with their eigenvalues. -/
def EigenSolver (eigen : M2 → (ℝ × ℝ) × V2 × V2) : Prop :=
  ∀ A : M2, A.b = A.c → A.mulVec (eigen A).2.1 = (eigen A).1.1 • (eigen A).2.1 ∧ A.mulVec (eigen A).2.2 = (eigen A).1.2 • (eigen A).2.2 ∧
    (eigen A).2.1.x ^ 2 + (eigen A).2.1.y ^ 2 = 1 ∧ (eigen A).2.2.x ^ 2 + (eigen A).2.2.y ^ 2 = 1 ∧
    (eigen A).2.1.x * (eigen A).2.2.x + (eigen A).2.1.y * (eigen A).2.2.y = 0

/-- The variance along `e` of a pixel that moves by `D k` per unit of the `k`-th error, the errors having covariance `P`. -/
def alongVariance {ι : Type} [Fintype ι] (P : Matrix ι ι ℝ) (D : ι → V2) (e : V2) : ℝ :=
  ∑ u, ∑ v, (e.x * (D u).x + e.y * (D u).y) * P u v * (e.x * (D v).x + e.y * (D v).y)

end Rovio.Spec

namespace Rovio.ImgFull

open Rovio.Img Rovio.Spec Distance

variable {n nCam nPose : ℕ}

/-- The in-frame test does not change the bearing. -/
lemma inFrame_nor {e : ImgPixel.Env} {pyr : List Level} {c c' : FC} {wb b : Bool} (h : ImgPixel.inFrame e pyr c wb = some (c', b))
    (hv : c.validNor = true) : c'.nor = c.nor ∧ c'.validNor = true ∧ c'.cam = c.cam := by
  unfold ImgPixel.inFrame MLP.isMultilevelPatchInFrame at h
  split_ifs at h
  · simp only [Option.some.injEq, Prod.mk.injEq] at h
    rw [← h.1]; exact ⟨rfl, hv, rfl⟩
  simp only [Option.bind_eq_bind, Option.pure_def] at h
  obtain ⟨⟨c1, b1⟩, h1, h2⟩ := Option.bind_eq_some_iff.mp h
  have k1 : c1.nor = c.nor ∧ c1.validNor = true ∧ c1.cam = c.cam :=
    ⟨((FC.comWarpC_spec h1).1 hv).1, ((FC.comWarpC_spec h1).1 hv).2, (FC.comWarpC_spec h1).2.1⟩
  dsimp only at h2
  split_ifs at h2
  · simp only [Option.some.injEq, Prod.mk.injEq] at h2
    rw [← h2.1]; exact k1
  obtain ⟨⟨c2, d⟩, h3, h4⟩ := Option.bind_eq_some_iff.mp h2
  have k2 : c2.nor = c.nor ∧ c2.validNor = true ∧ c2.cam = c.cam := by
    unfold levelTransform at h3
    simp only [Option.bind_eq_bind, Option.pure_def] at h3
    obtain ⟨p1, -, h5⟩ := Option.bind_eq_some_iff.mp h3
    obtain ⟨p2, -, h6⟩ := Option.bind_eq_some_iff.mp h5
    obtain ⟨⟨c3, q⟩, h7, h8⟩ := Option.bind_eq_some_iff.mp h6
    have k3 : c3.nor = c.nor ∧ c3.validNor = true ∧ c3.cam = c.cam := by
      obtain ⟨b, hb, -⟩ := FC.getC_spec h7
      obtain ⟨a1, a2, a3, -⟩ := FC.comC_spec hb
      exact ⟨a2.trans k1.1, a3.trans k1.2.1, a1.cam.trans k1.2.2⟩
    dsimp only at h8
    split at h8
    · simp only [Option.some.injEq, Prod.mk.injEq] at h8
      rw [← h8.1]; exact k3
    obtain ⟨⟨c4, b4⟩, h9, h10⟩ := Option.bind_eq_some_iff.mp h8
    have k4 : c4.nor = c.nor ∧ c4.validNor = true ∧ c4.cam = c.cam :=
      ⟨((FC.comWarpC_spec h9).1 k3.2.1).1.trans k3.1, ((FC.comWarpC_spec h9).1 k3.2.1).2, (FC.comWarpC_spec h9).2.1.trans k3.2.2⟩
    dsimp only at h10
    split_ifs at h10
    · obtain ⟨⟨c5, w⟩, h11, h12⟩ := Option.bind_eq_some_iff.mp h10
      simp only [Option.some.injEq, Prod.mk.injEq] at h12
      rw [← h12.1]
      obtain ⟨b, hb, -⟩ := FC.getWarpC_spec h11
      exact ⟨((FC.comWarpC_spec hb).1 k4.2.1).1.trans k4.1, ((FC.comWarpC_spec hb).1 k4.2.1).2, (FC.comWarpC_spec hb).2.1.trans k4.2.2⟩
    · simp only [Option.some.injEq, Prod.mk.injEq] at h10
      rw [← h10.1]; exact k4
  obtain ⟨l, -, h13⟩ := Option.bind_eq_some_iff.mp h4
  obtain ⟨⟨_, r⟩, -, h14⟩ := Option.bind_eq_some_iff.mp h13
  simp only [Option.some.injEq, Prod.mk.injEq] at h14
  rw [← h14.1]; exact k2

/-- What the pixel output does to an increment of the bearing, whatever else has been computed with the coordinates. -/
lemma getJ_nor {x y : FC} (hn : x.nor = y.nor) (hx : x.validNor = true) (hy : y.validNor = true) (hc : x.cam = y.cam) {d p : V2} {ds : Distance.FeatureDistance}
    (h : pixelJac ⟨y, ds⟩ d = some p) : ∃ x' G, x.getJ = some (x', G) ∧ G.mulVec d = p ∧ ∀ d', pixelJac ⟨y, ds⟩ d' = some (G.mulVec d') := by
  unfold pixelJac FC.getJ at h
  unfold pixelJac FC.getJ
  rw [hc]
  cases hcam : y.cam with
  | none => rw [hcam] at h; simp at h
  | some cam =>
    rw [hcam] at h
    simp only [MultiCamera.getNor_of_valid hx, MultiCamera.getNor_of_valid hy, hn, Option.bind_eq_bind, Option.bind_some, Option.pure_def] at h ⊢
    cases hb : cam.b2pJ y.nor with
    | none =>
      rw [hb] at h
      simp only [Option.bind_some, Option.some.injEq] at h
      exact ⟨_, _, rfl, h, fun d' => rfl⟩
    | some v =>
      rw [hb] at h
      simp only [Option.bind_some, Option.some.injEq] at h
      exact ⟨_, _, rfl, h, fun d' => rfl⟩

/-- The bearing rows of the feature Jacobian do not depend on whether the distance is asked for. -/
lemma featureJac_fst {s : State n nCam nPose} {sfv : V3 → Nor} {i : Fin n} {a b : Fin nCam} (h : Usable s i a) (hq : (s.qCM a).IsUnit) (δ : DState n nCam nPose) :
    ∃ J J', s.featureJac sfv true i b δ = some J ∧ s.featureJac sfv false i b δ = some J' ∧ J.1 = J'.1 := by
  by_cases hab : a = b
  · subst hab
    unfold State.featureJac
    simp [h.cam]
  · exact ⟨_, _, featureJac_other h hab hq δ, featureJac_other h hab hq δ, rfl⟩

/-- A quadratic form written out. -/
lemma quad_two {ι : Type} [Fintype ι] [DecidableEq ι] (J : Matrix (Fin 3) ι ℝ) (P : Matrix ι ι ℝ) (G : M2) (e : V2) :
    let S := J * P * J.transpose
    let q := (G.mul ⟨S 0 0, S 0 1, S 1 0, S 1 1⟩).mul G.tr
    e.x * (q.mulVec e).x + e.y * (q.mulVec e).y = alongVariance P (fun k => -(G.mulVec ⟨J 0 k, J 1 k⟩)) e := by
  intro S q
  have hS : ∀ a c, S a c = ∑ u, ∑ v, J a u * P u v * J c v := fun a c => quad_entry J P a c
  simp only [q, alongVariance, M2.mulVec, M2.mul, M2.tr, hS, V2.neg_x, V2.neg_y]
  simp only [Finset.mul_sum, Finset.sum_mul, ← Finset.sum_add_distrib]
  refine Finset.sum_congr rfl fun u _ => Finset.sum_congr rfl fun v _ => ?_
  ring

/-- **C62 for the assembled filter.** The axes along which the image update looks for a feature: they are orthonormal and sorted, and the square of each
length is the variance of the *innovation* along that axis under the covariance of the filter, `D k` being the derivative of the innovation callback along the
`k`-th error. -/
theorem C62_predicted_pixel (F : Full n nCam nPose) (hd : F.base.direct = false) (he : EigenSolver F.eigen) (C : Fin nCam → Camera) (gb : Fin nCam → V2 → Nor)
    (hmc : ∀ b, F.mc.cams b = (C b).toI F.sfv (gb b)) (hs : Spec.SetFromVector F.sfv) (s : FSt n nCam nPose) (hP : IsCov s.cov) (hq : ∀ c, ((here s).qCM c).IsUnit)
    (i : Fin n) (a : Fin nCam) (h : Usable (here s) i a) (hcam : ((here s).fea i).c.cam = some (F.mc.cams a))
    (hw : ((here s).fea i).c.trackWarping = false ∨ ((here s).fea i).c.validWarpNor = true) (hun : Unclamped ((here s).fea i).d.type ((here s).fea i).d.p)
    (m : Mem) (cJ : M2) (counter : ℕ)
    (hfar : a ≠ camAfter counter a → 1e-6 < ((here s).seenFrom i a (camAfter counter a)).norm ∧ InRange F.ty ((here s).seenFrom i a (camAfter counter a)).norm)
    (hVE : a = camAfter counter a ∨ (here s).aux.doVE = false)
    (f₀ : Fea) (hf₀ : (here s).featureOut F.mc F.sfv i (camAfter counter a) (F.outOf m.out) = some f₀) (hfront : 0 < f₀.c.nor.vec.z)
    (hreg : (C (camAfter counter a)).RegularAt ⟨f₀.c.nor.vec.x / f₀.c.nor.vec.z, f₀.c.nor.vec.y / f₀.c.nor.vec.z⟩)
    (meas meas' : FC) (q : V2) (hm : meas.getC = some (meas', q)) (cur : Fin nCam → List Level) (mp : MLP)
    (f : FC) (b : Bool) (ht : F.tested m s i (camAfter counter a) = some (f, b)) :
    let K := F.callbacks m cur mp (some meas) i counter
    ∃ (f' : FC) (c : FC.PixelCov) (D : Ix n nCam nPose → V2), F.pixelCov s i (camAfter counter a) f = some (f', c) ∧
      (∀ k, ∃ y : ℝ → V2, (∀ᶠ t in nhds (0:ℝ), ∃ r', K.innov ((here s).boxPlus ((DState.unit k).scale t)) 0 (m.out, cJ) = some (y t, false, r')) ∧
        HasDerivV2 y (D k) 0) ∧
      0 ≤ c.sigma2 ∧ c.sigma2 ≤ c.sigma1 ∧ c.sigma1 ^ 2 = alongVariance s.cov D c.eigenVector1 ∧ c.sigma2 ^ 2 = alongVariance s.cov D c.eigenVector2 ∧
      c.eigenVector1.x ^ 2 + c.eigenVector1.y ^ 2 = 1 ∧ c.eigenVector2.x ^ 2 + c.eigenVector2.y ^ 2 = 1 ∧
      c.eigenVector1.x * c.eigenVector2.x + c.eigenVector1.y * c.eigenVector2.y = 0 := by
  intro K
  have hv := (featureOut_coords h hf₀).1
  have hc0 : f₀.c.cam = some (F.mc.cams (camAfter counter a)) := by
    by_cases hab : a = camAfter counter a
    · rw [((featureOut_coords h hf₀).2.1 hab).1, hcam, ← hab]
    · exact ((featureOut_coords h hf₀).2.2 hab).1
  -- the coordinates after the in-frame test
  have hf : f.nor = f₀.c.nor ∧ f.validNor = true ∧ f.cam = f₀.c.cam := by
    unfold Full.tested at ht
    have hca : camIdx nCam (s.camID i) = some a := by
      have : s.camID i = a.val := (known_camID _).symm.trans h.cam
      rw [this, camIdx_val]
    simp only [hca, hf₀, Option.bind_eq_bind, Option.bind_some] at ht
    exact inFrame_nor ht hv
  -- the derivatives
  have key : ∀ k : Ix n nCam nPose, ∃ (y : ℝ → V2) (J' : V2 × ℝ) (p : V2),
      (∀ᶠ t in nhds (0:ℝ), ∃ r', K.innov ((here s).boxPlus ((DState.unit k).scale t)) 0 (m.out, cJ) = some (y t, false, r')) ∧ HasDerivV2 y (-p) 0 ∧
      (here s).featureJac F.sfv false i (camAfter counter a) (DState.unit k) = some J' ∧ pixelJac f₀ J'.1 = some p := by
    intro k
    obtain ⟨y, v, h1, h2, h3⟩ := C79_jacobian (here s) F.mc C gb F.sfv hmc hs hq i a h hcam hw hun (F.outOf m.out) counter hfar hVE f₀ hf₀ hfront hreg meas meas' q hm
      cJ (DState.unit k)
    obtain ⟨J, J', h4, h5, h6⟩ := featureJac_fst (sfv := F.sfv) (b := camAfter counter a) h (hq a) (DState.unit k)
    obtain ⟨p, h7, h8⟩ := C79_pixel_covariance (here s) F.mc C gb F.sfv hmc i a h hcam (F.outOf m.out) counter f₀ hf₀ hfront cJ (DState.unit k) J h4
    rw [h8, Option.some.injEq] at h2
    exact ⟨y, J', p, h1.mono fun t ht => innov_eq F hd m cur mp meas i counter _ 0 (m.out, cJ) _ ht, by rw [h2]; exact h3, h5, by rw [← h6]; exact h7⟩
  choose y J' p h1 h2 h3 h4 using key
  obtain ⟨f', G, hG, -, hG'⟩ := getJ_nor (ds := f₀.d) hf.1 hf.2.1 hv hf.2.2 (h4 (.pos 0))
  have hp : ∀ k, p k = G.mulVec (J' k).1 := fun k => by
    have := hG' (J' k).1
    rw [h4 k, Option.some.injEq] at this
    exact this
  have hmat : (here s).featureMat F.sfv i (camAfter counter a) = some fun r k => ![(J' k).1.x, (J' k).1.y, (J' k).2] r := by
    unfold State.featureMat
    rw [dif_pos fun k => by rw [h3 k]; rfl]
    simp only [h3, Option.get_some]
    rfl
  set M : Matrix (Fin 3) (Ix n nCam nPose) ℝ := fun r k => ![(J' k).1.x, (J' k).1.y, (J' k).2] r with hM
  set S := M * s.cov * M.transpose with hS
  set Q := (G.mul ⟨S 0 0, S 0 1, S 1 0, S 1 1⟩).mul G.tr with hQ
  have hcov : F.pixelCov s i (camAfter counter a) f = some (f', FC.setPixelCov (F.eigen Q).1.1 (F.eigen Q).1.2 (F.eigen Q).2.1 (F.eigen Q).2.2) := by
    unfold Full.pixelCov
    simp only [hmat, hG, Option.bind_eq_bind, Option.bind_some, Option.pure_def]
    rfl
  have hsym : S.transpose = S := by
    rw [hS, Matrix.transpose_mul, Matrix.transpose_mul, Matrix.transpose_transpose, hP.symm, Matrix.mul_assoc]
  have hS01 : S 1 0 = S 0 1 := congrFun (congrFun hsym 0) 1
  have hQs : Q.b = Q.c := by
    simp only [hQ, M2.mul, M2.tr, hS01]; ring
  obtain ⟨e0, e1, n0, n1, ho⟩ := he Q hQs
  have hD : ∀ e, e.x * (Q.mulVec e).x + e.y * (Q.mulVec e).y = alongVariance s.cov (fun k => -(p k)) e := by
    intro e
    have := quad_two M s.cov G e
    simp only at this
    rw [this]
    congr 1
    funext k
    rw [hp k]
    rfl
  have hpos : ∀ e : V2, 0 ≤ e.x * (Q.mulVec e).x + e.y * (Q.mulVec e).y := by
    intro e
    rw [hD]
    have := hP.nonneg fun k => e.x * (-(p k)).x + e.y * (-(p k)).y
    simp only [dotProduct, Matrix.mulVec, Finset.mul_sum, ← mul_assoc] at this
    exact this
  have val : ∀ (e : V2) (l : ℝ), Q.mulVec e = l • e → e.x ^ 2 + e.y ^ 2 = 1 → l = e.x * (Q.mulVec e).x + e.y * (Q.mulVec e).y := by
    intro e l h1 h2
    rw [h1]
    simp only [V2.smul_x, V2.smul_y]
    linear_combination (-l) * h2
  have l0 : 0 ≤ (F.eigen Q).1.1 := by rw [val _ _ e0 n0]; exact hpos _
  have l1 : 0 ≤ (F.eigen Q).1.2 := by rw [val _ _ e1 n1]; exact hpos _
  obtain ⟨g1, g2, g3, g4, -⟩ := FC.C62_axes Q _ _ _ _ e0 e1 l0 l1 n0 n1 ho
  set c := FC.setPixelCov (F.eigen Q).1.1 (F.eigen Q).1.2 (F.eigen Q).2.1 (F.eigen Q).2.2 with hc
  have hev : (c.eigenVector1 = (F.eigen Q).2.1 ∧ c.eigenVector2 = (F.eigen Q).2.2) ∨ (c.eigenVector1 = (F.eigen Q).2.2 ∧ c.eigenVector2 = (F.eigen Q).2.1) := by
    rw [hc]; unfold FC.setPixelCov
    dsimp only
    split_ifs
    · exact .inr ⟨rfl, rfl⟩
    · exact .inl ⟨rfl, rfl⟩
  have u1 : c.eigenVector1.x ^ 2 + c.eigenVector1.y ^ 2 = 1 := by
    rcases hev with ⟨a, b⟩ | ⟨a, b⟩ <;> rw [a] <;> assumption
  have u2 : c.eigenVector2.x ^ 2 + c.eigenVector2.y ^ 2 = 1 := by
    rcases hev with ⟨a, b⟩ | ⟨a, b⟩ <;> rw [b] <;> assumption
  have u3 : c.eigenVector1.x * c.eigenVector2.x + c.eigenVector1.y * c.eigenVector2.y = 0 := by
    rcases hev with ⟨a, b⟩ | ⟨a, b⟩ <;> rw [a, b]
    · exact ho
    · linarith
  exact ⟨f', c, fun k => -(p k), hcov, fun k => ⟨y k, h1 k, h2 k⟩, g1, g2, by rw [← hD, ← val _ _ g3 u1], by rw [← hD, ← val _ _ g4 u2], u1, u2, u3⟩

/-- **C70 for the assembled filter.** The image processing reports a match at `x` exactly if the feature is in frame in the previous image and the
alignment in the new image of the camera, started at the predicted pixel with its uncertainty, converges with result `x`. -/
theorem C70_match (F : Full n nCam nPose) (mem : FSt n nCam nPose → Mem) (mem' : ℝ → Slot MLP → Mem) (s : FSt n nCam nPose) (i : Fin n) (c : Fin nCam) (x : FC) :
    (F.env mem mem').align s i c = some x ↔ (F.env mem mem').inPrev s i c = true ∧
      ∃ f f' q o, F.tested (mem s) s i c = some (f, true) ∧ F.pixelCov s i c f = some (f', q) ∧
        Align.align2DAdaptive F.base.p F.base.acfg (mem s).junk (mem s).ex (mem s).tmp F.base.solve (F.imgs s.t c) (s.fsm.slots i).patch f' q.sigma1
          q.eigenVector1 F.base.start F.base.stop F.base.range F.base.coverage F.base.maxUni = some o ∧ o.ok = true ∧ o.c = x := by
  show (F.align (mem s) s i c).getD none = some x ↔ ((F.tested (mem s) s i c).map Prod.snd).getD false = true ∧ _
  unfold Full.align
  cases ht : F.tested (mem s) s i c with
  | none => simp
  | some v =>
    obtain ⟨f, b⟩ := v
    cases b with
    | false => simp
    | true =>
      simp only [Option.bind_eq_bind, Option.bind_some, Option.pure_def, if_true, Option.map_some, Option.getD_some, Option.some.injEq, Prod.mk.injEq, and_true, true_and,
        exists_and_left]
      constructor
      · intro h
        cases hp : F.pixelCov s i c f with
        | none => rw [hp] at h; simp at h
        | some w =>
          obtain ⟨f', q⟩ := w
          rw [hp] at h
          simp only [Option.bind_some] at h
          cases ho : ImgPixel.align (F.pix (mem s)) (F.imgs s.t c) (s.fsm.slots i).patch f' q with
          | none => rw [ho] at h; simp at h
          | some o =>
            rw [ho] at h
            simp only [Option.bind_some, Option.getD_some] at h
            split_ifs at h with hok
            simp only [Option.some.injEq] at h
            exact ⟨f, rfl, f', q, hp, o, ho, hok, h⟩
      · rintro ⟨_, rfl, f', q, hp, o, ho, hok, rfl⟩
        have ho' : ImgPixel.align (F.pix (mem s)) (F.imgs s.t c) (s.fsm.slots i).patch f' q = some o := ho
        rw [hp]
        simp only [Option.bind_some, ho', hok, if_true, Option.getD_some]

/-! ### Concrete cases -/

/-- There are such solvers. -/
lemma eigenSolver_exists : ∃ e, EigenSolver e := by
  have key : ∀ A : M2, ∃ r : (ℝ × ℝ) × V2 × V2, A.b = A.c → A.mulVec r.2.1 = r.1.1 • r.2.1 ∧ A.mulVec r.2.2 = r.1.2 • r.2.2 ∧
      r.2.1.x ^ 2 + r.2.1.y ^ 2 = 1 ∧ r.2.2.x ^ 2 + r.2.2.y ^ 2 = 1 ∧ r.2.1.x * r.2.2.x + r.2.1.y * r.2.2.y = 0 := by
    intro A
    by_cases hb : A.c = 0
    · refine ⟨((A.a, A.d), ⟨1, 0⟩, ⟨0, 1⟩), fun h => ?_⟩
      rw [hb] at h
      refine ⟨?_, ?_, by norm_num, by norm_num, by norm_num⟩ <;> ext <;> simp [M2.mulVec, h, hb]
    · set l := (A.a + A.d) / 2 + Real.sqrt (((A.a - A.d) / 2) ^ 2 + A.c ^ 2) with hl
      have hsq := Real.mul_self_sqrt (add_nonneg (sq_nonneg ((A.a - A.d) / 2)) (sq_nonneg A.c))
      have hch : l ^ 2 - (A.a + A.d) * l + A.a * A.d - A.c ^ 2 = 0 := by rw [hl]; linear_combination hsq
      set v := Real.sqrt (A.c ^ 2 + (l - A.a) ^ 2) with hv
      have hpos : 0 < A.c ^ 2 + (l - A.a) ^ 2 := by positivity
      have hvv : v * v = A.c ^ 2 + (l - A.a) ^ 2 := Real.mul_self_sqrt hpos.le
      have hv0 : v ≠ 0 := (Real.sqrt_pos.mpr hpos).ne'
      have hone : (A.c / v) ^ 2 + ((l - A.a) / v) ^ 2 = 1 := by
        rw [div_pow, div_pow, ← add_div, ← hvv]; field_simp
      refine ⟨((l, A.a + A.d - l), ⟨A.c / v, (l - A.a) / v⟩, ⟨-((l - A.a) / v), A.c / v⟩), fun h => ⟨?_, ?_, hone, ?_, ?_⟩⟩
      · ext <;> simp only [M2.mulVec, h, V2.smul_x, V2.smul_y] <;> field_simp
        · ring
        · linear_combination -hch
      · ext <;> simp only [M2.mulVec, h, V2.smul_x, V2.smul_y] <;> field_simp
        · linear_combination -hch
        · ring
      · simp only; linear_combination hone
      · simp only; ring
  choose e he using key
  exact ⟨e, he⟩

/-- The hypotheses of `C62_predicted_pixel` are met: a feature seen in its own camera, on the sample image, with unit covariance. -/
example (G : Full 1 2 1) (s₀ : FSt 1 2 1) (sfv : V3 → Nor) (hs : Spec.SetFromVector sfv) (m : Mem) (meas : FC) (hm : meas.validC = true) (mp : MLP) :
    ∃ (F : Full 1 2 1) (s : FSt 1 2 1) (f f' : FC) (c : FC.PixelCov), F.tested m s 0 0 = some (f, true) ∧ F.pixelCov s 0 0 f = some (f', c) ∧
      0 ≤ c.sigma2 ∧ c.sigma2 ≤ c.sigma1 := by
  obtain ⟨e, he⟩ := eigenSolver_exists
  let cam := demoCam.toI sfv (fun _ => ⟨Quat.one⟩)
  let F : Full 1 2 1 := { G with base := { G.base with direct := false, p := 2, start := 0, stop := 0 }, mc := demoCams sfv, sfv := sfv, eigen := e }
  let s : FSt 1 2 1 := { s₀ with
    w := { s₀.w with x := { demoState3 sfv with fea := fun _ => ⟨demoPlain cam, ⟨.inverse, 0.5⟩⟩ }, prev := fun _ => demoPyr }
    fsm := { s₀.fsm with slots := fun j => { s₀.fsm.slots j with coord := demoPlain cam } }
    cov := 1 }
  have hU : Usable (here s) 0 0 := ⟨rfl, rfl, Quat.isUnit_one⟩
  have hpl : (demoPlain cam).Plain := ⟨rfl, rfl, rfl⟩
  have ht : F.tested m s 0 0 = some (demoPlain cam, true) := by
    have h1 := inFrame_plain (p := 2) (junk := m.junk) (pyr := demoPyr) (l := 0) rfl rfl hpl false
    have h2 : Patch.PlainIn (⟨6, 6, fun y x => 10 * y + x⟩ : Rovio.Img) (levelPixel 0 0 0 0 (demoPlain cam).c) (halfPatch 2 false) := by
      norm_num [Patch.PlainIn, levelPixel, demoPlain, halfPatch]
    exact h1.trans (by congr 2; exact @decide_eq_true _ (_) h2)
  have hcov : IsCov (1 : Cov 1 2 1) := ⟨Matrix.transpose_one, fun x => by
    rw [Matrix.one_mulVec]; exact Finset.sum_nonneg fun k _ => mul_self_nonneg _⟩
  obtain ⟨f', c, D, h1, -, h3, h4, -⟩ := C62_predicted_pixel F rfl he (fun _ => demoCam) (fun _ _ => ⟨Quat.one⟩) (fun _ => rfl) hs s hcov (fun _ => Quat.isUnit_one) 0 0 hU rfl
    (.inl rfl) (by norm_num [here, s, demoState3, Unclamped, abs_of_pos]) m M2.one 0 (fun h => absurd rfl h) (.inl rfl) ⟨demoPlain cam, ⟨.inverse, 0.5⟩⟩ rfl
    (by norm_num [demoPlain, demoCoord, Nor.vec, Quat.rotate, Quat.one, V3.ez]) trivial meas meas meas.c (by simp [FC.getC, FC.comC, hm]) (fun _ => []) mp (demoPlain cam) true ht
  exact ⟨F, s, _, f', c, ht, h1, h3, h4⟩

end Rovio.ImgFull
