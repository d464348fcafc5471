import Verif.Lemmas.MultiCamera

/-!
# Property C40: moving a feature between cameras keeps the landmark
-/

namespace Rovio

open Distance

namespace MultiCamera

variable {nCam : ℕ}

/-- Specification: the feature with coordinates `c` and distance `d` describes the landmark `P` of the body frame: it is
expressed in an existing camera, its bearing is available and a unit vector, and the point at that distance in that
direction is `P`. -/
def Describes (mc : MultiCamera nCam) (c : FC) (d : FeatureDistance) (P : V3) : Prop :=
  ∃ (a : Fin nCam) (c' : FC) (nor : Nor), c.camID = a.val ∧ c.getNor = some (c', nor) ∧ nor.q.IsUnit ∧
    Spec.bodyPoint (mc.BrBC a) (mc.qCB a) (getDistance d) nor.vec = P

lemma getNor_of_valid {c : FC} (h : c.validNor = true) : c.getNor = some (c, c.nor) := by
  simp [FC.getNor, FC.comNor, h]

lemma transformFeature_other (mc : MultiCamera nCam) (hq : ∀ i, (mc.qCB i).IsUnit) {sfv : V3 → Nor} (hs : Spec.SetFromVector sfv)
    (b : Fin nCam) {c : FC} {d : FeatureDistance} {P : V3} (h : mc.Describes c d P) (hne : c.camID ≠ b.val) (cOut : FC) (dOut : FeatureDistance)
    (hfar : 1e-6 < (P - mc.BrBC b).norm) (hrep : Representable dOut.type (P - mc.BrBC b).norm) :
    ∃ c' d', mc.transformFeature sfv b c d cOut dOut = some (c', d') ∧ c'.camID = b.val ∧ c'.cam = some (mc.cams b) ∧ c'.validNor = true ∧
      c'.validC = false ∧ c'.trackWarping = c.trackWarping ∧ d'.type = dOut.type ∧ getDistance d' = (P - mc.BrBC b).norm ∧
      c'.nor.q.IsUnit ∧ c'.nor.vec = ((mc.qCB b).rotate (P - mc.BrBC b)).normalized ∧
      (c.trackWarping = true → c'.validWarpC = false ∧ c'.validWarpNor = false ∧ c'.isWarpIdentity = false) ∧
      (c.trackWarping = false → c'.warpC = c.warpC ∧ c'.validWarpC = c.validWarpC ∧ c'.warpNor = c.warpNor ∧
        c'.validWarpNor = c.validWarpNor ∧ c'.isWarpIdentity = c.isWarpIdentity) ∧ mc.Describes c' d' P := by
  obtain ⟨a, c₁, nor, hcam, hnor, hu, hP⟩ := h
  have hmoved : mc.moved a b (getDistance d • nor.vec) = (mc.qCB b).rotate (P - mc.BrBC b) := by
    rw [moved_eq mc a b (hq a), ← hP]; rfl
  have hnorm : (mc.moved a b (getDistance d • nor.vec)).norm = (P - mc.BrBC b).norm := by
    rw [hmoved, Quat.norm_rotate (hq b)]
  obtain ⟨d', hd', ht', hg'⟩ := C01_roundtrip dOut _ hrep
  -- the cached input keeps its other members
  have hkeep : c₁.trackWarping = c.trackWarping ∧ c₁.warpC = c.warpC ∧ c₁.validWarpC = c.validWarpC ∧ c₁.warpNor = c.warpNor ∧
      c₁.validWarpNor = c.validWarpNor ∧ c₁.isWarpIdentity = c.isWarpIdentity := by
    unfold FC.getNor FC.comNor at hnor
    by_cases hv : c.validNor = true
    · simp only [hv, if_true, Option.bind_eq_bind, Option.bind_some, Option.pure_def, Option.some.injEq, Prod.mk.injEq] at hnor
      rw [← hnor.1]; simp
    · simp only [hv, Bool.false_eq_true, if_false] at hnor
      cases hc : c.cam with
      | none => simp [hc] at hnor
      | some cam =>
        simp only [hc] at hnor
        by_cases hv2 : c.validC = true
        · simp only [hv2, if_true, Option.bind_eq_bind, Option.bind_some, Option.pure_def, Option.some.injEq, Prod.mk.injEq] at hnor
          rw [← hnor.1]; simp
        · simp only [hv2, Bool.false_eq_true, if_false, Option.bind_eq_bind, Option.bind_some, Option.pure_def, Option.some.injEq, Prod.mk.injEq] at hnor
          rw [← hnor.1]; simp
  obtain ⟨k1, k2, k3, k4, k5, k6⟩ := hkeep
  have hne0 : (mc.qCB b).rotate (P - mc.BrBC b) ≠ 0 := by
    intro e
    have := congrArg V3.norm e
    rw [Quat.norm_rotate (hq b), V3.norm_zero] at this
    rw [this] at hfar; norm_num at hfar
  have hvec : (sfv (mc.moved a b (getDistance d • nor.vec))).vec = ((mc.qCB b).rotate (P - mc.BrBC b)).normalized := by
    rw [hmoved]
    exact hs.vec _ (by rwa [Quat.norm_rotate (hq b)])
  have hbody : Spec.bodyPoint (mc.BrBC b) (mc.qCB b) (getDistance d') ((mc.qCB b).rotate (P - mc.BrBC b)).normalized = P := by
    unfold Spec.bodyPoint
    rw [hg', ← Quat.norm_rotate (hq b) (P - mc.BrBC b), V3.norm_smul_normalized hne0, Quat.rotate_inv_rotate (hq b)]
    ext <;> simp
  unfold transformFeature
  rw [if_pos hne, hcam, camIdx_val]
  simp only [Option.bind_eq_bind, Option.bind_some, Option.pure_def, hnor, hnorm, hd']
  refine ⟨_, _, rfl, ?_⟩
  by_cases htw : c₁.trackWarping = true
  · have htw' : c.trackWarping = true := by rw [← k1]; exact htw
    simp only [htw, htw', if_true]
    refine ⟨trivial, trivial, trivial, trivial, trivial, ht', hg', hs.unit _, hvec, fun _ => ⟨trivial, trivial, trivial⟩, fun h => absurd h (by simp),
      b, _, _, rfl, getNor_of_valid rfl, hs.unit _, ?_⟩
    simp only [hvec]; exact hbody
  · have htw' : ¬ c.trackWarping = true := by rw [← k1]; exact htw
    simp only [htw, htw', Bool.false_eq_true, if_false]
    refine ⟨trivial, trivial, trivial, trivial, by simp, ht', hg', hs.unit _, hvec, fun h => by simp_all,
      fun _ => ⟨k2, k3, k4, k5, k6⟩, b, _, _, rfl, getNor_of_valid rfl, hs.unit _, ?_⟩
    simp only [hvec]; exact hbody

/-- C40: whatever camera a landmark is expressed in, transforming it to camera `b` gives a feature of camera `b` describing the
same landmark of the body frame. -/
theorem C40_same_point (mc : MultiCamera nCam) (hq : ∀ i, (mc.qCB i).IsUnit) (sfv : V3 → Nor) (hs : Spec.SetFromVector sfv)
    (b : Fin nCam) (c : FC) (d : FeatureDistance) (P : V3) (h : mc.Describes c d P) (cOut : FC) (dOut : FeatureDistance)
    (hfar : 1e-6 < (P - mc.BrBC b).norm) (hrep : Representable dOut.type (P - mc.BrBC b).norm) :
    ∃ c' d', mc.transformFeature sfv b c d cOut dOut = some (c', d') ∧ c'.camID = b.val ∧ mc.Describes c' d' P := by
  by_cases hne : c.camID = b.val
  · refine ⟨c, d, ?_, hne, h⟩
    unfold transformFeature
    rw [if_neg (not_not.mpr hne)]
  · obtain ⟨c', d', e, h1, h2⟩ := mc.transformFeature_other hq hs b h hne cOut dOut hfar hrep
    exact ⟨c', d', e, h1, h2.2.2.2.2.2.2.2.2.2.2⟩

/-- A landmark in front of a camera determines distance and direction there. -/
lemma Describes.unique {mc : MultiCamera nCam} (hq : ∀ i, (mc.qCB i).IsUnit) {c c' : FC} {d d' : FeatureDistance} {P : V3}
    (h : mc.Describes c d P) (h' : mc.Describes c' d' P) (hc : c.camID = c'.camID) (hd : 0 < getDistance d) (hd' : 0 < getDistance d') :
    getDistance d = getDistance d' ∧ ∃ m m' n n', c.getNor = some (m, n) ∧ c'.getNor = some (m', n') ∧ n.vec = n'.vec := by
  obtain ⟨a, m, n, h1, h2, h3, h4⟩ := h
  obtain ⟨a', m', n', h1', h2', h3', h4'⟩ := h'
  have : a = a' := by
    apply Fin.ext
    have := h1.symm.trans (hc.trans h1')
    exact_mod_cast this
  subst this
  obtain ⟨e1, e2⟩ := bodyPoint_inj (hq a) (Nor.norm_vec h3) (Nor.norm_vec h3') hd hd' (h4.trans h4'.symm)
  exact ⟨e1, m, m', n, n', h2, h2', e2⟩

lemma Describes.dist {mc : MultiCamera nCam} (hq : ∀ i, (mc.qCB i).IsUnit) {c : FC} {d : FeatureDistance} {P : V3} (h : mc.Describes c d P)
    {a : Fin nCam} (ha : c.camID = a.val) : (P - mc.BrBC a).norm = |getDistance d| := by
  obtain ⟨a', m, n, h1, h2, h3, h4⟩ := h
  have : a = a' := by
    apply Fin.ext
    have := ha.symm.trans h1
    exact_mod_cast this
  subst this
  rw [← h4]
  exact norm_sub_bodyPoint (hq a) (Nor.norm_vec h3)

/-- C40: the distance in another camera is the distance of the landmark from that camera's centre, so it is positive unless the
landmark is at the centre; the new bearing points from that centre to the landmark and the pixel is left to be computed by
the destination camera. -/
theorem C40_distance (mc : MultiCamera nCam) (hq : ∀ i, (mc.qCB i).IsUnit) (sfv : V3 → Nor) (hs : Spec.SetFromVector sfv)
    (b : Fin nCam) (c : FC) (d : FeatureDistance) (P : V3) (h : mc.Describes c d P) (hne : c.camID ≠ b.val) (cOut : FC) (dOut : FeatureDistance)
    (hfar : 1e-6 < (P - mc.BrBC b).norm) (hrep : Representable dOut.type (P - mc.BrBC b).norm) :
    ∃ c' d', mc.transformFeature sfv b c d cOut dOut = some (c', d') ∧ getDistance d' = (P - mc.BrBC b).norm ∧ 0 < getDistance d' ∧
      c'.nor.vec = ((mc.qCB b).rotate (P - mc.BrBC b)).normalized ∧
      c'.comC = some (match (mc.cams b).b2p c'.nor with
        | some x => ({ c' with c := x, validC := true }, true)
        | none => (c', false)) := by
  obtain ⟨c', d', e, h1, h2, h3, h4, h5, h6, h7, h8, h9, _⟩ := mc.transformFeature_other hq hs b h hne cOut dOut hfar hrep
  refine ⟨c', d', e, h7, ?_, h9, ?_⟩
  · rw [h7]; exact lt_trans (by norm_num) hfar
  · unfold FC.comC
    simp only [h4, h2, h3, Bool.false_eq_true, if_false, if_true]
    cases (mc.cams b).b2p c'.nor <;> rfl

/-- C40: to another camera and back is the identity on distance and bearing. -/
theorem C40_there_and_back (mc : MultiCamera nCam) (hq : ∀ i, (mc.qCB i).IsUnit) (sfv : V3 → Nor) (hs : Spec.SetFromVector sfv)
    (a b : Fin nCam) (c : FC) (d : FeatureDistance) (P : V3) (h : mc.Describes c d P) (ha : c.camID = a.val)
    (hd : 1e-6 < getDistance d) (o₁ o₂ : FC) (e₁ e₂ : FeatureDistance) (hfar : 1e-6 < (P - mc.BrBC b).norm)
    (hr₁ : Representable e₁.type (P - mc.BrBC b).norm) (hr₂ : Representable e₂.type (getDistance d)) :
    ∃ c₁ d₁ c₂ d₂, mc.transformFeature sfv b c d o₁ e₁ = some (c₁, d₁) ∧ mc.transformFeature sfv a c₁ d₁ o₂ e₂ = some (c₂, d₂) ∧
      c₂.camID = c.camID ∧ getDistance d₂ = getDistance d ∧
      ∃ m m' n n', c.getNor = some (m, n) ∧ c₂.getNor = some (m', n') ∧ n'.vec = n.vec := by
  have hd0 : 0 < getDistance d := lt_trans (by norm_num) hd
  have hda : (P - mc.BrBC a).norm = getDistance d := by rw [h.dist hq ha, abs_of_pos hd0]
  obtain ⟨c₁, d₁, E₁, hc₁, D₁⟩ := C40_same_point mc hq sfv hs b c d P h o₁ e₁ hfar hr₁
  by_cases hab : a = b
  · subst hab
    have E : mc.transformFeature sfv a c d o₁ e₁ = some (c, d) := by
      unfold transformFeature; rw [if_neg (not_not.mpr ha)]
    have E' : mc.transformFeature sfv a c d o₂ e₂ = some (c, d) := by
      unfold transformFeature; rw [if_neg (not_not.mpr ha)]
    obtain ⟨_, m, n, _, hn, _, _⟩ := h
    exact ⟨c, d, c, d, E, E', rfl, rfl, m, m, n, n, hn, hn, rfl⟩
  · have hne : c₁.camID ≠ a.val := by
      rw [hc₁]; intro e; exact hab (Fin.ext (by exact_mod_cast e.symm))
    obtain ⟨c₂, d₂, E₂, hc₂, _, _, _, _, _, hg, _, _, _, _, D₂⟩ :=
      mc.transformFeature_other hq hs a D₁ hne o₂ e₂ (by rw [hda]; exact hd) (by rw [hda]; exact hr₂)
    have hg2 : getDistance d₂ = getDistance d := by rw [hg, hda]
    obtain ⟨_, m, m', n, n', g1, g2, g3⟩ := h.unique hq D₂ (by rw [ha, hc₂]) hd0 (by rw [hg2]; exact hd0)
    exact ⟨c₁, d₁, c₂, d₂, E₁, E₂, by rw [hc₂, ha], hg2, m, m', n, n', g1, g2, g3.symm⟩

/-- C40: going via a third camera gives the same distance and bearing as going directly. -/
theorem C40_via_third (mc : MultiCamera nCam) (hq : ∀ i, (mc.qCB i).IsUnit) (sfv : V3 → Nor) (hs : Spec.SetFromVector sfv)
    (b k : Fin nCam) (c : FC) (d : FeatureDistance) (P : V3) (h : mc.Describes c d P) (hb : c.camID ≠ b.val) (hk : k ≠ b)
    (o₁ o₂ o₃ : FC) (e₁ e₂ e₃ : FeatureDistance) (hfar : 1e-6 < (P - mc.BrBC b).norm) (hfk : 1e-6 < (P - mc.BrBC k).norm)
    (hr₁ : Representable e₁.type (P - mc.BrBC k).norm) (hr₂ : Representable e₂.type (P - mc.BrBC b).norm)
    (hr₃ : Representable e₃.type (P - mc.BrBC b).norm) :
    ∃ c₁ d₁ c₂ d₂ c₃ d₃, mc.transformFeature sfv k c d o₁ e₁ = some (c₁, d₁) ∧ mc.transformFeature sfv b c₁ d₁ o₂ e₂ = some (c₂, d₂) ∧
      mc.transformFeature sfv b c d o₃ e₃ = some (c₃, d₃) ∧ c₂.camID = c₃.camID ∧ getDistance d₂ = getDistance d₃ ∧ c₂.nor.vec = c₃.nor.vec := by
  obtain ⟨c₁, d₁, E₁, hc₁, D₁⟩ := C40_same_point mc hq sfv hs k c d P h o₁ e₁ hfk hr₁
  have hne : c₁.camID ≠ b.val := by
    rw [hc₁]; intro e; exact hk (Fin.ext (by exact_mod_cast e))
  obtain ⟨c₂, d₂, E₂, hc₂, _, _, _, _, _, hg₂, _, hv₂, _⟩ := mc.transformFeature_other hq hs b D₁ hne o₂ e₂ hfar hr₂
  obtain ⟨c₃, d₃, E₃, hc₃, _, _, _, _, _, hg₃, _, hv₃, _⟩ := mc.transformFeature_other hq hs b h hb o₃ e₃ hfar hr₃
  exact ⟨c₁, d₁, c₂, d₂, c₃, d₃, E₁, E₂, E₃, by rw [hc₂, hc₃], by rw [hg₂, hg₃], by rw [hv₂, hv₃]⟩

/-- C40 (finding): the parametrisation of the result depends on the cameras: another camera keeps the type of the object
written to, the same camera copies the type of the input. -/
theorem C40_parametrisation (mc : MultiCamera nCam) (sfv : V3 → Nor) (b : Fin nCam) (c cOut c' : FC) (d dOut d' : FeatureDistance)
    (h : mc.transformFeature sfv b c d cOut dOut = some (c', d')) : d'.type = if c.camID = b.val then d.type else dOut.type := by
  unfold transformFeature at h
  by_cases hne : c.camID = b.val
  · rw [if_neg (not_not.mpr hne)] at h
    simp only [Option.some.injEq, Prod.mk.injEq] at h
    rw [if_pos hne, h.2]
  · rw [if_pos hne] at h
    rw [if_neg hne]
    cases ha : camIdx nCam c.camID with
    | none => simp [ha] at h
    | some a =>
      cases hn : c.getNor with
      | none => simp [ha, hn] at h
      | some r =>
        obtain ⟨c₁, n⟩ := r
        simp only [ha, hn, Option.bind_eq_bind, Option.bind_some, Option.pure_def] at h
        cases hd : setParameter dOut (mc.moved a b (getDistance d • n.vec)).norm with
        | none => simp [hd] at h
        | some d₁ =>
          simp only [hd, Option.bind_some, Option.some.injEq, Prod.mk.injEq] at h
          rw [← h.2]
          obtain ⟨t, p⟩ := dOut
          cases t <;> simp only [setParameter, Option.some.injEq] at hd
          · rw [← hd]
          · rw [← hd]
          · split at hd
            · simp only [Option.some.injEq] at hd; rw [← hd]
            · cases hd
          · rw [← hd]

/-- C40: a tracked warp does not survive the transformation to another camera (no warp is available afterwards), whereas an
untracked one is copied although it refers to the other camera (finding). -/
theorem C40_warp (mc : MultiCamera nCam) (hq : ∀ i, (mc.qCB i).IsUnit) (sfv : V3 → Nor) (hs : Spec.SetFromVector sfv)
    (b : Fin nCam) (c : FC) (d : FeatureDistance) (P : V3) (h : mc.Describes c d P) (hne : c.camID ≠ b.val) (cOut : FC) (dOut : FeatureDistance)
    (hfar : 1e-6 < (P - mc.BrBC b).norm) (hrep : Representable dOut.type (P - mc.BrBC b).norm) :
    ∃ c' d', mc.transformFeature sfv b c d cOut dOut = some (c', d') ∧ c'.trackWarping = c.trackWarping ∧
      (c.trackWarping = true → c'.comWarpC = some (c', false) ∧ c'.comWarpNor = some (c', false)) ∧
      (c.trackWarping = false → c'.warpC = c.warpC ∧ c'.validWarpC = c.validWarpC ∧ c'.warpNor = c.warpNor ∧
        c'.validWarpNor = c.validWarpNor ∧ c'.isWarpIdentity = c.isWarpIdentity) := by
  obtain ⟨c', d', e, h1, h2, h3, h4, h5, h6, h7, h8, h9, h10, h11, _⟩ := mc.transformFeature_other hq hs b h hne cOut dOut hfar hrep
  refine ⟨c', d', e, h5, fun ht => ?_, h11⟩
  obtain ⟨w1, w2, w3⟩ := h10 ht
  constructor
  · unfold FC.comWarpC; simp [w1, w2]
  · unfold FC.comWarpNor; simp [w1, w2]

end MultiCamera

/-! ### Non-vacuity -/

/-- A stereo rig with a rotated second camera at a baseline of half a metre. -/
noncomputable def demoRig (cam : CamI) : MultiCamera 2 where
  BrBC := fun i => if i = 0 then ⟨0, 0, 0⟩ else ⟨0.5, 0, 0⟩
  qCB := fun i => if i = 0 then Quat.one else ⟨0.6, 0, 0.8, 0⟩
  cams := fun _ => cam

lemma demoRig_unit (cam : CamI) : ∀ i, ((demoRig cam).qCB i).IsUnit := by
  intro i
  fin_cases i
  · simpa [demoRig] using Quat.isUnit_one
  · simp [demoRig, Quat.IsUnit, Quat.normSq]; norm_num

/-- A feature of camera 0 straight ahead at distance 2 in inverse parametrisation. -/
noncomputable def demoFea (base : FC) : FC × Distance.FeatureDistance :=
  ({ base with camID := 0, nor := ⟨Quat.one⟩, validNor := true }, ⟨.inverse, 0.5⟩)

lemma demoFea_describes (cam : CamI) (base : FC) : (demoRig cam).Describes (demoFea base).1 (demoFea base).2 ⟨0, 0, 2⟩ := by
  refine ⟨0, _, ⟨Quat.one⟩, by simp [demoFea], by simp [demoFea, FC.getNor, FC.comNor]; rfl, Quat.isUnit_one, ?_⟩
  have hd : Distance.getDistance (⟨.inverse, 0.5⟩ : Distance.FeatureDistance) = 2 := by
    norm_num [Distance.getDistance, Distance.makeNonZero]
  simp only [demoFea, hd]
  ext <;> simp [Spec.bodyPoint, demoRig, Nor.vec, V3.ez, Quat.rotate]

/-- Non-vacuity of the theorems of C40: a stereo rig and a landmark two metres ahead. -/
example (cam : CamI) (base : FC) : ∃ sfv : V3 → Nor, ∃ c' d', (demoRig cam).transformFeature sfv 1 (demoFea base).1 (demoFea base).2 base
    ⟨.inverse, 1⟩ = some (c', d') ∧ c'.camID = 1 ∧ (demoRig cam).Describes c' d' ⟨0, 0, 2⟩ := by
  obtain ⟨sfv, hs⟩ := exists_setFromVector
  have hn : ((⟨0, 0, 2⟩ : V3) - (demoRig cam).BrBC 1).norm = Real.sqrt 4.25 := by
    simp [demoRig, V3.norm, V3.normSq]; norm_num
  have h1 : (1 : ℝ) ≤ Real.sqrt 4.25 := by rw [Real.one_le_sqrt]; norm_num
  have h2 : Real.sqrt 4.25 ≤ 1e6 := by rw [Real.sqrt_le_iff]; norm_num
  refine ⟨sfv, MultiCamera.C40_same_point _ (demoRig_unit cam) sfv hs 1 _ _ _ (demoFea_describes cam base) base ⟨.inverse, 1⟩ ?_ ?_⟩
  · rw [hn]; linarith [show (1e-6 : ℝ) < 1 by norm_num]
  · rw [hn]
    refine ⟨?_, ?_⟩
    · rw [abs_of_pos (by linarith)]; linarith [show (1e-6 : ℝ) < 1 by norm_num]
    · rw [abs_of_pos (by linarith)]; exact h2

end Rovio
