import Verif.Props.Patch
import Verif.Lemmas.PatchScore

/-!
# Properties of the corner score and of the patch difference (C27, C28)
-/

namespace Rovio

open Finset

/-- Mean of `f` over a `p × p` patch. -/
noncomputable def patchMean (p : ℕ) (f : ℕ → ℕ → ℝ) : ℝ := Spec.patchSum p f / (p * p)

/-- The mean gradient tensor entries `(xx, yy, xy)` of an expanded patch. -/
noncomputable def tXX (p : ℕ) (b : ℕ → ℝ) : ℝ := patchMean p fun y x => Spec.gx p b y x * Spec.gx p b y x
/-- See `tXX`. -/
noncomputable def tYY (p : ℕ) (b : ℕ → ℝ) : ℝ := patchMean p fun y x => Spec.gy p b y x * Spec.gy p b y x
/-- See `tXX`. -/
noncomputable def tXY (p : ℕ) (b : ℕ → ℝ) : ℝ := patchMean p fun y x => Spec.gx p b y x * Spec.gy p b y x

lemma psd_mean (p : ℕ) (b : ℕ → ℝ) : PSD (tXX p b) (tYY p b) (tXY p b) := by
  have := PSD.smul (k := 1 / ((p : ℝ) * p)) (by positivity) (Patch.psd_patch p b)
  have e : ∀ z : ℝ, 1 / ((p : ℝ) * p) * z = z / (p * p) := fun z => by ring
  simp only [e] at this
  exact this

/-- Patches a program can hold: constructed, then any sequence of extractions from images and of
score/gradient queries. -/
inductive Patch.Reach (p : ℕ) : Patch → Prop
  | construct (junk : Patch) : Patch.Reach p (Patch.construct junk)
  | query {s : Patch} : Patch.Reach p s → Patch.Reach p (s.computeGradientParameters p)
  | extract {s new : Patch} {img : Img} {c c' : FC} {wb : Bool} : Patch.Reach p s →
      Patch.extractPatchFromImage p s img c wb = some (c', new) → Patch.Reach p new

lemma extract_shape {p : ℕ} {old new : Patch} {img : Img} {c c' : FC} {wb : Bool}
    (h : Patch.extractPatchFromImage p old img c wb = some (c', new)) :
    new.validGradient = false ∧ (wb = false → new.border = old.border) := by
  unfold Patch.extractPatchFromImage at h
  cases hn : c.isNearIdentityWarping with
  | none => simp [hn] at h
  | some r =>
    obtain ⟨c1, near⟩ := r
    simp only [hn, Option.bind_eq_bind, Option.bind_some, Option.pure_def] at h
    generalize (if near = true then _ else _ : Option (FC × (ℕ → ℕ → ℝ))) = o at h
    cases o with
    | none => simp at h
    | some g =>
      simp only [Option.bind_some, Option.some.injEq, Prod.mk.injEq] at h
      rw [← h.2]
      refine ⟨rfl, fun hw => ?_⟩
      subst hw
      rfl

/-- What a cached patch stores. -/
structure Patch.Fresh (p : ℕ) (s : Patch) : Prop where
  H : s.H = Patch.sumOuter (Patch.gradList p s.border)
  dx : ∀ y < p, ∀ x < p, Spec.cell p s.dx y x = Spec.gx p s.border y x
  dy : ∀ y < p, ∀ x < p, Spec.cell p s.dy y x = Spec.gy p s.border y x
  eig : Spec.Eigenvalues (tXX p s.border) (tYY p s.border) (tXY p s.border) s.e0 s.e1
  score : s.s = s.e0 + s.e1

lemma compute_fresh {p : ℕ} {s : Patch} (h : s.validGradient = false) : Patch.Fresh p (s.computeGradientParameters p) ∧
    (s.computeGradientParameters p).border = s.border ∧ (s.computeGradientParameters p).patch = s.patch ∧ (s.computeGradientParameters p).validGradient = true := by
  have ix : ∀ y < p, ∀ x < p, y * p + x < p * p ∧ (y * p + x) / p = y ∧ (y * p + x) % p = x := by
    intro y hy x hx
    refine ⟨?_, ?_, ?_⟩
    · calc y * p + x < y * p + p := by omega
        _ = (y + 1) * p := by ring
        _ ≤ p * p := Nat.mul_le_mul_right _ hy
    · rw [mul_comm, Nat.mul_add_div (by omega), Nat.div_eq_of_lt hx, add_zero]
    · rw [mul_comm, Nat.mul_add_mod, Nat.mod_eq_of_lt hx]
  obtain ⟨k1, k2, k3⟩ := Patch.sumOuter_grad p s.border
  unfold Patch.computeGradientParameters
  rw [if_neg (by simp [h])]
  refine ⟨⟨rfl, ?_, ?_, ?_, rfl⟩, rfl, rfl, rfl⟩
  · intro y hy x hx
    obtain ⟨i1, i2, i3⟩ := ix y hy x hx
    simp only [Spec.cell, i1, i2, i3, if_true, Patch.gradAt_x]
  · intro y hy x hx
    obtain ⟨i1, i2, i3⟩ := ix y hy x hx
    simp only [Spec.cell, i1, i2, i3, if_true, Patch.gradAt_y]
  · simp only [k1, k2, k3]
    exact (psd_mean p s.border).eigen

lemma reach_fresh {p : ℕ} {s : Patch} (h : Patch.Reach p s) : s.validGradient = true → Patch.Fresh p s := by
  induction h with
  | construct junk => intro hv; exact absurd hv (by simp [Patch.construct])
  | @query s _ ih =>
    intro _
    by_cases hv : s.validGradient = true
    · have : s.computeGradientParameters p = s := by unfold Patch.computeGradientParameters; rw [if_pos hv]
      rw [this]; exact ih hv
    · exact (compute_fresh (by simpa using hv)).1
  | extract _ he _ => intro hv; rw [(extract_shape he).1] at hv; exact absurd hv (by simp)

/-- C27: whatever happened to a patch before, a query leaves the pixels alone and stores and returns
the central-difference gradients of the current expanded patch, the two eigenvalues `0 ≤ e0 ≤ e1` of
its mean gradient tensor, and their sum as score. -/
theorem C27_score {p : ℕ} {s : Patch} (h : Patch.Reach p s) :
    let r := (s.getScore p).1
    r.border = s.border ∧ r.patch = s.patch ∧
    (∀ y < p, ∀ x < p, Spec.cell p r.dx y x = Spec.gx p s.border y x ∧ Spec.cell p r.dy y x = Spec.gy p s.border y x) ∧
    Spec.Eigenvalues (tXX p s.border) (tYY p s.border) (tXY p s.border) r.e0 r.e1 ∧
    (s.getScore p).2 = r.e0 + r.e1 ∧ (s.getScore p).2 = tXX p s.border + tYY p s.border := by
  simp only [Patch.getScore]
  by_cases hv : s.validGradient = true
  · have e : s.computeGradientParameters p = s := by unfold Patch.computeGradientParameters; rw [if_pos hv]
    have f := reach_fresh h hv
    rw [e]
    exact ⟨rfl, rfl, fun y hy x hx => ⟨f.dx y hy x hx, f.dy y hy x hx⟩, f.eig, f.score, by rw [f.score, f.eig.trace]⟩
  · obtain ⟨f, hb, hp, _⟩ := compute_fresh (p := p) (by simpa using hv : s.validGradient = false)
    refine ⟨hb, hp, fun y hy x hx => ?_, ?_, f.score, ?_⟩
    · rw [← hb]; exact ⟨f.dx y hy x hx, f.dy y hy x hx⟩
    · rw [← hb]; exact f.eig
    · rw [f.score, f.eig.trace, hb]

/-- C27: the score is never negative, and zero exactly if all gradients of the patch vanish. -/
theorem C27_zero_iff_flat {p : ℕ} (hp : 1 ≤ p) {s : Patch} (h : Patch.Reach p s) :
    0 ≤ (s.getScore p).2 ∧
    ((s.getScore p).2 = 0 ↔ ∀ y < p, ∀ x < p, Spec.gx p s.border y x = 0 ∧ Spec.gy p s.border y x = 0) := by
  obtain ⟨_, _, _, _, _, hs⟩ := C27_score h
  rw [hs]
  have hpp : (0 : ℝ) < (p : ℝ) * p := by
    have : (0 : ℝ) < p := by exact_mod_cast hp
    positivity
  have a0 := (psd_mean p s.border).a_nonneg
  have b0 := (psd_mean p s.border).b_nonneg
  refine ⟨by linarith, ?_⟩
  have zx : tXX p s.border = 0 ↔ ∀ y < p, ∀ x < p, Spec.gx p s.border y x = 0 := by
    unfold tXX patchMean
    rw [div_eq_zero_iff, Patch.patchSum_sq_eq_zero]
    simp [hpp.ne']
  have zy : tYY p s.border = 0 ↔ ∀ y < p, ∀ x < p, Spec.gy p s.border y x = 0 := by
    unfold tYY patchMean
    rw [div_eq_zero_iff, Patch.patchSum_sq_eq_zero]
    simp [hpp.ne']
  constructor
  · intro h0
    have hx : tXX p s.border = 0 := by linarith
    have hy : tYY p s.border = 0 := by linarith
    exact fun y hy' x hx' => ⟨zx.mp hx y hy' x hx', zy.mp hy y hy' x hx'⟩
  · intro h0
    rw [zx.mpr fun y hy x hx => (h0 y hy x hx).1, zy.mpr fun y hy x hx => (h0 y hy x hx).2, add_zero]

/-- A reachable patch with a non-zero score: a 2 × 2 patch of a ramp. -/
example (junk : FC) (jp : Patch) : ∃ new, Patch.Reach 2 new ∧ (new.getScore 2).2 = 101 := by
  have hs : (FC.constructPixel junk ⟨3, 3⟩).Settled := ⟨rfl, rfl⟩
  have hin : Patch.InP 2 ⟨6, 6, fun y x => 10 * y + x⟩ (FC.constructPixel junk ⟨3, 3⟩) true := by
    unfold Patch.InP
    have : (FC.constructPixel junk ⟨3, 3⟩).nearB = true := rfl
    rw [this, if_pos rfl]
    simp only [Patch.PlainIn, FC.constructPixel, halfPatch]
    norm_num
  obtain ⟨new, hnew⟩ := Patch.extract_total (old := Patch.construct jp) hs (by norm_num) (by norm_num) hin
  have hr : Patch.Reach 2 new := .extract (.construct jp) hnew
  refine ⟨new, hr, ?_⟩
  obtain ⟨_, _, _, _, _, h6⟩ := C27_score hr
  rw [h6]
  have hw : usedWarp (FC.constructPixel junk ⟨3, 3⟩) = M2.one := by
    unfold usedWarp; rw [if_pos]; left; rfl
  have val : ∀ y < 4, ∀ x < 4, Spec.cell (2 + 2) new.border y x = 10 * ((y : ℝ) + 1) + (x + 1) := by
    intro y hy x hx
    have := C26_affine (k := 0) (a := 1) (b := 10) rfl rfl hnew (y := y) (x := x) hy hx (fun v _ u _ => by push_cast; ring)
    have e : (2 * halfPatch 2 true) = 2 + 2 := rfl
    rw [e, hw] at this
    rw [show new.border = written true new from rfl, this]
    simp only [samplePos, FC.constructPixel, M2.mulVec, M2.one, halfPatch]
    simp
    ring
  have gxv : ∀ y < 2, ∀ x < 2, Spec.gx 2 new.border y x = 1 := by
    intro y hy x hx
    unfold Spec.gx
    rw [val _ (by omega) _ (by omega), val _ (by omega) _ (by omega)]; push_cast; ring
  have gyv : ∀ y < 2, ∀ x < 2, Spec.gy 2 new.border y x = 10 := by
    intro y hy x hx
    unfold Spec.gy
    rw [val _ (by omega) _ (by omega), val _ (by omega) _ (by omega)]; push_cast; ring
  unfold tXX tYY patchMean Spec.patchSum
  have sx : ∑ y ∈ range 2, ∑ x ∈ range 2, Spec.gx 2 new.border y x * Spec.gx 2 new.border y x = 4 := by
    rw [Finset.sum_congr rfl fun y hy => Finset.sum_congr rfl fun x hx => by
      rw [gxv y (Finset.mem_range.mp hy) x (Finset.mem_range.mp hx)]]
    norm_num
  have sy : ∑ y ∈ range 2, ∑ x ∈ range 2, Spec.gy 2 new.border y x * Spec.gy 2 new.border y x = 400 := by
    rw [Finset.sum_congr rfl fun y hy => Finset.sum_congr rfl fun x hx => by
      rw [gyv y (Finset.mem_range.mp hy) x (Finset.mem_range.mp hx)]]
    norm_num
  rw [sx, sy]
  norm_num

/-- C27 (finding): after an extraction without border the score still describes the *previous*
expanded patch: two extractions without border from different places of different images leave the
same score. -/
theorem C27_finding_stale_border {p : ℕ} {s n1 n2 : Patch} {img1 img2 : Img} {c1 c2 c1' c2' : FC} (h : Patch.Reach p s)
    (h1 : Patch.extractPatchFromImage p s img1 c1 false = some (c1', n1))
    (h2 : Patch.extractPatchFromImage p s img2 c2 false = some (c2', n2)) :
    (n1.getScore p).2 = (n2.getScore p).2 ∧ (n1.getScore p).2 = (s.getScore p).2 := by
  obtain ⟨_, _, _, _, _, k0⟩ := C27_score h
  obtain ⟨_, _, _, _, _, k1⟩ := C27_score (.extract h h1)
  obtain ⟨_, _, _, _, _, k2⟩ := C27_score (.extract h h2)
  rw [k1, k2, k0, (extract_shape h1).2 rfl, (extract_shape h2).2 rfl]
  exact ⟨rfl, rfl⟩

/-! ### Several levels -/

/-- Multilevel patches a program can hold. -/
inductive MLP.Reach (p : ℕ) : MLP → Prop
  | construct (m : MLP) : (∀ i, ∃ junk, m.patches i = Patch.construct junk) → MLP.Reach p m.reset
  | reset {m : MLP} : MLP.Reach p m → MLP.Reach p m.reset
  | score {m : MLP} (l1 l2 : ℕ) : MLP.Reach p m → MLP.Reach p (m.computeMultilevelShiTomasiScore p l1 l2)
  | levelScore {m : MLP} (l : ℕ) : MLP.Reach p m → MLP.Reach p (m.getSpecificLevelScore p l)
  | extract {m m' : MLP} {junk : FC} {pyr : List Level} {c c' : FC} {l : ℕ} {wb : Bool} : MLP.Reach p m →
      MLP.extractMultilevelPatchFromImage p junk m pyr c l wb = some (c', m') → MLP.Reach p m'

lemma scoreLoop_reach {p : ℕ} (valid : ℕ → Bool) : ∀ (is : List ℕ) (ps : ℕ → Patch) (H : M3) (n : ℕ),
    (∀ i, Patch.Reach p (ps i)) → ∀ i, Patch.Reach p ((MLP.scoreLoop p valid is (ps, H, n)).1 i) := by
  intro is
  induction is with
  | nil => intro ps H n h; simpa [MLP.scoreLoop] using h
  | cons i is ih =>
    intro ps H n h
    unfold MLP.scoreLoop
    by_cases hv : valid i = true
    · rw [if_pos hv]
      apply ih
      intro j
      by_cases hj : j = i
      · subst hj; simp only [Function.update_self]; exact .query (h j)
      · simp only [Function.update_of_ne hj]; exact h j
    · rw [if_neg hv]; exact ih ps H n h

lemma extractLevel_reach {p : ℕ} {junk : FC} {pyr : List Level} {wb : Bool} {cm cm' : FC × MLP} {i : ℕ}
    (h : ∀ j, Patch.Reach p (cm.2.patches j)) (he : MLP.extractLevel p junk pyr wb cm i = some cm') :
    ∀ j, Patch.Reach p (cm'.2.patches j) := by
  obtain ⟨c, m⟩ := cm
  unfold MLP.extractLevel at he
  cases h1 : levelTransform junk pyr c 0 i with
  | none => simp [h1] at he
  | some r =>
  obtain ⟨c1, ct⟩ := r
  cases h2 : pyr[i]? with
  | none => simp [h1, h2] at he
  | some lvl =>
  cases h3 : Patch.extractPatchFromImage p (m.patches i) lvl.img ct wb with
  | none => simp [h1, h2, h3] at he
  | some q =>
  obtain ⟨c2, pi⟩ := q
  simp only [h1, h2, h3, Option.bind_eq_bind, Option.bind_some, Option.pure_def, Option.some.injEq] at he
  subst he
  intro j
  by_cases hj : j = i
  · subst hj; simp only [Function.update_self]; exact .extract (h j) h3
  · simp only [Function.update_of_ne hj]; exact h j

lemma foldlM_reach {p : ℕ} {junk : FC} {pyr : List Level} {wb : Bool} : ∀ (is : List ℕ) (cm cm' : FC × MLP),
    (∀ j, Patch.Reach p (cm.2.patches j)) → is.foldlM (MLP.extractLevel p junk pyr wb) cm = some cm' →
    ∀ j, Patch.Reach p (cm'.2.patches j) := by
  intro is
  induction is with
  | nil => intro cm cm' h he; simp only [List.foldlM_nil, Option.pure_def, Option.some.injEq] at he; subst he; exact h
  | cons i is ih =>
    intro cm cm' h he
    rw [List.foldlM_cons] at he
    cases hl : MLP.extractLevel p junk pyr wb cm i with
    | none => simp [hl] at he
    | some c1 =>
      simp only [hl, Option.bind_eq_bind, Option.bind_some] at he
      exact ih c1 cm' (extractLevel_reach h hl) he

lemma mlp_reach {p : ℕ} {m : MLP} (h : MLP.Reach p m) : ∀ i, Patch.Reach p (m.patches i) := by
  induction h with
  | construct m hm => intro i; obtain ⟨j, hj⟩ := hm i; show Patch.Reach p (m.patches i); rw [hj]; exact .construct j
  | reset _ ih => exact ih
  | @score m l1 l2 _ ih =>
    intro i
    have := scoreLoop_reach m.isValidPatch (List.range' l1 (l2 + 1 - l1)) m.patches 0 0 ih i
    unfold MLP.computeMultilevelShiTomasiScore
    split
    rename_i ps H n heq
    rw [heq] at this
    split <;> exact this
  | @levelScore m l _ ih =>
    intro i
    unfold MLP.getSpecificLevelScore
    split
    · by_cases hj : i = l
      · subst hj; simp only [Function.update_self]; exact .query (ih i)
      · simp only [Function.update_of_ne hj]; exact ih i
    · exact ih i
  | extract _ he ih => exact foldlM_reach _ _ _ ih he

/-- C27: the score over levels `l1..l2` is the sum of the eigenvalues of the mean over the *valid*
levels of the per-level tensors, each weighted with `1/4^level`; with no valid level it is `-1`. -/
theorem C27_multilevel {p : ℕ} {m : MLP} (h : MLP.Reach p m) (l1 l2 : ℕ) :
    let r := m.computeMultilevelShiTomasiScore p l1 l2
    let V := (Finset.Icc l1 l2).filter (fun i => m.isValidPatch i = true)
    let avg := fun (t : ℕ → (ℕ → ℝ) → ℝ) => (∑ i ∈ V, (1 / 4 : ℝ) ^ i * t p (m.patches i).border) / V.card
    (V.Nonempty → Spec.Eigenvalues (avg tXX) (avg tYY) (avg tXY) r.e0 r.e1 ∧ r.s = r.e0 + r.e1 ∧ r.s = avg tXX + avg tYY) ∧
    (¬ V.Nonempty → r.s = -1) ∧ r.isValidPatch = m.isValidPatch ∧ ∀ i, (r.patches i).border = (m.patches i).border := by
  intro r V avg
  have hco : MLP.Coherent p m.patches := fun i hv => (reach_fresh (mlp_reach h i) hv).H
  obtain ⟨s1, s2, s3, s4, s5, s6⟩ := MLP.scoreLoop_spec m.isValidPatch (List.range' l1 (l2 + 1 - l1)) m.patches 0 0 hco
  have hsum : ∀ f : ℕ → ℝ, (((List.range' l1 (l2 + 1 - l1)).filter m.isValidPatch).map f).sum = ∑ i ∈ V, f i := by
    intro f
    have : ((List.range' l1 (l2 + 1 - l1)).filter fun i => decide (m.isValidPatch i = true)) = (List.range' l1 (l2 + 1 - l1)).filter m.isValidPatch := by
      congr 1; funext i; simp
    rw [← this]
    rfl
  have hlen : ((List.range' l1 (l2 + 1 - l1)).filter m.isValidPatch).length = V.card := by
    have : ((List.range' l1 (l2 + 1 - l1)).filter fun i => decide (m.isValidPatch i = true)) = (List.range' l1 (l2 + 1 - l1)).filter m.isValidPatch := by
      congr 1; funext i; simp
    rw [← this]
    rfl
  have zx : (0 : M3).r1.x = 0 := rfl
  have zy : (0 : M3).r2.y = 0 := rfl
  have zz : (0 : M3).r1.y = 0 := rfl
  simp only [hsum, hlen, zx, zy, zz, zero_add, (Patch.sumOuter_grad p _).1, (Patch.sumOuter_grad p _).2.1, (Patch.sumOuter_grad p _).2.2] at s3 s4 s5 s6
  have ht : ∀ (t : ℕ → (ℕ → ℝ) → ℝ) (f : (ℕ → ℝ) → ℕ → ℕ → ℝ), (∀ b, t p b = Spec.patchSum p (f b) / (p * p)) →
      (∑ i ∈ V, (1 / 4 : ℝ) ^ i * Spec.patchSum p (f (m.patches i).border)) / (V.card * p * p) = avg t := by
    intro t f hf
    show _ = (∑ i ∈ V, (1 / 4 : ℝ) ^ i * t p (m.patches i).border) / V.card
    have e : ∀ i, (1 / 4 : ℝ) ^ i * t p (m.patches i).border = ((1 / 4 : ℝ) ^ i * Spec.patchSum p (f (m.patches i).border)) / (p * p) := by
      intro i; rw [hf]; ring
    rw [Finset.sum_congr rfl fun i _ => e i, ← Finset.sum_div, div_div]
    congr 1
    ring
  have hpsd : PSD (avg tXX) (avg tYY) (avg tXY) := by
    have := PSD.smul (k := 1 / (V.card : ℝ)) (by positivity)
      (Patch.psd_sum V (fun i _ => PSD.smul (k := (1 / 4 : ℝ) ^ i) (by positivity) (psd_mean p (m.patches i).border)))
    have e : ∀ z : ℝ, 1 / (V.card : ℝ) * z = z / V.card := fun z => by ring
    simp only [e] at this
    exact this
  have hr : r = m.computeMultilevelShiTomasiScore p l1 l2 := rfl
  clear_value r
  unfold MLP.computeMultilevelShiTomasiScore at hr
  generalize MLP.scoreLoop p m.isValidPatch (List.range' l1 (l2 + 1 - l1)) (m.patches, 0, 0) = S at *
  obtain ⟨ps, H, n⟩ := S
  simp only at s1 s2 s3 s4 s5 s6 hr
  have e1 := ht tXX (fun b y x => Spec.gx p b y x * Spec.gx p b y x) (fun b => rfl)
  have e2 := ht tYY (fun b y x => Spec.gy p b y x * Spec.gy p b y x) (fun b => rfl)
  have e3 := ht tXY (fun b y x => Spec.gx p b y x * Spec.gy p b y x) (fun b => rfl)
  rw [s3, s4, s5, s6, e1, e2, e3] at hr
  by_cases hne : V.Nonempty
  · rw [if_pos (Finset.card_pos.mpr hne)] at hr
    subst hr
    refine ⟨fun _ => ⟨hpsd.eigen, rfl, hpsd.eigen.trace⟩, fun hc => absurd hne hc, rfl, fun i => (s2 i).1⟩
  · rw [if_neg (by rw [Finset.not_nonempty_iff_eq_empty.mp hne]; simp)] at hr
    subst hr
    exact ⟨fun hc => absurd hc hne, fun _ => rfl, rfl, fun i => (s2 i).1⟩

/-- A freshly constructed multilevel patch scores -1, and an extracted one does not. -/
example (m : MLP) (hm : ∀ i, ∃ junk, m.patches i = Patch.construct junk) : (m.reset.computeMultilevelShiTomasiScore 4 0 2).s = -1 := by
  refine (C27_multilevel (.construct m hm) 0 2).2.1 ?_
  rw [Finset.not_nonempty_iff_eq_empty]
  simp [MLP.reset]

example (m : MLP) (h : MLP.Reach 4 m) (h1 : m.isValidPatch 1 = true) : 0 ≤ (m.computeMultilevelShiTomasiScore 4 0 2).s := by
  have := (C27_multilevel h 0 2).1 ⟨1, by simp [h1]⟩
  rw [this.2.1]
  exact add_nonneg this.1.nonneg (this.1.nonneg.trans this.1.ordered)

/-- C27: the score of one specific level is that level's own score, -1 if the level is not valid. -/
theorem C27_specific_level {p : ℕ} {m : MLP} (h : MLP.Reach p m) (l : ℕ) :
    (m.getSpecificLevelScore p l).s = if m.isValidPatch l = true then tXX p (m.patches l).border + tYY p (m.patches l).border else -1 := by
  unfold MLP.getSpecificLevelScore
  by_cases hv : m.isValidPatch l = true
  · rw [if_pos hv, if_pos hv]
    exact (C27_score (mlp_reach h l)).2.2.2.2.2
  · rw [if_neg hv, if_neg hv]

/-! ## C28 -/

lemma cnt_pos {p l1 l2 : ℕ} (hp : 1 ≤ p) (hl : l1 ≤ l2) : (0 : ℝ) < (p : ℝ) * p * ((l2 : ℝ) - l1 + 1) := by
  have h1 : (0 : ℝ) < p := by exact_mod_cast hp
  have h2 : (l1 : ℝ) ≤ l2 := by exact_mod_cast hl
  have : (0 : ℝ) < (l2 : ℝ) - l1 + 1 := by linarith
  positivity

/-- C28: the average difference is a non-negative, symmetric function, zero between equal patches. -/
theorem C28_symmetric (p : ℕ) (m n : MLP) (l1 l2 : ℕ) :
    0 ≤ MLP.computeAverageDifference p m n l1 l2 ∧ MLP.computeAverageDifference p m n l1 l2 = MLP.computeAverageDifference p n m l1 l2 ∧
    MLP.computeAverageDifference p m m l1 l2 = 0 := by
  refine ⟨?_, ?_, ?_⟩
  · rw [avgDiff_eq]; exact Real.sqrt_nonneg _
  · rw [avgDiff_eq, avgDiff_eq]
    have e : lsum p l1 l2 (fun l k => (m.patches l).patch k - (n.patches l).patch k) =
        - lsum p l1 l2 (fun l k => (n.patches l).patch k - (m.patches l).patch k) := by
      unfold lsum
      rw [← Finset.sum_neg_distrib]
      exact Finset.sum_congr rfl fun i _ => by ring
    rw [e]
    congr 2
    unfold lsum
    exact Finset.sum_congr rfl fun i _ => by ring
  · rw [avgDiff_eq]
    simp [lsum]

/-- C28: triangle inequality. -/
theorem C28_triangle {p l1 l2 : ℕ} (hp : 1 ≤ p) (hl : l1 ≤ l2) (a b c : MLP) :
    MLP.computeAverageDifference p a c l1 l2 ≤ MLP.computeAverageDifference p a b l1 l2 + MLP.computeAverageDifference p b c l1 l2 := by
  have hc := cnt_pos hp hl
  rw [avgDiff_eq, avgDiff_eq, avgDiff_eq]
  generalize (p : ℝ) * p * ((l2 : ℝ) - l1 + 1) = N at hc
  rw [Real.sqrt_div' _ hc.le, Real.sqrt_div' _ hc.le, Real.sqrt_div' _ hc.le, ← add_div]
  apply div_le_div_of_nonneg_right _ (Real.sqrt_nonneg N)
  have e : lsum p l1 l2 (fun l k => (a.patches l).patch k - (c.patches l).patch k) =
      lsum p l1 l2 (fun l k => (a.patches l).patch k - (b.patches l).patch k) + lsum p l1 l2 (fun l k => (b.patches l).patch k - (c.patches l).patch k) := by
    unfold lsum
    rw [← Finset.sum_add_distrib]
    exact Finset.sum_congr rfl fun i _ => by ring
  rw [e, add_div]
  have := sqrt_sum_triangle ((Finset.Icc l1 l2) ×ˢ (range (p * p)))
    (fun i => (a.patches i.1).patch i.2 - (b.patches i.1).patch i.2 - lsum p l1 l2 (fun l k => (a.patches l).patch k - (b.patches l).patch k) / N)
    (fun i => (b.patches i.1).patch i.2 - (c.patches i.1).patch i.2 - lsum p l1 l2 (fun l k => (b.patches l).patch k - (c.patches l).patch k) / N)
  refine le_trans (le_of_eq ?_) this
  congr 1
  unfold lsum
  exact Finset.sum_congr rfl fun i _ => by ring

/-- C28: the difference is zero exactly if, over the given levels, the two patches differ by one common
brightness offset. -/
theorem C28_zero_iff {p l1 l2 : ℕ} (hp : 1 ≤ p) (hl : l1 ≤ l2) (a b : MLP) :
    MLP.computeAverageDifference p a b l1 l2 = 0 ↔
      ∃ k : ℝ, ∀ l, l1 ≤ l → l ≤ l2 → ∀ y < p, ∀ x < p, Spec.cell p (a.patches l).patch y x = Spec.cell p (b.patches l).patch y x + k := by
  have hc := cnt_pos hp hl
  have ix : ∀ y < p, ∀ x < p, y * p + x < p * p := by
    intro y hy x hx
    calc y * p + x < y * p + p := by omega
      _ = (y + 1) * p := by ring
      _ ≤ p * p := Nat.mul_le_mul_right _ hy
  have hcard : (((Finset.Icc l1 l2) ×ˢ (range (p * p))).card : ℝ) = (p : ℝ) * p * ((l2 : ℝ) - l1 + 1) := by
    rw [Finset.card_product, Nat.card_Icc, Finset.card_range]
    push_cast [Nat.cast_sub (by omega : l1 ≤ l2 + 1)]
    ring
  rw [avgDiff_eq]
  generalize hN : (p : ℝ) * p * ((l2 : ℝ) - l1 + 1) = N at *
  have hnn : 0 ≤ lsum p l1 l2 (fun l k => ((a.patches l).patch k - (b.patches l).patch k
      - lsum p l1 l2 (fun l k => (a.patches l).patch k - (b.patches l).patch k) / N) ^ 2) :=
    Finset.sum_nonneg fun i _ => sq_nonneg _
  rw [Real.sqrt_eq_zero (div_nonneg hnn hc.le), div_eq_zero_iff, or_iff_left hc.ne']
  unfold lsum
  rw [Finset.sum_eq_zero_iff_of_nonneg (fun i _ => sq_nonneg _)]
  constructor
  · intro h
    refine ⟨(∑ i ∈ (Finset.Icc l1 l2) ×ˢ (range (p * p)), ((a.patches i.1).patch i.2 - (b.patches i.1).patch i.2)) / N, ?_⟩
    intro l h1 h2 y hy x hx
    have := h (l, y * p + x) (Finset.mem_product.mpr ⟨Finset.mem_Icc.mpr ⟨h1, h2⟩, Finset.mem_range.mpr (ix y hy x hx)⟩)
    have := pow_eq_zero_iff (two_ne_zero) |>.mp this
    simp only [Spec.cell]
    simp only at this
    linarith
  · rintro ⟨k, hk⟩
    have hd : ∀ i ∈ (Finset.Icc l1 l2) ×ˢ (range (p * p)), (a.patches i.1).patch i.2 - (b.patches i.1).patch i.2 = k := by
      intro i hi
      obtain ⟨hi1, hi2⟩ := Finset.mem_product.mp hi
      obtain ⟨h1, h2⟩ := Finset.mem_Icc.mp hi1
      have h3 := Finset.mem_range.mp hi2
      have := hk i.1 h1 h2 (i.2 / p) (Nat.div_lt_of_lt_mul h3) (i.2 % p) (Nat.mod_lt _ (by omega))
      simp only [Spec.cell, Nat.div_add_mod'] at this
      linarith
    intro i hi
    rw [Finset.sum_congr rfl hd, hd i hi, Finset.sum_const, nsmul_eq_mul, hcard]
    field_simp
    ring

/-- C28: adding a common brightness offset to one of the patches does not change the difference. -/
theorem C28_offset_invariant {p l1 l2 : ℕ} (hp : 1 ≤ p) (hl : l1 ≤ l2) (a a' b : MLP) (k : ℝ)
    (h : ∀ l, l1 ≤ l → l ≤ l2 → ∀ y < p, ∀ x < p, Spec.cell p (a'.patches l).patch y x = Spec.cell p (a.patches l).patch y x + k) :
    MLP.computeAverageDifference p a' b l1 l2 = MLP.computeAverageDifference p a b l1 l2 := by
  have h0 : MLP.computeAverageDifference p a' a l1 l2 = 0 := (C28_zero_iff hp hl a' a).mpr ⟨k, h⟩
  have h0' := (C28_symmetric p a' a l1 l2).2.1
  have t1 := C28_triangle hp hl a' a b
  have t2 := C28_triangle hp hl a a' b
  rw [← h0'] at t2
  rw [h0] at t1 t2
  linarith

/-- C28: the value itself is the root mean squared deviation of the pixel differences from their mean. -/
theorem C28_value {p l1 l2 : ℕ} (hp : 1 ≤ p) (a b : MLP) :
    let diff := fun l y x => Spec.cell p (a.patches l).patch y x - Spec.cell p (b.patches l).patch y x
    let mean := fun f : ℕ → ℕ → ℕ → ℝ => (∑ l ∈ Finset.Icc l1 l2, Spec.patchSum p (f l)) / (p * p * (l2 - l1 + 1))
    MLP.computeAverageDifference p a b l1 l2 = Real.sqrt (mean fun l y x => (diff l y x - mean diff) ^ 2) := by
  intro diff mean
  have key : ∀ f : ℕ → ℕ → ℝ, lsum p l1 l2 f = ∑ l ∈ Finset.Icc l1 l2, Spec.patchSum p (fun y x => f l (y * p + x)) := by
    intro f
    unfold lsum Spec.patchSum
    rw [Finset.sum_product]
    refine Finset.sum_congr rfl fun l _ => ?_
    rw [← Finset.sum_product']
    symm
    refine Finset.sum_bij (fun i _ => i.1 * p + i.2) ?_ ?_ ?_ ?_
    · intro i hi
      obtain ⟨h1, h2⟩ := Finset.mem_product.mp hi
      have hy := Finset.mem_range.mp h1
      have hx := Finset.mem_range.mp h2
      refine Finset.mem_range.mpr ?_
      calc i.1 * p + i.2 < i.1 * p + p := by omega
        _ = (i.1 + 1) * p := by ring
        _ ≤ p * p := Nat.mul_le_mul_right _ hy
    · intro i hi j hj hij
      have hx := Finset.mem_range.mp (Finset.mem_product.mp hi).2
      have hx' := Finset.mem_range.mp (Finset.mem_product.mp hj).2
      have d1 : (i.1 * p + i.2) / p = i.1 := by rw [mul_comm, Nat.mul_add_div (by omega), Nat.div_eq_of_lt hx, add_zero]
      have d2 : (j.1 * p + j.2) / p = j.1 := by rw [mul_comm, Nat.mul_add_div (by omega), Nat.div_eq_of_lt hx', add_zero]
      have e1 : i.1 = j.1 := by rw [← d1, ← d2, hij]
      have e2 : i.2 = j.2 := by rw [e1] at hij; omega
      exact Prod.ext e1 e2
    · intro k hk
      have h3 := Finset.mem_range.mp hk
      exact ⟨(k / p, k % p), Finset.mem_product.mpr ⟨Finset.mem_range.mpr (Nat.div_lt_of_lt_mul h3), Finset.mem_range.mpr (Nat.mod_lt _ (by omega))⟩,
        Nat.div_add_mod' k p⟩
    · intro i _; rfl
  rw [avgDiff_eq, key, key]
  rfl

/-- Two constant patches differing by 3 have difference 0; with one pixel changed it is not 0. -/
example (m : MLP) (P : Patch) : MLP.computeAverageDifference 4 { m with patches := fun _ => { P with patch := fun k => (k : ℝ) + 3 } }
    { m with patches := fun _ => { P with patch := fun k => (k : ℝ) } } 0 1 = 0 :=
  (C28_zero_iff (by norm_num) (by norm_num) _ _).mpr ⟨3, fun _ _ _ _ _ _ _ => rfl⟩

example (m : MLP) (P : Patch) : MLP.computeAverageDifference 4 { m with patches := fun _ => { P with patch := fun k => if k = 5 then 1 else 0 } }
    { m with patches := fun _ => { P with patch := fun _ => 0 } } 0 1 ≠ 0 := by
  intro h
  obtain ⟨k, hk⟩ := (C28_zero_iff (by norm_num) (by norm_num) _ _).mp h
  have h1 := hk 0 (by norm_num) (by norm_num) 0 (by norm_num) 0 (by norm_num)
  have h2 := hk 0 (by norm_num) (by norm_num) 1 (by norm_num) 1 (by norm_num)
  norm_num [Spec.cell] at h1 h2
  linarith

end Rovio
