import Verif.Lemmas.PatchScore
import Verif.Props.Pyramid

/-!
# Properties of patches and multilevel patches (C24–C28)
-/

namespace Rovio

open Finset

/-! ## C24 -/

/-- C24: after a positive answer of `isPatchInFrame`, extracting the patch (same image, same
coordinates object, same border flag) reads only pixels inside the image: the extraction is defined,
for every position, every affine warp and every patch size. -/
theorem C24_in_bounds {p : ℕ} (hp : 2 ≤ p) {img : Img} (hc : img.cols ≤ 2147483647) (hr : img.rows ≤ 2147483647)
    {c c' : FC} {wb : Bool} (h : Patch.isPatchInFrame p img c wb = some (c', true)) (old : Patch) :
    ∃ new, Patch.extractPatchFromImage p old img c' wb = some (c', new) := by
  obtain ⟨h1, h2⟩ := Patch.isPatchInFrame_true hp h
  exact Patch.extract_total h1 hc hr h2

/-- Coordinates with pixel `q`, warp `W` and no camera. -/
def atPixel (junk : FC) (q : V2) (W : M2) : FC := (FC.constructPixel junk q).setWarpC W

/-- C24 is not vacuous: a patch of size 4 with a shear warp inside a 20 × 20 image. -/
example (junk : FC) : Patch.isPatchInFrame 4 ⟨20, 20, fun y x => y + x⟩ (atPixel junk ⟨9.3, 10.7⟩ ⟨1, 0.5, 0, 2⟩) false =
    some (atPixel junk ⟨9.3, 10.7⟩ ⟨1, 0.5, 0, 2⟩, true) := by
  apply Patch.isPatchInFrame_of (by norm_num) (by norm_num) (by norm_num)
  · exact ⟨rfl, rfl⟩
  · rfl
  · unfold Patch.InP
    have hn : (atPixel junk ⟨9.3, 10.7⟩ ⟨1, 0.5, 0, 2⟩).nearB = false := by
      apply FC.nearB_false rfl
      apply Real.le_sqrt_of_sq_le
      simp only [atPixel, FC.setWarpC]
      norm_num
    rw [hn]
    simp only [Bool.false_eq_true, if_false]
    rintro dx dy (rfl | rfl) (rfl | rfl) <;>
      simp only [atPixel, FC.setWarpC, FC.constructPixel, halfPatch] <;> norm_num

/-- C24: without warping the test is exact: it fails only if extraction would leave the image. -/
theorem C24_exact_plain {p : ℕ} (hp : 2 ≤ p) {img : Img} {c c' : FC} {wb : Bool} (hv : c.validC = true)
    (hw : c.validWarpC = true) (hid : c.isWarpIdentity = true)
    (h : Patch.isPatchInFrame p img c wb = some (c', false)) (old : Patch) :
    Patch.extractPatchFromImage p old img c' wb = none := by
  have hs : c.Settled := ⟨hw, by simp [FC.comC, hv]⟩
  have hn : c.nearB = true := by simp [FC.nearB, hid]
  have hf : c.isInFront = true := by simp [FC.isInFront, hv]
  unfold Patch.isPatchInFrame at h
  rw [if_pos hf] at h
  simp only [FC.comWarpC_valid hw, FC.isNear_valid hw, hs.getC, Option.bind_eq_bind, Option.bind_some, if_true, hn,
    Option.pure_def, Option.some.injEq, Prod.mk.injEq] at h
  obtain ⟨rfl, h⟩ := h
  rw [Patch.extract_settled hs, hn]
  simp only [if_true, Option.map_eq_none_iff]
  have hhs := Patch.halfPatch_pos hp wb
  generalize halfPatch p wb = k at *
  cases hfill : fill 0 (2 * k) (2 * k) (Patch.samplePlain img c.c k) with
  | none => rfl
  | some g =>
    exfalso
    have s00 := fill_get hfill (y := 0) (x := 0) (by omega) (by omega)
    have s11 := fill_get hfill (y := 2 * k - 1) (x := 2 * k - 1) (by omega) (by omega)
    unfold Patch.samplePlain at s00 s11
    cases hu : floorInt c.c.x with
    | none => simp [hu] at s00
    | some u =>
    cases hv' : floorInt c.c.y with
    | none => simp [hu, hv'] at s00
    | some v =>
    have eu := floorInt_some hu
    have ev := floorInt_some hv'
    simp only [hu, hv', Option.bind_eq_bind, Option.bind_some] at s00 s11
    have fx : (0 : ℝ) ≤ c.c.x - u := by rw [eu]; linarith [Int.floor_le c.c.x]
    have fy : (0 : ℝ) ≤ c.c.y - v := by rw [ev]; linarith [Int.floor_le c.c.y]
    obtain ⟨a1, a2, a3, a4, a5, a6, _⟩ := Patch.bilinear_inv fx fy s00
    obtain ⟨b1, b2, b3, b4, b5, b6, _⟩ := Patch.bilinear_inv fx fy s11
    have hk2 : ((2 * k - 1 : ℕ) : ℤ) = 2 * (k : ℤ) - 1 := by omega
    rw [hk2] at b1 b2 b3 b4 b5 b6
    have cu : (u : ℝ) ≤ c.c.x := by linarith
    have cv : (v : ℝ) ≤ c.c.y := by linarith
    have q1 : (k : ℝ) ≤ c.c.x := le_trans (by exact_mod_cast (by omega : (k : ℤ) ≤ u)) cu
    have q2 : (k : ℝ) ≤ c.c.y := le_trans (by exact_mod_cast (by omega : (k : ℤ) ≤ v)) cv
    have key : ∀ (q : ℝ) (w n : ℤ), w = ⌊q⌋ → (0 < q - w → w + (2 * (k : ℤ) - 1) - k + 1 < n) → w + (2 * (k : ℤ) - 1) - k < n →
        q ≤ (n : ℝ) - k := by
      intro q w n hw h1 h2
      by_cases hpos : 0 < q - w
      · have := h1 hpos
        have h3 : q < (w : ℝ) + 1 := by rw [hw]; exact Int.lt_floor_add_one q
        have h4 : ((w + 1 : ℤ) : ℝ) ≤ ((n - k : ℤ) : ℝ) := by exact_mod_cast (by omega)
        push_cast at h4
        linarith
      · have h4 : ((w : ℤ) : ℝ) ≤ ((n - k : ℤ) : ℝ) := by exact_mod_cast (by omega)
        push_cast at h4
        linarith
    have q3 := key c.c.x u img.cols eu b5 b4
    have q4 := key c.c.y v img.rows ev b6 b2
    rw [Int.cast_natCast] at q3 q4
    simp only [Bool.not_eq_false', Bool.or_eq_true, decide_eq_true_eq] at h
    rcases h with ((h | h) | h) | h <;> linarith

/-- A position too close to the right border is rejected. -/
example (junk : FC) : Patch.isPatchInFrame 4 ⟨20, 20, fun y x => y + x⟩ (FC.constructPixel junk ⟨18.5, 10⟩) false =
    some (FC.constructPixel junk ⟨18.5, 10⟩, false) := by
  have hs : (FC.constructPixel junk ⟨18.5, 10⟩).Settled := ⟨rfl, rfl⟩
  unfold Patch.isPatchInFrame
  simp only [FC.comWarpC_valid hs.warp, FC.isNear_valid hs.warp, hs.getC, Option.bind_eq_bind, Option.bind_some]
  simp [FC.constructPixel, FC.construct, FC.resetCoordinates, FC.setWarpIdentity, FC.isInFront, FC.nearB, halfPatch]
  norm_num

/-! ## C25 -/

lemma extractLoop {p : ℕ} {junk : FC} {pyr : List Level} {wb : Bool} {c : FC} (is : List ℕ)
    (h : ∀ i ∈ is, ∀ m : MLP, ∃ m', MLP.extractLevel p junk pyr wb (c, m) i = some (c, m') ∧
      m'.isValidPatch = Function.update m.isValidPatch i true) :
    ∀ m, ∃ m', is.foldlM (MLP.extractLevel p junk pyr wb) (c, m) = some (c, m') ∧
      (∀ i ∈ is, m'.isValidPatch i = true) ∧ (∀ i, m.isValidPatch i = true → m'.isValidPatch i = true) := by
  induction is with
  | nil => intro m; exact ⟨m, rfl, by simp, fun _ h => h⟩
  | cons i is ih =>
    intro m
    obtain ⟨m1, h1, v1⟩ := h i (by simp) m
    obtain ⟨m2, h2, h3, h4⟩ := ih (fun j hj => h j (by simp [hj])) m1
    refine ⟨m2, by simp [List.foldlM, h1, h2], ?_, ?_⟩
    · intro j hj
      rcases List.mem_cons.mp hj with rfl | hj
      · exact h4 j (by rw [v1]; simp)
      · exact h3 j hj
    · intro j hj
      apply h4
      rw [v1]
      by_cases e : j = i
      · subst e; simp
      · simp [e, hj]

/-- C25: if `isMultilevelPatchInFrame(pyr, c, l, withBorder)` answers true then the patch is in frame
on every level `0..l`, and `extractMultilevelPatchFromImage` up to level `l` reads only pixels inside
the pyramid images and marks all these levels valid.

This holds for every image size if the pyramid was built by half-sampling; for a pyramid built with
OpenCV it holds if the warp is (close to) the identity or the sides are divisible by `2^(levels-1)`
(see `C25_finding_opencv_odd` for the remaining case). -/
theorem C25_coarsest_decides {p : ℕ} (hp : 2 ≤ p) {n : ℕ} {img : Img} {cv : Option (Img → ℕ → ℕ → ℕ)} {pyr : List Level}
    (hpyr : computeFromImage n img cv = some pyr) (hc : img.cols ≤ 2147483647) (hr : img.rows ≤ 2147483647)
    {junk c c' : FC} {l : ℕ} {wb : Bool} (h : MLP.isMultilevelPatchInFrame p junk pyr c l wb = some (c', true))
    (hcv : cv = none ∨ (2 ^ (n - 1) ∣ img.rows ∧ 2 ^ (n - 1) ∣ img.cols) ∨ c'.cam = none ∨ c'.warpC.distOne < 1e-6) (m : MLP) :
    (∃ m', MLP.extractMultilevelPatchFromImage p junk m pyr c' l wb = some (c', m') ∧ ∀ i ≤ l, m'.isValidPatch i = true) ∧
    ∀ i ≤ l, MLP.isMultilevelPatchInFrame p junk pyr c' i wb = some (c', true) := by
  unfold MLP.isMultilevelPatchInFrame at h
  split at h
  · simp at h
  · rename_i hfront0
    have hfront0 : c.isInFront = true := by simpa using hfront0
    cases hw : c.comWarpC with
    | none => simp [hw] at h
    | some r =>
      obtain ⟨c1, b⟩ := r
      simp only [hw, Option.bind_eq_bind, Option.bind_some] at h
      cases b with
      | false => simp at h
      | true =>
      have hv : c1.validWarpC = true := (FC.comWarpC_spec hw).2.2.2.2.1
      cases ht : levelTransform junk pyr c1 0 l with
      | none => simp [ht] at h
      | some r =>
      obtain ⟨c2, ol⟩ := r
      obtain ⟨hs, ht', Z, B, hZ, hB⟩ := levelTransform_inv hv ht
      have hl : l < n := by
        rw [← (levelsFrom_spec cv _ _ _ _ hpyr).1]
        exact (List.getElem?_eq_some_iff.mp hB).1
      simp only [ht, hB, Bool.not_true, Bool.false_eq_true, if_false, Option.bind_some, Option.pure_def] at h
      cases hf : Patch.isPatchInFrame p B.img ol wb with
      | none => simp [hf] at h
      | some r =>
      obtain ⟨ol', res⟩ := r
      simp only [hf, Option.bind_some, Option.some.injEq, Prod.mk.injEq] at h
      obtain ⟨rfl, rfl⟩ := h
      obtain ⟨ol2, hl2, sl, fl, pl, wl, il⟩ := levelTransform_settled (junk := junk) hZ hB hs
      rw [ht'] at hl2
      simp only [Option.some.injEq, Prod.mk.injEq, true_and] at hl2
      subst hl2
      obtain ⟨s3, hin⟩ := Patch.isPatchInFrame_true hp hf
      -- the check does not change the (settled) temporary
      have holEq : ol' = ol := by
        have hsz : B.img.cols ≤ 2147483647 ∧ B.img.rows ≤ 2147483647 := by
          obtain ⟨B', hB', s1, s2⟩ := pyr_size hpyr l hl
          rw [hB] at hB'; simp only [Option.some.injEq] at hB'; subst hB'
          exact ⟨by rw [s2]; exact (Nat.div_le_self _ _).trans hc, by rw [s1]; exact (Nat.div_le_self _ _).trans hr⟩
        unfold Patch.isPatchInFrame at hf
        rw [if_pos fl] at hf
        simp only [FC.comWarpC_valid sl.warp, FC.isNear_valid sl.warp, FC.getWarpC_valid sl.warp, sl.getC, Option.bind_eq_bind,
          Option.bind_some, if_true, Option.pure_def] at hf
        by_cases hn : ol.nearB = true
        · simp only [hn, if_true, Option.some.injEq, Prod.mk.injEq] at hf
          exact hf.1.symm
        · simp only [hn, Bool.false_eq_true, if_false] at hf
          cases hco : Patch.cornersOk B.img ol.c ol.warpC (halfPatch p wb) with
          | none => simp [hco] at hf
          | some ok =>
            simp only [hco, Option.bind_some, Option.some.injEq, Prod.mk.injEq] at hf
            exact hf.1.symm
      rw [holEq] at hin
      have hcv' : cv = none ∨ (2 ^ (n - 1) ∣ img.rows ∧ 2 ^ (n - 1) ∣ img.cols) ∨ ol.nearB = true := by
        rcases hcv with h | h | h | h
        · exact Or.inl h
        · exact Or.inr (Or.inl h)
        · right; right; simp [FC.nearB, il, h]
        · right; right
          cases hcam : c2.cam with
          | none => simp [FC.nearB, il, hcam]
          | some cam =>
            rw [hcam] at wl
            simp only [Option.isSome_some, if_true] at wl
            unfold FC.nearB
            rw [wl]
            simp only [Bool.or_eq_true, decide_eq_true_eq]
            exact Or.inr h
      -- every finer level
      have fine : ∀ i ≤ l, ∃ a oi, pyr[i]? = some a ∧ levelTransform junk pyr c2 0 i = some (c2, oi) ∧ oi.Settled ∧
          oi.isInFront = true ∧ Patch.InP p a.img oi wb ∧ a.img.cols ≤ 2147483647 ∧ a.img.rows ≤ 2147483647 := by
        intro i hi
        obtain ⟨a, ha, s1, s2⟩ := pyr_size hpyr i (by omega)
        obtain ⟨oi, hoi, si, fi, pi, wi, ii⟩ := levelTransform_settled (junk := junk) hZ ha hs
        refine ⟨a, oi, ha, hoi, si, fi, ?_, by rw [s2]; exact (Nat.div_le_self _ _).trans hc, by rw [s1]; exact (Nat.div_le_self _ _).trans hr⟩
        exact inP_finer hp hpyr hi hl hZ ha hB c2.c pl pi (wi.trans wl.symm) (ii.trans il.symm) hcv' hin
      constructor
      · obtain ⟨m', h1, h2, _⟩ := extractLoop (p := p) (junk := junk) (pyr := pyr) (wb := wb) (c := c2) (List.range (l + 1)) (by
          intro i hi m
          obtain ⟨a, oi, ha, hoi, si, fi, ini, z1, z2⟩ := fine i (by have := List.mem_range.mp hi; omega)
          obtain ⟨new, hnew⟩ := Patch.extract_total (old := m.patches i) si z1 z2 ini
          refine ⟨{ m with isValidPatch := Function.update m.isValidPatch i true, patches := Function.update m.patches i new }, ?_, rfl⟩
          unfold MLP.extractLevel
          simp only [hoi, ha, hnew, Option.bind_eq_bind, Option.bind_some, Option.pure_def]) m
        exact ⟨m', h1, fun i hi => h2 i (List.mem_range.mpr (by omega))⟩
      · intro i hi
        have hfront1 : c1.isInFront = true := FC.isInFront_query (op := .comWarpC) rfl hfront0 (by simp [FC.step, hw])
        have hfront : c2.isInFront = true := by
          obtain ⟨q, hq⟩ : ∃ q, c1.getC = some (c2, q) := levelTransform_getC hv ht
          exact FC.isInFront_query (op := .getC) rfl hfront1 (by simp [FC.step, hq])
        obtain ⟨a, oi, ha, hoi, si, fi, ini, z1, z2⟩ := fine i hi
        have := Patch.isPatchInFrame_of hp z1 z2 si fi ini
        unfold MLP.isMultilevelPatchInFrame
        simp [hfront, FC.comWarpC_valid hs.warp, hoi, ha, this]


/-- C25 (finding): with the OpenCV pyramid (the one the node uses), an odd image size and a strongly
contracting warp, the coarsest level passes the test although the patch leaves the image on level 0:
the extraction that follows reads outside the image. -/
theorem C25_finding_opencv_odd (down : Img → ℕ → ℕ → ℕ) (px : ℕ → ℕ → ℕ) (junk : FC) (cam : CamI) (m : MLP) :
    ∃ pyr c, computeFromImage 2 ⟨41, 41, px⟩ (some down) = some pyr ∧ c.cam = some cam ∧
      MLP.isMultilevelPatchInFrame 2 junk pyr c 1 false = some (c, true) ∧
      MLP.extractMultilevelPatchFromImage 2 junk m pyr c 1 false = none := by
  set c : FC := { (FC.constructPixel junk ⟨1 / 5, 20⟩).setWarpC ⟨1 / 10, 0, 0, 1 / 10⟩ with cam := some cam } with hcdef
  have hcs : c.Settled := ⟨rfl, rfl⟩
  obtain ⟨pyr, hpyr⟩ := levelsFrom_total (some down) 2 1 ⟨⟨41, 41, px⟩, 0⟩
  obtain ⟨u, v, k1, k2, k3⟩ := pyr_step hpyr (j := 0) (by norm_num)
  have hz := pyr_zero hpyr (by norm_num)
  rw [hz] at k1
  simp only [Option.some.injEq] at k1
  subst k1
  obtain ⟨cx, cy⟩ := nextLevel_center k3
  obtain ⟨sr, sc⟩ := nextLevel_size k3
  simp only [Nat.zero_add] at k2
  have hcx : v.center.x = -1 := by rw [cx]; norm_num [cvOff]
  have hcy : v.center.y = -1 := by rw [cy]; norm_num [cvOff]
  norm_num at sr sc
  refine ⟨pyr, c, hpyr, rfl, ?_, ?_⟩
  · obtain ⟨o, ho, so, fo, po, wo, io⟩ := levelTransform_settled (junk := junk) hz k2 hcs
    have hwo : o.warpC = ⟨1 / 10, 0, 0, 1 / 10⟩ := by rw [wo]; rfl
    have hpo : o.c = ⟨3 / 5, 21 / 2⟩ := by
      rw [po]
      ext
      · rw [levelPixel_x, hcx]; norm_num [hcdef, FC.constructPixel, FC.setWarpC]
      · rw [levelPixel_y, hcy]; norm_num [hcdef, FC.constructPixel, FC.setWarpC]
    have hnear : o.nearB = false := by
      apply FC.nearB_false (by rw [io]; rfl)
      rw [hwo]
      apply Real.le_sqrt_of_sq_le
      norm_num
    have hin : Patch.isPatchInFrame 2 v.img o false = some (o, true) := by
      apply Patch.isPatchInFrame_of (le_refl 2) (by omega) (by omega) so fo
      unfold Patch.InP
      rw [hnear, hwo, hpo]
      simp only [Bool.false_eq_true, if_false]
      rintro dx dy (rfl | rfl) (rfl | rfl) <;> rw [sr, sc] <;> simp only [halfPatch] <;> norm_num
    unfold MLP.isMultilevelPatchInFrame
    have hf : c.isInFront = true := rfl
    simp [hf, FC.comWarpC_valid hcs.warp, ho, k2, hin]
  · obtain ⟨o, ho, so, fo, po, wo, io⟩ := levelTransform_settled (junk := junk) hz hz hcs
    have hwo : o.warpC = ⟨1 / 10, 0, 0, 1 / 10⟩ := by rw [wo]; rfl
    have hpo : o.c = ⟨1 / 5, 20⟩ := by rw [po, levelPixel_self]; rfl
    have hnear : o.nearB = false := by
      apply FC.nearB_false (by rw [io]; rfl)
      rw [hwo]
      apply Real.le_sqrt_of_sq_le
      norm_num
    have hnone : Patch.extractPatchFromImage 2 (m.patches 0) ⟨41, 41, px⟩ o false = none := by
      rw [Patch.extract_settled so, hnear, hwo, hpo]
      simp only [Bool.false_eq_true, if_false, Option.map_eq_none_iff]
      cases hfill : fill 0 (2 * halfPatch 2 false) (2 * halfPatch 2 false) (Patch.sampleWarped ⟨41, 41, px⟩ ⟨1 / 5, 20⟩ ⟨1 / 10, 0, 0, 1 / 10⟩ (halfPatch 2 false)) with
      | none => rfl
      | some g =>
        exfalso
        have s00 := fill_get hfill (y := 0) (x := 0) (by decide) (by decide)
        unfold Patch.sampleWarped at s00
        cases hu : floorInt ((1 / 5 : ℝ) + (1 / 10 * (((0 : ℕ) : ℝ) - (halfPatch 2 false : ℕ) + 0.5) + 0 * (((0 : ℕ) : ℝ) - (halfPatch 2 false : ℕ) + 0.5)) - 0.5) with
        | none => simp only [hu, Option.bind_eq_bind, Option.bind_none, reduceCtorEq] at s00
        | some a =>
        cases hv : floorInt ((20 : ℝ) + (0 * (((0 : ℕ) : ℝ) - (halfPatch 2 false : ℕ) + 0.5) + 1 / 10 * (((0 : ℕ) : ℝ) - (halfPatch 2 false : ℕ) + 0.5)) - 0.5) with
        | none => simp only [hu, hv, Option.bind_eq_bind, Option.bind_some, Option.bind_none, reduceCtorEq] at s00
        | some b =>
        simp only [hu, hv, Option.bind_eq_bind, Option.bind_some] at s00
        have ea := floorInt_some hu
        have eb := floorInt_some hv
        have := (Patch.bilinear_inv (by rw [ea]; exact sub_nonneg.mpr (Int.floor_le _)) (by rw [eb]; exact sub_nonneg.mpr (Int.floor_le _)) s00).2.2.1
        rw [ea, Int.floor_nonneg] at this
        norm_num [halfPatch] at this
    unfold MLP.extractMultilevelPatchFromImage
    rw [List.range_succ_eq_map, List.foldlM_cons]
    unfold MLP.extractLevel
    simp [ho, hz, hnone]

/-! ## C26 -/

/-- The image position sampled for patch pixel `(y,x)` of a patch of half size `hs` centred at `q`
and warped by `W`: the pixel's offset from the patch centre, warped, minus half a pixel (because pixel
`(v,u)` of the image covers `[u,u+1] × [v,v+1]`). -/
noncomputable def samplePos (q : V2) (W : M2) (hs y x : ℕ) : V2 :=
  q + W.mulVec ⟨(x : ℝ) - hs + 1 / 2, (y : ℝ) - hs + 1 / 2⟩ - ⟨1 / 2, 1 / 2⟩

/-- `r` is the bilinear interpolation at `P` with all used pixels inside the image. -/
def Interp (img : Img) (P : V2) (r : ℝ) : Prop :=
  0 ≤ ⌊P.y⌋ ∧ ⌊P.y⌋ < img.rows ∧ 0 ≤ ⌊P.x⌋ ∧ ⌊P.x⌋ < img.cols ∧
  (0 < P.x - ⌊P.x⌋ → ⌊P.x⌋ + 1 < img.cols) ∧ (0 < P.y - ⌊P.y⌋ → ⌊P.y⌋ + 1 < img.rows) ∧
  r = (1 - (P.x - ⌊P.x⌋)) * (1 - (P.y - ⌊P.y⌋)) * (img.px ⌊P.y⌋.toNat ⌊P.x⌋.toNat : ℝ)
    + (P.x - ⌊P.x⌋) * (1 - (P.y - ⌊P.y⌋)) * (img.px ⌊P.y⌋.toNat (⌊P.x⌋ + 1).toNat : ℝ)
    + (1 - (P.x - ⌊P.x⌋)) * (P.y - ⌊P.y⌋) * (img.px (⌊P.y⌋ + 1).toNat ⌊P.x⌋.toNat : ℝ)
    + (P.x - ⌊P.x⌋) * (P.y - ⌊P.y⌋) * (img.px (⌊P.y⌋ + 1).toNat (⌊P.x⌋ + 1).toNat : ℝ)

lemma samplePlain_interp {img : Img} {q : V2} {hs y x : ℕ} {r : ℝ} (h : Patch.samplePlain img q hs y x = some r) :
    Interp img (samplePos q M2.one hs y x) r := by
  unfold Patch.samplePlain at h
  cases hu : floorInt q.x with
  | none => simp [hu] at h
  | some u =>
  cases hv : floorInt q.y with
  | none => simp [hu, hv] at h
  | some v =>
  have eu := floorInt_some hu
  have ev := floorInt_some hv
  simp only [hu, hv, Option.bind_eq_bind, Option.bind_some] at h
  have px : (samplePos q M2.one hs y x).x = q.x + ((x : ℤ) - hs : ℤ) := by
    simp [samplePos, M2.mulVec, M2.one]; ring
  have py : (samplePos q M2.one hs y x).y = q.y + ((y : ℤ) - hs : ℤ) := by
    simp [samplePos, M2.mulVec, M2.one]; ring
  have fx : ⌊(samplePos q M2.one hs y x).x⌋ = u + x - hs := by rw [px, Int.floor_add_intCast, ← eu]; ring
  have fy : ⌊(samplePos q M2.one hs y x).y⌋ = v + y - hs := by rw [py, Int.floor_add_intCast, ← ev]; ring
  have sx : (samplePos q M2.one hs y x).x - (⌊(samplePos q M2.one hs y x).x⌋ : ℝ) = q.x - u := by
    rw [fx, px]; push_cast; ring
  have sy : (samplePos q M2.one hs y x).y - (⌊(samplePos q M2.one hs y x).y⌋ : ℝ) = q.y - v := by
    rw [fy, py]; push_cast; ring
  unfold Interp
  rw [sx, sy, fx, fy]
  exact Patch.bilinear_inv (by rw [eu]; linarith [Int.floor_le q.x]) (by rw [ev]; linarith [Int.floor_le q.y]) h

lemma sampleWarped_interp {img : Img} {q : V2} {W : M2} {hs y x : ℕ} {r : ℝ} (h : Patch.sampleWarped img q W hs y x = some r) :
    Interp img (samplePos q W hs y x) r := by
  unfold Patch.sampleWarped at h
  have h5 : (0.5 : ℝ) = 1 / 2 := by norm_num
  simp only [h5] at h
  have px : (samplePos q W hs y x).x = q.x + (W.a * ((x : ℝ) - hs + 1 / 2) + W.b * ((y : ℝ) - hs + 1 / 2)) - 1 / 2 := rfl
  have py : (samplePos q W hs y x).y = q.y + (W.c * ((x : ℝ) - hs + 1 / 2) + W.d * ((y : ℝ) - hs + 1 / 2)) - 1 / 2 := rfl
  rw [← px, ← py] at h
  cases hu : floorInt (samplePos q W hs y x).x with
  | none => simp only [hu, Option.bind_eq_bind, Option.bind_none, reduceCtorEq] at h
  | some u =>
  cases hv : floorInt (samplePos q W hs y x).y with
  | none => simp only [hu, hv, Option.bind_eq_bind, Option.bind_some, Option.bind_none, reduceCtorEq] at h
  | some v =>
  have eu := floorInt_some hu
  have ev := floorInt_some hv
  simp only [hu, hv, Option.bind_eq_bind, Option.bind_some] at h
  rw [eu, ev] at h
  exact Patch.bilinear_inv (by linarith [Int.floor_le (samplePos q W hs y x).x]) (by linarith [Int.floor_le (samplePos q W hs y x).y]) h

/-- The array written by the extraction. -/
def written (wb : Bool) (s : Patch) : ℕ → ℝ := if wb then s.border else s.patch

/-- The warp used by the extraction: the identity if the object says the warp is (nearly) the identity. -/
noncomputable def usedWarp (c : FC) : M2 := if c.isWarpIdentity = true ∨ c.warpC.distOne < 1e-6 then M2.one else c.warpC

lemma extract_interp {p : ℕ} {old new : Patch} {img : Img} {c c' : FC} {wb : Bool} (hv : c.validC = true) (hw : c.validWarpC = true)
    (h : Patch.extractPatchFromImage p old img c wb = some (c', new)) {y x : ℕ} (hy : y < 2 * halfPatch p wb) (hx : x < 2 * halfPatch p wb) :
    Interp img (samplePos c.c (usedWarp c) (halfPatch p wb) y x) (Spec.cell (2 * halfPatch p wb) (written wb new) y x) := by
  have hs : c.Settled := ⟨hw, by simp [FC.comC, hv]⟩
  rw [Patch.extract_settled hs] at h
  cases hf : (fill 0 (2 * halfPatch p wb) (2 * halfPatch p wb)
        (if c.nearB then Patch.samplePlain img c.c (halfPatch p wb) else Patch.sampleWarped img c.c c.warpC (halfPatch p wb))) with
  | none => simp [hf] at h
  | some g =>
    simp only [hf, Option.map_some, Option.some.injEq, Prod.mk.injEq] at h
    obtain ⟨_, hnew⟩ := h
    have hg := fill_get hf hy hx
    have hcell : Spec.cell (2 * halfPatch p wb) (written wb new) y x = g y x := by
      rw [← hnew]
      generalize 2 * halfPatch p wb = w at *
      have h1 : y * w + x < w * w := by
        calc y * w + x < y * w + w := by omega
          _ = (y + 1) * w := by ring
          _ ≤ w * w := Nat.mul_le_mul_right _ hy
      have h2 : (y * w + x) / w = y := by
        rw [mul_comm, Nat.mul_add_div (by omega), Nat.div_eq_of_lt hx, add_zero]
      have h3 : (y * w + x) % w = x := by
        rw [mul_comm, Nat.mul_add_mod, Nat.mod_eq_of_lt hx]
      unfold Spec.cell written
      cases wb <;> simp [Patch.extractPatchFromPatchWithBorder, h1, h2, h3]
    rw [hcell]
    by_cases hn : c.nearB = true
    · rw [if_pos hn] at hg
      have : usedWarp c = M2.one := by
        unfold usedWarp
        rw [if_pos]
        simpa [FC.nearB] using hn
      rw [this]
      exact samplePlain_interp hg
    · rw [if_neg hn] at hg
      have : usedWarp c = c.warpC := by
        unfold usedWarp
        rw [if_neg]
        simpa [FC.nearB] using hn
      rw [this]
      exact sampleWarped_interp hg

/-- C26: every extracted value lies between any bounds of the pixels at distance less than one (in both
directions) from the sampled position. -/
theorem C26_between {p : ℕ} {old new : Patch} {img : Img} {c c' : FC} {wb : Bool} (hv : c.validC = true) (hw : c.validWarpC = true)
    (h : Patch.extractPatchFromImage p old img c wb = some (c', new)) {y x : ℕ} (hy : y < 2 * halfPatch p wb) (hx : x < 2 * halfPatch p wb)
    (lo hi : ℝ) (hb : ∀ v < img.rows, ∀ u < img.cols,
      |(v : ℝ) - (samplePos c.c (usedWarp c) (halfPatch p wb) y x).y| < 1 → |(u : ℝ) - (samplePos c.c (usedWarp c) (halfPatch p wb) y x).x| < 1 →
      lo ≤ img.px v u ∧ (img.px v u : ℝ) ≤ hi) :
    lo ≤ Spec.cell (2 * halfPatch p wb) (written wb new) y x ∧ Spec.cell (2 * halfPatch p wb) (written wb new) y x ≤ hi := by
  obtain ⟨a1, a2, a3, a4, a5, a6, hr⟩ := extract_interp hv hw h hy hx
  generalize samplePos c.c (usedWarp c) (halfPatch p wb) y x = P at *
  rw [hr]
  have fx0 := Int.floor_le P.x
  have fx1 := Int.lt_floor_add_one P.x
  have fy0 := Int.floor_le P.y
  have fy1 := Int.lt_floor_add_one P.y
  have pix : ∀ v u : ℤ, 0 ≤ v → v < img.rows → 0 ≤ u → u < img.cols → |(v : ℝ) - P.y| < 1 → |(u : ℝ) - P.x| < 1 →
      lo ≤ img.px v.toNat u.toNat ∧ (img.px v.toNat u.toNat : ℝ) ≤ hi := by
    intro v u h1 h2 h3 h4 h5 h6
    refine hb v.toNat (by omega) u.toNat (by omega) ?_ ?_
    · have : ((v.toNat : ℕ) : ℝ) = (v : ℝ) := by
        have := Int.toNat_of_nonneg h1
        exact_mod_cast this
      rw [this]; exact h5
    · have : ((u.toNat : ℕ) : ℝ) = (u : ℝ) := by
        have := Int.toNat_of_nonneg h3
        exact_mod_cast this
      rw [this]; exact h6
  have tl := pix ⌊P.y⌋ ⌊P.x⌋ a1 a2 a3 a4 (by rw [abs_lt]; constructor <;> linarith) (by rw [abs_lt]; constructor <;> linarith)
  have tr : 0 < P.x - ⌊P.x⌋ → lo ≤ img.px ⌊P.y⌋.toNat (⌊P.x⌋ + 1).toNat ∧ (img.px ⌊P.y⌋.toNat (⌊P.x⌋ + 1).toNat : ℝ) ≤ hi := fun hp =>
    pix ⌊P.y⌋ (⌊P.x⌋ + 1) a1 a2 (by omega) (a5 hp) (by rw [abs_lt]; constructor <;> linarith) (by push_cast; rw [abs_lt]; constructor <;> linarith)
  have bl : 0 < P.y - ⌊P.y⌋ → lo ≤ img.px (⌊P.y⌋ + 1).toNat ⌊P.x⌋.toNat ∧ (img.px (⌊P.y⌋ + 1).toNat ⌊P.x⌋.toNat : ℝ) ≤ hi := fun hp =>
    pix (⌊P.y⌋ + 1) ⌊P.x⌋ (by omega) (a6 hp) a3 a4 (by push_cast; rw [abs_lt]; constructor <;> linarith) (by rw [abs_lt]; constructor <;> linarith)
  have br : 0 < P.x - ⌊P.x⌋ → 0 < P.y - ⌊P.y⌋ → lo ≤ img.px (⌊P.y⌋ + 1).toNat (⌊P.x⌋ + 1).toNat ∧ (img.px (⌊P.y⌋ + 1).toNat (⌊P.x⌋ + 1).toNat : ℝ) ≤ hi := fun hp hq =>
    pix (⌊P.y⌋ + 1) (⌊P.x⌋ + 1) (by omega) (a6 hq) (by omega) (a5 hp) (by push_cast; rw [abs_lt]; constructor <;> linarith) (by push_cast; rw [abs_lt]; constructor <;> linarith)
  generalize (img.px ⌊P.y⌋.toNat ⌊P.x⌋.toNat : ℝ) = A at *
  generalize (img.px ⌊P.y⌋.toNat (⌊P.x⌋ + 1).toNat : ℝ) = B at *
  generalize (img.px (⌊P.y⌋ + 1).toNat ⌊P.x⌋.toNat : ℝ) = C at *
  generalize (img.px (⌊P.y⌋ + 1).toNat (⌊P.x⌋ + 1).toNat : ℝ) = D at *
  have sx0 : 0 ≤ P.x - ⌊P.x⌋ := by linarith
  have sx1 : 0 ≤ 1 - (P.x - ⌊P.x⌋) := by linarith
  have sy0 : 0 ≤ P.y - ⌊P.y⌋ := by linarith
  have sy1 : 0 ≤ 1 - (P.y - ⌊P.y⌋) := by linarith
  generalize P.x - ⌊P.x⌋ = s at *
  generalize P.y - ⌊P.y⌋ = t at *
  -- weights times bounds
  have w1 := mul_nonneg sx1 sy1
  have w2 := mul_nonneg sx0 sy1
  have w3 := mul_nonneg sx1 sy0
  have w4 := mul_nonneg sx0 sy0
  have b1l := mul_le_mul_of_nonneg_left tl.1 w1
  have b1h := mul_le_mul_of_nonneg_left tl.2 w1
  have b2 : s * (1 - t) * lo ≤ s * (1 - t) * B ∧ s * (1 - t) * B ≤ s * (1 - t) * hi := by
    rcases lt_or_eq_of_le sx0 with hs | hs
    · exact ⟨mul_le_mul_of_nonneg_left (tr hs).1 w2, mul_le_mul_of_nonneg_left (tr hs).2 w2⟩
    · rw [← hs]; simp
  have b3 : (1 - s) * t * lo ≤ (1 - s) * t * C ∧ (1 - s) * t * C ≤ (1 - s) * t * hi := by
    rcases lt_or_eq_of_le sy0 with hs | hs
    · exact ⟨mul_le_mul_of_nonneg_left (bl hs).1 w3, mul_le_mul_of_nonneg_left (bl hs).2 w3⟩
    · rw [← hs]; simp
  have b4 : s * t * lo ≤ s * t * D ∧ s * t * D ≤ s * t * hi := by
    rcases lt_or_eq_of_le sx0 with hs | hs
    · rcases lt_or_eq_of_le sy0 with ht | ht
      · exact ⟨mul_le_mul_of_nonneg_left (br hs ht).1 w4, mul_le_mul_of_nonneg_left (br hs ht).2 w4⟩
      · rw [← ht]; simp
    · rw [← hs]; simp
  have elo : lo = (1 - s) * (1 - t) * lo + s * (1 - t) * lo + (1 - s) * t * lo + s * t * lo := by ring
  have ehi : hi = (1 - s) * (1 - t) * hi + s * (1 - t) * hi + (1 - s) * t * hi + s * t * hi := by ring
  constructor
  · linarith [b2.1, b3.1, b4.1]
  · linarith [b2.2, b3.2, b4.2]

/-- C26: at an integer position the extracted value is exactly that pixel's grey value. -/
theorem C26_integer {p : ℕ} {old new : Patch} {img : Img} {c c' : FC} {wb : Bool} (hv : c.validC = true) (hw : c.validWarpC = true)
    (h : Patch.extractPatchFromImage p old img c wb = some (c', new)) {y x : ℕ} (hy : y < 2 * halfPatch p wb) (hx : x < 2 * halfPatch p wb)
    {v u : ℕ} (hP : samplePos c.c (usedWarp c) (halfPatch p wb) y x = ⟨u, v⟩) :
    v < img.rows ∧ u < img.cols ∧ Spec.cell (2 * halfPatch p wb) (written wb new) y x = img.px v u := by
  obtain ⟨a1, a2, a3, a4, a5, a6, hr⟩ := extract_interp hv hw h hy hx
  rw [hP] at *
  simp only [Int.floor_natCast, Int.cast_natCast, Int.toNat_natCast, sub_self] at *
  refine ⟨by omega, by omega, ?_⟩
  rw [hr]; ring

/-- C26: on an image whose grey values are an affine function of the pixel indices the extracted value
is that affine function at the sampled position. -/
theorem C26_affine {p : ℕ} {old new : Patch} {img : Img} {c c' : FC} {wb : Bool} (hv : c.validC = true) (hw : c.validWarpC = true)
    (h : Patch.extractPatchFromImage p old img c wb = some (c', new)) {y x : ℕ} (hy : y < 2 * halfPatch p wb) (hx : x < 2 * halfPatch p wb)
    {k a b : ℝ} (haff : ∀ v < img.rows, ∀ u < img.cols, (img.px v u : ℝ) = k + a * u + b * v) :
    Spec.cell (2 * halfPatch p wb) (written wb new) y x =
      k + a * (samplePos c.c (usedWarp c) (halfPatch p wb) y x).x + b * (samplePos c.c (usedWarp c) (halfPatch p wb) y x).y := by
  obtain ⟨a1, a2, a3, a4, a5, a6, hr⟩ := extract_interp hv hw h hy hx
  generalize samplePos c.c (usedWarp c) (halfPatch p wb) y x = P at *
  rw [hr]
  have fx0 := Int.floor_le P.x
  have fy0 := Int.floor_le P.y
  have cst : ∀ z : ℤ, 0 ≤ z → ((z.toNat : ℕ) : ℝ) = (z : ℝ) := by
    intro z hz
    have := Int.toNat_of_nonneg hz
    exact_mod_cast this
  have pix : ∀ v u : ℤ, 0 ≤ v → v < img.rows → 0 ≤ u → u < img.cols → (img.px v.toNat u.toNat : ℝ) = k + a * u + b * v := by
    intro v u h1 h2 h3 h4
    rw [haff v.toNat (by omega) u.toNat (by omega), cst v h1, cst u h3]
  have tl := pix ⌊P.y⌋ ⌊P.x⌋ a1 a2 a3 a4
  rw [tl]
  rcases lt_or_eq_of_le (by linarith : 0 ≤ P.x - ⌊P.x⌋) with hs | hs <;> rcases lt_or_eq_of_le (by linarith : 0 ≤ P.y - ⌊P.y⌋) with ht | ht
  · rw [pix ⌊P.y⌋ (⌊P.x⌋ + 1) a1 a2 (by omega) (a5 hs), pix (⌊P.y⌋ + 1) ⌊P.x⌋ (by omega) (a6 ht) a3 a4,
      pix (⌊P.y⌋ + 1) (⌊P.x⌋ + 1) (by omega) (a6 ht) (by omega) (a5 hs)]
    push_cast; ring
  · rw [pix ⌊P.y⌋ (⌊P.x⌋ + 1) a1 a2 (by omega) (a5 hs), ← ht]
    have : P.y = ⌊P.y⌋ := by linarith
    conv_rhs => rw [this]
    push_cast; ring
  · rw [pix (⌊P.y⌋ + 1) ⌊P.x⌋ (by omega) (a6 ht) a3 a4, ← hs]
    have : P.x = ⌊P.x⌋ := by linarith
    conv_rhs => rw [this]
    push_cast; ring
  · rw [← hs, ← ht]
    have hx' : P.x = ⌊P.x⌋ := by linarith
    have hy' : P.y = ⌊P.y⌋ := by linarith
    conv_rhs => rw [hx', hy']
    ring

/-- C26: with border, the plain patch is the inner part of the expanded patch. -/
theorem C26_inner {p : ℕ} {old new : Patch} {img : Img} {c c' : FC}
    (h : Patch.extractPatchFromImage p old img c true = some (c', new)) {y x : ℕ} (hy : y < p) (hx : x < p) :
    Spec.cell p new.patch y x = Spec.cell (p + 2) new.border (y + 1) (x + 1) := by
  have key : ∃ s : Patch, new = { Patch.extractPatchFromPatchWithBorder p s with validGradient := false } := by
    unfold Patch.extractPatchFromImage at h
    cases hn : c.isNearIdentityWarping with
    | none => simp [hn] at h
    | some r =>
      obtain ⟨c1, near⟩ := r
      simp only [hn, Option.bind_eq_bind, Option.bind_some, if_true, Option.pure_def] at h
      generalize (if near = true then _ else _ : Option (FC × (ℕ → ℕ → ℝ))) = o at h
      cases o with
      | none => simp at h
      | some g =>
        simp only [Option.bind_some, Option.some.injEq, Prod.mk.injEq] at h
        exact ⟨_, h.2.symm⟩
  obtain ⟨s, rfl⟩ := key
  have h1 : y * p + x < p * p := by
    calc y * p + x < y * p + p := by omega
      _ = (y + 1) * p := by ring
      _ ≤ p * p := Nat.mul_le_mul_right _ hy
  have h2 : (y * p + x) / p = y := by
    rw [mul_comm, Nat.mul_add_div (by omega), Nat.div_eq_of_lt hx, add_zero]
  have h3 : (y * p + x) % p = x := by
    rw [mul_comm, Nat.mul_add_mod, Nat.mod_eq_of_lt hx]
  simp only [Spec.cell, Patch.extractPatchFromPatchWithBorder, h1, h2, h3, if_true]
  congr 1
  ring

/-- The extraction theorems apply: a patch of size 2 around pixel corner (3,2) of a 6 × 6 image. -/
example (junk : FC) (old : Patch) : ∃ new, Patch.extractPatchFromImage 2 old ⟨6, 6, fun y x => 10 * y + x⟩ (FC.constructPixel junk ⟨3, 2.5⟩) true =
    some (FC.constructPixel junk ⟨3, 2.5⟩, new) ∧ Spec.cell 4 new.border 1 2 = 10 * 1.5 + 3 := by
  have hs : (FC.constructPixel junk ⟨3, 2.5⟩).Settled := ⟨rfl, rfl⟩
  have hin : Patch.InP 2 ⟨6, 6, fun y x => 10 * y + x⟩ (FC.constructPixel junk ⟨3, 2.5⟩) true := by
    unfold Patch.InP
    have : (FC.constructPixel junk ⟨3, 2.5⟩).nearB = true := rfl
    rw [this, if_pos rfl]
    simp only [Patch.PlainIn, FC.constructPixel, halfPatch]
    norm_num
  obtain ⟨new, hnew⟩ := Patch.extract_total (old := old) hs (by norm_num) (by norm_num) hin
  refine ⟨new, hnew, ?_⟩
  have := C26_affine (k := 0) (a := 1) (b := 10) rfl rfl hnew (y := 1) (x := 2) (by decide) (by decide)
    (fun v _ u _ => by push_cast; ring)
  have e : (2 * halfPatch 2 true) = 4 := rfl
  rw [e] at this
  have hw : written true new = new.border := rfl
  rw [hw] at this
  rw [this]
  have : usedWarp (FC.constructPixel junk ⟨3, 2.5⟩) = M2.one := by
    unfold usedWarp; rw [if_pos]; left; rfl
  rw [this]
  simp only [samplePos, FC.constructPixel, M2.mulVec, M2.one, halfPatch]
  norm_num

end Rovio
