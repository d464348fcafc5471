import Verif.Lemmas.ImgPixel

/-!
# The image update reads pixels inside the images only (C88)

`none` is undefined behaviour in all definitions of `Model/ImgPixel.lean`, so "`= some`" says that every access of the call site is inside the image
it reads and that no conversion to `int` overflows.
-/

namespace Rovio.ImgPixel

open Align Spec

variable {env : Env}

/-- C88: motion detection compares a feature in the previous and the new image without leaving either, wherever the feature is, if both images
have the same size. -/
theorem C88_motion (hp : 2 ≤ env.p) {prev cur : List Level} (I : Images env.start prev) (J : Images env.start cur) (h : SameFormat I J) {c : FC} (hcam : c.cam ≠ none) :
    ∃ r, moving env prev cur c = some r := by
  obtain ⟨cam, hcam⟩ := Option.ne_none_iff_exists'.mp hcam
  have hcam' : c.setWarpIdentity.cam = some cam := hcam
  obtain ⟨c', b, h1, h2⟩ := inFrame_total hp I.built I.levels hcam' (B := 0) (R := 0) (warpIdentity_fit c) (by norm_num) true
  unfold moving
  simp only [h1, Option.bind_eq_bind, Option.bind_some, Option.pure_def]
  cases b with
  | false => exact ⟨none, by simp⟩
  | true =>
    obtain ⟨hs, _⟩ := h2 rfl
    obtain ⟨m1, hm1⟩ := extract_total hp I h1 env.tmp1
    have h1' : inFrame env prev c' true = some (c', true) := (C25_coarsest_decides hp I.built I.cols I.rows h1 (I.exact.imp id Or.inl) env.tmp1).2 _ le_rfl
    rw [inFrame_sizes I J h] at h1'
    obtain ⟨m2, hm2⟩ := extract_total hp J h1' env.tmp2
    simp only [if_true, hm1, hm2, Option.bind_some]
    exact ⟨_, rfl⟩

/-- C88: matching a feature in a camera reads the images inside only: the in-frame test, every step of every alignment from every seed, the
comparison of the results and the acceptance.  Required: the pixel of the feature is at most `B` and its warp reaches at most `R` pixels, the seeds
are within `B`, every step of the solver is at most `B`, and thirteen times `B` plus `R` is less than the range of an `int`.  A match that is
found lies in the new image with all its pixels on all levels. -/
theorem C88_match (hp : 2 ≤ env.p) {prev cur : List Level} (I : Images env.start prev) (J : Images env.start cur) {mp : MLP} {c : FC} {cov : FC.PixelCov} {B R : ℝ} (hB0 : 0 ≤ B)
    (hB : 13 * B + R + 2 ≤ 2147483648) (hc : Placed env.p B R c) (hcov : Seeds env.range env.coverage env.maxUni env.start B cov) (hsolve : ∀ rows u, env.solve rows = .ok u → Small B u) :
    ∃ r, search env prev cur mp c cov = some r ∧
      ∀ c', r = .found c' → inFrame env cur c' false = some (c', true) ∧ ∀ m, ∃ m', extract env m cur c' false = some (c', m') ∧ ∀ l ≤ env.start, m'.isValidPatch l = true := by
  obtain ⟨cam, hcam⟩ := Option.ne_none_iff_exists'.mp hc.cam
  obtain ⟨c1, b, h1, h2⟩ := inFrame_total hp I.built I.levels hcam (fun q W h => Fit.mono (placed_fit hc q W h) (by linarith : B ≤ 13 * B)) hB false
  unfold search
  simp only [h1, Option.bind_eq_bind, Option.bind_some, Option.pure_def]
  cases b with
  | false => exact ⟨_, rfl, by simp⟩
  | true =>
    obtain ⟨hs, hcam1, hu, _⟩ := h2 rfl
    simp only [Bool.not_true, Bool.false_eq_true, if_false]
    split_ifs with hd
    · exact ⟨_, rfl, by simp⟩
    · obtain ⟨o, ho, hok⟩ := align_total hp J (mp := mp) hB0 hB hsolve (placed_start hB0 hc hs (by rw [hcam1]; simp) hu) hcov
      simp only [ho, Option.bind_some]
      cases hk : o.ok with
      | false => exact ⟨_, rfl, by simp⟩
      | true =>
        obtain ⟨k1, k2, k3⟩ := hok hk
        obtain ⟨r, hr⟩ := accept_total hp J mp (k1.trans hcam1) k2 k3 hB
        simp only [if_true, hr, Option.bind_some]
        refine ⟨_, rfl, ?_⟩
        intro c' hc'
        cases r with
        | false => simp at hc'
        | true =>
          simp only [if_true, Match.found.injEq] at hc'
          subst hc'
          have hin := (accept_true k2 hr).2
          refine ⟨hin, fun m => ?_⟩
          exact (C25_coarsest_decides hp J.built J.cols J.rows hin (J.exact.imp id Or.inl) m).1

/-- C88: setting up the equations of the direct method. -/
theorem C88_innovation (hp : 2 ≤ env.p) {cur : List Level} (J : Images env.start cur) {mp : MLP} {c : FC} {B R : ℝ} (hB : B + R + 2 ≤ 2147483648) (hc : Placed env.p B R c) :
    ∃ r, innovation env cur mp c = some r := by
  obtain ⟨cam, hcam⟩ := Option.ne_none_iff_exists'.mp hc.cam
  obtain ⟨c', r, h, _⟩ := equations_total hp J.built J.cols J.rows (cfg := env.acfg) (junk := env.junk) (ex := env.ex) (mp := mp) (l1 := env.stop) J.levels hcam (placed_fit hc) hB
  exact ⟨_, h⟩

/-- C88: the outlier check after an update, with its four comparison samples: if the pixels of the samples are at most `B` as well. -/
theorem C88_outlierCheck (hp : 2 ≤ env.p) {cur : List Level} (J : Images env.start cur) {mp : MLP} {c : FC} {B R : ℝ} (hB : B + R + 2 ≤ 2147483648) (hc : Placed env.p B R c)
    (hd : ∀ c', Accessed c c' → ∀ d ∈ Img.samples env.sampling, ∀ s s' q, c'.boxPlus d = some s → s.getC = some (s', q) → Small B q) (hasConverged : Bool) :
    ∃ r, outlierCheck env cur mp c hasConverged = some r := by
  obtain ⟨cam, hcam⟩ := Option.ne_none_iff_exists'.mp hc.cam
  obtain ⟨c1, b, h1, h2⟩ := inFrame_total hp J.built J.levels hcam (placed_fit hc) hB false
  unfold outlierCheck
  cases hasConverged with
  | false => simp [h1]
  | true =>
    simp only [h1, Bool.not_true, Bool.false_eq_true, if_false, Option.bind_eq_bind, Option.bind_some, Option.pure_def]
    by_cases ht : env.rejectTh ≥ 0
    · rw [if_pos ht]
      cases b with
      | false => exact ⟨_, rfl⟩
      | true =>
        obtain ⟨hs, hcam1, hu, hacc⟩ := h2 rfl
        obtain ⟨m, hm⟩ := extract_total hp J h1 env.tmp1
        simp only [hm, Bool.not_true, Bool.false_eq_true, if_false, Option.bind_some]
        have hsamples : ∃ above, (Img.samples env.sampling).mapM (sample env cur mp (MLP.computeAverageDifference env.p m mp env.stop env.start) c1) = some above := by
          apply mapM_total
          intro d hdm
          obtain ⟨s, hs1, hs2, hs3, hs4⟩ := boxPlus_total hcam1 d
          obtain ⟨s1, b, k1, k2⟩ := inFrame_total hp J.built J.levels hs2 (B := B) (R := R) (by
            rintro q W ⟨e1, e2, g1, g2, rfl⟩
            rw [FC.comWarpC_valid (hs3.trans hs.warp)] at g1
            simp only [Option.some.injEq, Prod.mk.injEq, and_true] at g1
            subst g1
            rw [hs4]
            exact Moderate.fit (hc.here _ _ hu).2 (hd _ hacc d hdm _ _ _ hs1 g2)) hB false
          unfold sample
          simp only [hs1, k1, Option.bind_eq_bind, Option.bind_some, Option.pure_def]
          cases b with
          | false => exact ⟨_, rfl⟩
          | true =>
            obtain ⟨m', hm'⟩ := extract_total hp J k1 env.tmp1
            simp only [if_true, hm', Option.bind_some]
            exact ⟨_, rfl⟩
        obtain ⟨above, ha⟩ := hsamples
        simp only [ha, Option.bind_some]
        split_ifs <;> exact ⟨_, rfl⟩
    · rw [if_neg ht]; exact ⟨_, rfl⟩

/-- C88: the in-frame test that decides whether a feature was tracked. -/
theorem C88_verdict (hp : 2 ≤ env.p) {cur : List Level} (J : Images env.start cur) {c : FC} {B R : ℝ} (hB : B + R + 2 ≤ 2147483648) (hc : Placed env.p B R c) :
    ∃ r, verdict env cur c = some r := by
  obtain ⟨cam, hcam⟩ := Option.ne_none_iff_exists'.mp hc.cam
  obtain ⟨c1, b, h1, h2⟩ := inFrame_total hp J.built J.levels hcam (placed_fit hc) hB false
  exact ⟨b, by simp [verdict, h1]⟩

/-- C88: taking a new patch of a feature, wherever the feature is. -/
theorem C88_repatch (hp : 2 ≤ env.p) {cur : List Level} (J : Images env.start cur) {c : FC} (hcam : c.cam ≠ none) : ∃ r, repatch env cur c = some r := by
  obtain ⟨cam, hcam⟩ := Option.ne_none_iff_exists'.mp hcam
  have hcam' : c.setWarpIdentity.cam = some cam := hcam
  obtain ⟨c', b, h1, h2⟩ := inFrame_total hp J.built J.levels hcam' (B := 0) (R := 0) (warpIdentity_fit c) (by norm_num) true
  unfold repatch
  simp only [h1, Option.bind_eq_bind, Option.bind_some, Option.pure_def]
  cases b with
  | false => exact ⟨none, by simp⟩
  | true =>
    obtain ⟨m1, hm1⟩ := extract_total hp J h1 env.tmp1
    simp only [if_true, hm1, Option.bind_some]
    exact ⟨_, rfl⟩

/-- C88: detecting and evaluating new features, whatever corners OpenCV reports. -/
theorem C88_detect (hp : 2 ≤ env.p) (hlev : env.stop ≤ env.start) {cur : List Level} (J : Images env.start cur) (mjunk : MLP) (corners : ℕ → List V2) (radius : ℝ) :
    ∃ r, detect env mjunk cur corners radius = some r := by
  have hfold : ∀ (ls : List ℕ), (∀ l ∈ ls, l ≤ env.start) → ∀ cands : List FC, (∀ c ∈ cands, c.Plain) →
      ∃ cands', ls.foldlM (fun cands l => detectFastCorners env.junk cur cands l (corners l) radius) cands = some cands' ∧ ∀ c ∈ cands', c.Plain := by
    intro ls
    induction ls with
    | nil => exact fun _ cands hc => ⟨cands, rfl, hc⟩
    | cons l ls ih =>
      intro hl cands hc
      obtain ⟨a, ha, _⟩ := pyr_size J.built 0 (by have := J.levels; omega)
      obtain ⟨b, hb, _⟩ := pyr_size J.built l (by have := J.levels; have := hl l (by simp); omega)
      obtain ⟨new, hn, hnew⟩ := detect_one (junk := env.junk) ha hb cands (corners l) radius
      rw [List.foldlM_cons, hn]
      exact ih (fun l hl' => hl l (by simp [hl'])) _ (by
        intro c hc'
        rcases List.mem_append.mp hc' with h | h
        · exact hc c h
        · exact hnew c h)
  obtain ⟨cands, h1, h2⟩ := hfold (List.range' env.stop (env.start + 1 - env.stop)) (by
    intro l hl
    rw [List.mem_range'] at hl
    omega) [] (by simp)
  obtain ⟨evals, h3⟩ := mapM_total cands fun c hc => by
    obtain ⟨r, hr, _⟩ := candidate_plain hp J.built J.cols J.rows (junk := env.junk) mjunk (lo := env.stop) J.levels (h2 c hc)
    exact ⟨r, hr⟩
  unfold detect
  simp only [h1, h3, Option.bind_eq_bind, Option.bind_some, Option.pure_def]
  exact ⟨_, rfl⟩

/-- C88: matching a new feature in the next camera, for any uncertainty `cov` (the program passes zeros here, include/rovio/MultiCamera.hpp:104-109, so
that there is one seed).  There is no in-frame test before: the warp may still have to be computed wherever the search
begins. -/
theorem C88_stereo (hp : 2 ≤ env.p) {other : List Level} (J : Images env.start other) {mp : MLP} {c : FC} {cov : FC.PixelCov} {B R : ℝ} (hB0 : 0 ≤ B)
    (hB : 13 * B + R + 2 ≤ 2147483648) (hc : Start env.p B R c) (hcov : Seeds env.range env.coverage env.maxUni env.start B cov) (hsolve : ∀ rows u, env.solve rows = .ok u → Small B u) :
    ∃ r, stereo env other mp c cov = some r ∧ ∀ c', r = some c' → inFrame env other c' false = some (c', true) := by
  obtain ⟨cam, hcam⟩ := Option.ne_none_iff_exists'.mp hc.cam
  obtain ⟨o, ho, hok⟩ := align_total hp J (mp := mp) hB0 hB hsolve hc hcov
  unfold stereo
  simp only [ho, Option.bind_eq_bind, Option.bind_some, Option.pure_def]
  cases hk : o.ok with
  | false => exact ⟨_, rfl, by simp⟩
  | true =>
    obtain ⟨k1, k2, k3⟩ := hok hk
    obtain ⟨r, hr⟩ := accept_total hp J mp (k1.trans hcam) k2 k3 hB
    simp only [if_true, hr, Option.bind_some]
    refine ⟨_, rfl, ?_⟩
    intro c' hc'
    cases r with
    | false => simp at hc'
    | true =>
      simp only [if_true, Option.some.injEq] at hc'
      subst hc'
      exact (accept_true k2 hr).2

/-! ### Examples -/

/-- Settings for the examples: patches of 4 × 4 pixels on levels 0 and 1. -/
noncomputable def demoEnv (junk : FC) (m : MLP) (ex : ℕ → Patch) (acfg : AlignCfg) : Env where
  p := 4
  start := 1
  stop := 0
  junk := junk
  tmp1 := m
  tmp2 := m
  tmp := m
  ex := ex
  acfg := acfg
  solve := fun rows => if rows = none then .nonfinite else .ok ⟨1 / 2, -1 / 4⟩
  range := 3
  coverage := 2
  maxUni := 5
  direct := false
  rejectTh := 50
  motionTh := 1
  sampling := 1 / 100
  gain := 1

/-- A pyramid of two levels of a 64 × 48 image. -/
noncomputable def demoPyr (px : ℕ → ℕ → ℕ) (cv : Option (Img → ℕ → ℕ → ℕ)) : List Level := (levelsFrom_total cv 2 1 ⟨⟨48, 64, px⟩, 0⟩).choose

/-- Its construction. -/
noncomputable def demoImages (px : ℕ → ℕ → ℕ) (cv : Option (Img → ℕ → ℕ → ℕ)) : Images 1 (demoPyr px cv) where
  n := 2
  img := ⟨48, 64, px⟩
  cv := cv
  built := (levelsFrom_total cv 2 1 ⟨⟨48, 64, px⟩, 0⟩).choose_spec
  cols := by norm_num
  rows := by norm_num
  levels := by norm_num
  exact := Or.inr (by norm_num)

/-- A feature at pixel (30.5, 20) with a shear. -/
noncomputable def demoPlace (junk : FC) (cam : CamI) : FC := { atPixel junk ⟨61 / 2, 20⟩ ⟨1, 1 / 2, 0, 2⟩ with cam := some cam }

lemma demo_settled (junk : FC) (cam : CamI) : (demoPlace junk cam).Settled := ⟨rfl, rfl⟩

lemma demo_placed (junk : FC) (cam : CamI) : Placed 4 1000 100 (demoPlace junk cam) := by
  refine ⟨by simp [demoPlace], ?_⟩
  intro q W h
  obtain ⟨rfl, rfl⟩ := used_settled (demo_settled junk cam) h
  refine ⟨?_, Or.inr ?_⟩
  · norm_num [Spec.Small, demoPlace, atPixel, FC.constructPixel, FC.setWarpC]
  · norm_num [Reach, demoPlace, atPixel, FC.constructPixel, FC.setWarpC]

/-- The hypotheses of C88 are met by a sheared feature in a 64 × 48 image, a search along a diagonal and a solver with steps of half a pixel. -/
example (junk : FC) (m mp : MLP) (ex : ℕ → Patch) (acfg : AlignCfg) (cam : CamI) (px px' : ℕ → ℕ → ℕ) (cv : Option (Img → ℕ → ℕ → ℕ)) :
    (∃ r, moving (demoEnv junk m ex acfg) (demoPyr px cv) (demoPyr px' cv) (demoPlace junk cam) = some r) ∧
    (∃ r, search (demoEnv junk m ex acfg) (demoPyr px cv) (demoPyr px' cv) mp (demoPlace junk cam)
      ⟨7, 2, 0, ⟨3 / 5, 4 / 5⟩, ⟨-4 / 5, 3 / 5⟩⟩ = some r) ∧
    (∃ r, stereo (demoEnv junk m ex acfg) (demoPyr px' cv) mp (demoPlace junk cam) ⟨7, 2, 0, ⟨3 / 5, 4 / 5⟩, ⟨-4 / 5, 3 / 5⟩⟩ = some r) := by
  have hcov : Seeds 3 2 5 1 1000 ⟨7, 2, 0, ⟨3 / 5, 4 / 5⟩, ⟨-4 / 5, 3 / 5⟩⟩ :=
    ⟨by norm_num, by norm_num, by constructor <;> norm_num [abs_le], by norm_num⟩
  have hsolve : ∀ rows u, (demoEnv junk m ex acfg).solve rows = .ok u → Small 1000 u := by
    intro rows u h
    simp only [demoEnv] at h
    split_ifs at h
    simp only [SolveRes.ok.injEq] at h
    subst h
    constructor <;> norm_num [abs_le]
  refine ⟨C88_motion (env := demoEnv junk m ex acfg) (by norm_num [demoEnv]) (demoImages px cv) (demoImages px' cv) ⟨rfl, rfl, rfl⟩ (by simp [demoPlace]), ?_, ?_⟩
  · obtain ⟨r, h, _⟩ := C88_match (env := demoEnv junk m ex acfg) (by norm_num [demoEnv]) (demoImages px cv) (demoImages px' cv) (mp := mp) (B := 1000) (R := 100) (by norm_num) (by norm_num)
      (demo_placed junk cam) hcov hsolve
    exact ⟨r, h⟩
  · obtain ⟨r, h, _⟩ := C88_stereo (env := demoEnv junk m ex acfg) (by norm_num [demoEnv]) (demoImages px' cv) (mp := mp) (B := 1000) (R := 100) (by norm_num) (by norm_num)
      (placed_start (by norm_num) (demo_placed junk cam) (demo_settled junk cam) (by simp [demoPlace]) ⟨_, _, FC.comWarpC_valid rfl, (demo_settled junk cam).getC, rfl⟩) hcov hsolve
    exact ⟨r, h⟩

/-- The in-frame test of that feature is positive: the accesses that C88 speaks of do happen. -/
example (junk : FC) (m : MLP) (ex : ℕ → Patch) (acfg : AlignCfg) (cam : CamI) (px : ℕ → ℕ → ℕ) :
    inFrame (demoEnv junk m ex acfg) (demoPyr px none) (demoPlace junk cam) false = some (demoPlace junk cam, true) := by
  have built := (demoImages px none).built
  simp only [demoImages] at built
  obtain ⟨v, hv, sr, sc⟩ := pyr_size built 1 (by norm_num)
  have hz := pyr_zero built (by norm_num)
  obtain ⟨u, v', k1, k2, k3⟩ := pyr_step built (j := 0) (by norm_num)
  rw [hz, Option.some.injEq] at k1
  subst k1
  obtain ⟨cx, cy⟩ := nextLevel_center k3
  simp only [Nat.zero_add] at k2
  rw [hv, Option.some.injEq] at k2
  subst k2
  have hcx : v.center.x = 0 := by rw [cx]; norm_num [cvOff]
  have hcy : v.center.y = 0 := by rw [cy]; norm_num [cvOff]
  norm_num at sr sc
  have hcs := demo_settled junk cam
  obtain ⟨o, ho, so, fo, po, wo, io⟩ := levelTransform_settled (junk := junk) hz hv hcs
  have hwo : o.warpC = ⟨1, 1 / 2, 0, 2⟩ := by rw [wo]; rfl
  have hpo : o.c = ⟨61 / 4, 10⟩ := by
    rw [po]
    ext
    · rw [levelPixel_x, hcx]; norm_num [demoPlace, atPixel, FC.constructPixel, FC.setWarpC]
    · rw [levelPixel_y, hcy]; norm_num [demoPlace, atPixel, FC.constructPixel, FC.setWarpC]
  have hnear : o.nearB = false := by
    apply FC.nearB_false (by rw [io]; rfl)
    rw [hwo]
    apply Real.le_sqrt_of_sq_le
    norm_num
  have hin : Patch.isPatchInFrame 4 v.img o false = some (o, true) := by
    apply Patch.isPatchInFrame_of (by norm_num) (by omega) (by omega) so fo
    unfold Patch.InP
    rw [hnear, hwo, hpo]
    simp only [Bool.false_eq_true, if_false]
    rintro dx dy (rfl | rfl) (rfl | rfl) <;> rw [sr, sc] <;> simp only [halfPatch] <;> norm_num
  unfold inFrame MLP.isMultilevelPatchInFrame
  have hf : (demoPlace junk cam).isInFront = true := rfl
  simp [demoEnv, hf, FC.comWarpC_valid hcs.warp, ho, hv, hin]

/-- The remaining hypotheses of C88. -/
example (junk : FC) (m mp : MLP) (ex : ℕ → Patch) (acfg : AlignCfg) (cam : CamI) (px : ℕ → ℕ → ℕ) (cv : Option (Img → ℕ → ℕ → ℕ)) (corners : ℕ → List V2) :
    (∃ r, innovation (demoEnv junk m ex acfg) (demoPyr px cv) mp (demoPlace junk cam) = some r) ∧
    (∃ r, verdict (demoEnv junk m ex acfg) (demoPyr px cv) (demoPlace junk cam) = some r) ∧
    (∃ r, repatch (demoEnv junk m ex acfg) (demoPyr px cv) (demoPlace junk cam) = some r) ∧
    (∃ r, detect (demoEnv junk m ex acfg) m (demoPyr px cv) corners 1 = some r) :=
  ⟨C88_innovation (env := demoEnv junk m ex acfg) (by norm_num [demoEnv]) (demoImages px cv) (B := 1000) (R := 100) (by norm_num) (demo_placed junk cam),
   C88_verdict (env := demoEnv junk m ex acfg) (by norm_num [demoEnv]) (demoImages px cv) (B := 1000) (R := 100) (by norm_num) (demo_placed junk cam),
   C88_repatch (env := demoEnv junk m ex acfg) (by norm_num [demoEnv]) (demoImages px cv) (by simp [demoPlace]),
   C88_detect (env := demoEnv junk m ex acfg) (by norm_num [demoEnv]) (by norm_num [demoEnv]) (demoImages px cv) m corners 1⟩

/-- A camera whose pixels lie in a bounded image. -/
noncomputable def demoCam : CamI where
  p2b := fun _ => (⟨Quat.one⟩, true)
  b2p := fun n => some ⟨320 + 400 * max (-1) (min 1 n.vec.x), 240 + 400 * max (-1) (min 1 n.vec.y)⟩
  b2pJ := fun _ => none

/-- The hypotheses of `C88_outlierCheck` are met. -/
example (junk : FC) (m mp : MLP) (ex : ℕ → Patch) (acfg : AlignCfg) (px : ℕ → ℕ → ℕ) (cv : Option (Img → ℕ → ℕ → ℕ)) :
    ∃ r, outlierCheck (demoEnv junk m ex acfg) (demoPyr px cv) mp (demoPlace junk demoCam) true = some r := by
  refine C88_outlierCheck (env := demoEnv junk m ex acfg) (by norm_num [demoEnv]) (demoImages px cv) (B := 1000) (R := 100) (by norm_num) (demo_placed junk demoCam) ?_ true
  rintro c' ⟨c1, q1, h1, h2⟩ d _ s s' q h3 h4
  rw [FC.comWarpC_valid rfl] at h1
  simp only [Option.some.injEq, Prod.mk.injEq, and_true] at h1
  subst h1
  rw [(demo_settled junk demoCam).getC] at h2
  simp only [Option.some.injEq, Prod.mk.injEq] at h2
  obtain ⟨rfl, rfl⟩ := h2
  have hc : ∀ x : ℝ, |max (-1) (min 1 x)| ≤ 1 := fun x => abs_le.mpr ⟨le_max_left _ _, max_le (by norm_num) (min_le_left _ _)⟩
  have hb : ∀ a x : ℝ, |a| ≤ 320 → |a + 400 * max (-1) (min 1 x)| ≤ 1000 := by
    intro a x ha
    have := hc x
    rw [abs_le] at *
    constructor <;> linarith
  simp only [FC.boxPlus, FC.getNor, FC.comNor, demoPlace, atPixel, FC.constructPixel, FC.construct, FC.resetCoordinates, FC.setWarpIdentity, FC.setWarpC, demoCam, FC.setNor,
    Bool.false_eq_true, if_false, if_true, Option.bind_eq_bind, Option.bind_some, Option.pure_def, Option.some.injEq, Bool.and_false] at h3
  subst h3
  simp only [FC.getC, FC.comC, Bool.false_eq_true, if_false, if_true, Option.bind_eq_bind, Option.bind_some, Option.pure_def, Option.some.injEq, Prod.mk.injEq] at h4
  obtain ⟨rfl, rfl⟩ := h4
  exact ⟨hb _ _ (by norm_num), hb _ _ (by norm_num [abs_le])⟩

/-! ### Findings -/

/-- C88, finding: the images may not change their size.  Motion detection tests the position in the previous image and reads the new one: with a
smaller new image it reads outside. -/
theorem C88_finding_size_change (junk : FC) (m : MLP) (ex : ℕ → Patch) (acfg : AlignCfg) (cam : CamI) (px px' : ℕ → ℕ → ℕ) :
    ∃ prev cur c, computeFromImage 1 ⟨48, 64, px⟩ none = some prev ∧ computeFromImage 1 ⟨24, 32, px'⟩ none = some cur ∧ c.cam = some cam ∧
      moving { demoEnv junk m ex acfg with start := 0 } prev cur c = none := by
  set env : Env := { demoEnv junk m ex acfg with start := 0 } with henv
  set c : FC := { FC.constructPixel junk ⟨50, 40⟩ with cam := some cam } with hc
  obtain ⟨prev, hprev⟩ := levelsFrom_total none 1 1 ⟨⟨48, 64, px⟩, 0⟩
  obtain ⟨cur, hcur⟩ := levelsFrom_total none 1 1 ⟨⟨24, 32, px'⟩, 0⟩
  have zp := pyr_zero (cv := none) hprev (by norm_num)
  have zc := pyr_zero (cv := none) hcur (by norm_num)
  refine ⟨prev, cur, c, hprev, hcur, rfl, ?_⟩
  have hs : c.setWarpIdentity.Settled := ⟨rfl, rfl⟩
  obtain ⟨o, ho, so, fo, po, wo, io⟩ := levelTransform_settled (junk := junk) zp zp hs
  have hpo : o.c = ⟨50, 40⟩ := by rw [po, levelPixel_self]; rfl
  have hnear : o.nearB = true := by
    unfold FC.nearB
    rw [wo]
    norm_num [hc, FC.setWarpIdentity, M2.distOne, M2.one]
  have hin : inFrame env prev c.setWarpIdentity true = some (c.setWarpIdentity, true) := by
    have : Patch.isPatchInFrame 4 ⟨48, 64, px⟩ o true = some (o, true) := by
      apply Patch.isPatchInFrame_of (by norm_num) (by norm_num) (by norm_num) so fo
      unfold Patch.InP
      rw [hnear, if_pos rfl, hpo]
      norm_num [Patch.PlainIn, halfPatch]
    unfold inFrame MLP.isMultilevelPatchInFrame
    have hf : c.setWarpIdentity.isInFront = true := rfl
    simp [henv, demoEnv, hf, FC.comWarpC_valid hs.warp, ho, zp, this]
  have J : Images env.start prev := ⟨1, ⟨48, 64, px⟩, none, hprev, by norm_num, by norm_num, by norm_num [henv], Or.inl rfl⟩
  obtain ⟨m1, hm1⟩ := extract_total (by norm_num [henv, demoEnv]) J hin env.tmp1
  have hnone : extract env env.tmp2 cur c.setWarpIdentity true = none := by
    obtain ⟨o, ho, so, fo, po, wo, io⟩ := levelTransform_settled (junk := junk) zc zc hs
    have hpo : o.c = ⟨50, 40⟩ := by rw [po, levelPixel_self]; rfl
    have hnear : o.nearB = true := by
      unfold FC.nearB
      rw [wo]
      norm_num [hc, FC.setWarpIdentity, M2.distOne, M2.one]
    have : Patch.extractPatchFromImage 4 (env.tmp2.patches 0) ⟨24, 32, px'⟩ o true = none := by
      rw [Patch.extract_settled so, hnear, hpo]
      simp only [if_true, Option.map_eq_none_iff]
      cases hfill : fill 0 (2 * halfPatch 4 true) (2 * halfPatch 4 true) (Patch.samplePlain ⟨24, 32, px'⟩ ⟨50, 40⟩ (halfPatch 4 true)) with
      | none => rfl
      | some g =>
        exfalso
        have s00 := fill_get hfill (y := 0) (x := 0) (by decide) (by decide)
        unfold Patch.samplePlain at s00
        have e1 : floorInt (50 : ℝ) = some 50 := by rw [floorInt_total (by norm_num) (by norm_num)]; norm_num
        have e2 : floorInt (40 : ℝ) = some 40 := by rw [floorInt_total (by norm_num) (by norm_num)]; norm_num
        simp only [e1, e2, Option.bind_eq_bind, Option.bind_some] at s00
        have := (Patch.bilinear_inv (by norm_num) (by norm_num) s00).2.1
        norm_num [halfPatch] at this
    unfold extract MLP.extractMultilevelPatchFromImage
    rw [List.range_succ_eq_map, List.foldlM_cons]
    unfold MLP.extractLevel
    have ho' : levelTransform env.junk cur c.setWarpIdentity 0 0 = some (c.setWarpIdentity, o) := ho
    have hp' : Patch.extractPatchFromImage env.p (env.tmp2.patches 0) ⟨24, 32, px'⟩ o true = none := this
    simp [ho', zc, hp']
  unfold moving
  simp [hin, hm1, hnone]

/-- C88, finding: the in-frame test itself is undefined for a position far outside the image (with a warp other than the identity): the corner of
the patch is converted to an `int` before it is compared with the image.  Bearings close to the image plane of a pinhole camera have such
positions. -/
theorem C88_finding_overflow (junk : FC) (m : MLP) (ex : ℕ → Patch) (acfg : AlignCfg) (cam : CamI) (px : ℕ → ℕ → ℕ) :
    ∃ pyr, ∃ c : FC, computeFromImage 1 ⟨48, 64, px⟩ none = some pyr ∧ c.cam = some cam ∧ c.Settled ∧ c.c = ⟨3000000000, 10⟩ ∧
      inFrame { demoEnv junk m ex acfg with start := 0 } pyr c false = none := by
  set c : FC := { atPixel junk ⟨3000000000, 10⟩ ⟨2, 0, 0, 2⟩ with cam := some cam } with hc
  obtain ⟨pyr, hpyr⟩ := levelsFrom_total none 1 1 ⟨⟨48, 64, px⟩, 0⟩
  have hz := pyr_zero (cv := none) hpyr (by norm_num)
  have hs : c.Settled := ⟨rfl, rfl⟩
  refine ⟨pyr, c, hpyr, rfl, hs, rfl, ?_⟩
  obtain ⟨o, ho, so, fo, po, wo, io⟩ := levelTransform_settled (junk := junk) hz hz hs
  have hwo : o.warpC = ⟨2, 0, 0, 2⟩ := by rw [wo]; rfl
  have hpo : o.c = ⟨3000000000, 10⟩ := by rw [po, levelPixel_self]; rfl
  have hnear : o.nearB = false := by
    apply FC.nearB_false (by rw [io]; rfl)
    rw [hwo]
    apply Real.le_sqrt_of_sq_le
    norm_num
  have hcorner : Patch.cornersOk ⟨48, 64, px⟩ ⟨3000000000, 10⟩ ⟨2, 0, 0, 2⟩ (halfPatch 4 false) = none := by
    have hfl : floorInt ((3000000000 : ℝ) + (2 * (((0 : ℕ) : ℝ) - (halfPatch 4 false : ℕ) + 0.5) + 0 * (((0 : ℕ) : ℝ) - (halfPatch 4 false : ℕ) + 0.5)) - 0.5) = none := by
      unfold floorInt
      rw [if_neg]
      rintro ⟨_, h⟩
      have := Int.lt_floor_add_one ((3000000000 : ℝ) + (2 * (((0 : ℕ) : ℝ) - (halfPatch 4 false : ℕ) + 0.5) + 0 * (((0 : ℕ) : ℝ) - (halfPatch 4 false : ℕ) + 0.5)) - 0.5)
      have h' := (Int.cast_le (R := ℝ)).mpr h
      norm_num [halfPatch] at this h'
    unfold Patch.cornersOk
    simp only [List.allM]
    unfold Patch.cornerOk
    simp only [hfl, Option.bind_eq_bind, Option.bind_none]
  have hnone : Patch.isPatchInFrame 4 ⟨48, 64, px⟩ o false = none := by
    unfold Patch.isPatchInFrame
    simp [fo, FC.comWarpC_valid so.warp, FC.isNear_valid so.warp, FC.getWarpC_valid so.warp, so.getC, hnear, hwo, hpo, hcorner]
  unfold inFrame MLP.isMultilevelPatchInFrame
  have hf : c.isInFront = true := rfl
  simp [demoEnv, hf, FC.comWarpC_valid hs.warp, ho, hz, hnone]

end Rovio.ImgPixel
