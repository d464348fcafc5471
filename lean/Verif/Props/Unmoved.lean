import Verif.Lemmas.Unmoved

/-!
# Property C104: a feature that has not moved is found where it is

The image shows, around the start pixel, the reference patch (up to a brightness change the alignment estimates).  With texture in two
directions the alignment then succeeds after one iteration and returns the start pixel unchanged; without, it reports failure and leaves
the coordinates alone.  The linear solver is any one that meets `Spec.SolvesLeastSquares`.
-/

namespace Rovio

open Align

/-- A solver that meets the specification exists. -/
lemma leastSquares_exists : ∃ solve : Option (List Row) → SolveRes, Spec.SolvesLeastSquares solve := by
  have key : ∀ rows : List Row, Spec.FullRank rows → ∃ x, ∀ y, Spec.squaredError rows x ≤ Spec.squaredError rows y := by
    intro rows hf
    set sxx := (rows.map fun r => r.a0 * r.a0).sum with h1
    set sxy := (rows.map fun r => r.a0 * r.a1).sum with h2
    set syy := (rows.map fun r => r.a1 * r.a1).sum with h3
    set bx := (rows.map fun r => r.a0 * r.b).sum with h4
    set bY := (rows.map fun r => r.a1 * r.b).sum with h5
    have hQ : ∀ v : V2, (rows.map fun r => (r.a0 * v.x + r.a1 * v.y) ^ 2).sum = sxx * v.x ^ 2 + 2 * sxy * v.x * v.y + syy * v.y ^ 2 := by
      intro v
      rw [h1, h2, h3]
      clear_value sxx sxy syy bx bY
      clear h1 h2 h3 h4 h5 hf
      induction rows with
      | nil => simp
      | cons r rs ih => simp only [List.map_cons, List.sum_cons]; rw [ih]; ring
    have hQ0 : ∀ v : V2, 0 ≤ (rows.map fun r => (r.a0 * v.x + r.a1 * v.y) ^ 2).sum := by
      intro v
      apply List.sum_nonneg
      intro z hz
      obtain ⟨q, _, rfl⟩ := List.mem_map.mp hz
      exact sq_nonneg _
    have hE : ∀ x y : V2, Spec.squaredError rows y = Spec.squaredError rows x + (rows.map fun r => (r.a0 * (y.x - x.x) + r.a1 * (y.y - x.y)) ^ 2).sum +
        2 * ((y.x - x.x) * (sxx * x.x + sxy * x.y - bx) + (y.y - x.y) * (sxy * x.x + syy * x.y - bY)) := by
      intro x y
      rw [h1, h2, h3, h4, h5]
      unfold Spec.squaredError
      clear_value sxx sxy syy bx bY
      clear h1 h2 h3 h4 h5 hf hQ hQ0
      induction rows with
      | nil => simp
      | cons r rs ih => simp only [List.map_cons, List.sum_cons]; rw [ih]; ring
    have hzero : ∀ v : V2, (rows.map fun r => (r.a0 * v.x + r.a1 * v.y) ^ 2).sum = 0 → v = ⟨0, 0⟩ := by
      intro v hv
      refine hf v fun r hr => ?_
      have hn : ∀ y ∈ rows.map fun r => (r.a0 * v.x + r.a1 * v.y) ^ 2, 0 ≤ y := by
        intro y hy
        obtain ⟨q, _, rfl⟩ := List.mem_map.mp hy
        exact sq_nonneg _
      have := List.single_le_sum hn _ (List.mem_map_of_mem hr)
      rw [hv] at this
      exact pow_eq_zero_iff (two_ne_zero) |>.mp (le_antisymm this (sq_nonneg _))
    have hxx : sxx ≠ 0 := by
      intro h0
      have := hzero ⟨1, 0⟩ (by rw [hQ, h0]; ring)
      simp at this
    have hdet : sxx * syy - sxy * sxy ≠ 0 := by
      intro h0
      have := hzero ⟨sxy, -sxx⟩ (by rw [hQ]; linear_combination sxx * h0)
      simp only [V2.mk.injEq, neg_eq_zero] at this
      exact hxx this.2
    obtain ⟨D, hD⟩ : ∃ D, D = sxx * syy - sxy * sxy := ⟨_, rfl⟩
    rw [← hD] at hdet
    refine ⟨⟨(syy * bx - sxy * bY) / D, (sxx * bY - sxy * bx) / D⟩, fun y => ?_⟩
    set x : V2 := ⟨(syy * bx - sxy * bY) / D, (sxx * bY - sxy * bx) / D⟩ with hx
    have n1 : sxx * x.x + sxy * x.y - bx = 0 := by rw [hx]; simp only; field_simp; rw [hD]; ring
    have n2 : sxy * x.x + syy * x.y - bY = 0 := by rw [hx]; simp only; field_simp; rw [hD]; ring
    rw [hE x y, n1, n2]
    have := hQ0 ⟨y.x - x.x, y.y - x.y⟩
    simp only at this
    linarith
  classical
  refine ⟨fun r => match r with
    | none => .nonfinite
    | some rows => if h : Spec.FullRank rows then .ok (key rows h).choose else .lowRank, ⟨?_, ?_⟩⟩
  · intro rows h
    exact ⟨_, by simp only [dif_pos h], (key rows h).choose_spec⟩
  · intro rows h
    simp only [dif_neg h]

/-- C104: if the image shows the reference patch at the start coordinates (all levels inside, intensities `α · I + β` with a brightness
change that is estimated) and the patch has texture in two directions, `align2D` succeeds and returns the start pixel and warp unchanged:
for every least-squares solver, number of iterations, tolerance, Huber threshold and positive weighting, from either kind of pyramid. -/
theorem C104_found {p : ℕ} (hp : 2 ≤ p) (hev : p % 2 = 0) {cfg : AlignCfg} {junk : FC} {ex : ℕ → Patch} {solve : Option (List Row) → SolveRes}
    (hsol : Spec.SolvesLeastSquares solve) {n : ℕ} {img : Img} {cv : Option (Img → ℕ → ℕ → ℕ)} {pyr : List Level}
    (hpyr : computeFromImage n img cv = some pyr) (hcols : img.cols ≤ 2147483647) (hrows : img.rows ≤ 2147483647)
    {mp : MLP} (hr : MLP.Reach p mp) {c : FC} (hs : c.Settled) (hc : c.validC = true) (hd : c.nearB = true ∨ c.warpC.det ≠ 0)
    {l1 l2 : ℕ} (hl : l1 ≤ l2) {wb : Bool} (hin : MLP.isMultilevelPatchInFrame p junk pyr c l2 wb = some (c, true))
    (hcv : cv = none ∨ (2 ^ (n - 1) ∣ img.rows ∧ 2 ^ (n - 1) ∣ img.cols) ∨ c.cam = none ∨ c.warpC.distOne < 1e-6)
    (hv : ∀ l, l1 ≤ l → l ≤ l2 → mp.isValidPatch l = true)
    {m0 vis : MLP} (hvis : MLP.extractMultilevelPatchFromImage p junk m0 pyr c l2 wb = some (c, vis)) {α β : ℝ}
    (hsame : ∀ l, l1 ≤ l → l ≤ l2 → ∀ k < p * p, (vis.patches l).patch k = α * (mp.patches l).patch k + β)
    (hα : if cfg.useSqew then 1 / 2 ≤ α else α = 1) (hβ : cfg.useOffset = true ∨ β = 0)
    (hw : cfg.useWeighting = true → ∀ k, 0 < cfg.w k) (hg : cfg.gradExp ≤ 0)
    (ht : Spec.Textured p l1 l2 (fun l => (mp.patches l).patch) (fun l => (mp.patches l).border))
    (hf : cfg.useSqew = true → Spec.NotFlat p l1 l2 (fun l => (mp.patches l).patch))
    {maxIter : ℕ} {tol : ℝ} (hi : 1 ≤ maxIter) (htol : 0 < tol) :
    ∃ o, align2D p cfg junk ex solve pyr mp c l1 l2 maxIter tol = some o ∧ o.ok = true ∧ o.nan = false ∧
      o.c.getC = some (o.c, c.c) ∧ o.c.getWarpC = some (o.c, c.warpC) := by
  refine ⟨_, align_shows hp hsol hi htol hs hc hl hd (shows_of hp hev hpyr hcols hrows hs hin hcv hvis hv hsame) hr hw hg hα hβ ht hf, rfl, rfl, ?_, ?_⟩
  · exact (setC_settled hs.warp _).2
  · rw [FC.getWarpC_valid (setC_self hs).1.warp, (setC_self hs).2.2.2.1]

/-- C104: a patch taken from an image is found in that very image, at the place it was taken from. -/
theorem C104_unmoved {p : ℕ} (hp : 2 ≤ p) (hev : p % 2 = 0) {cfg : AlignCfg} {junk : FC} {ex : ℕ → Patch} {solve : Option (List Row) → SolveRes}
    (hsol : Spec.SolvesLeastSquares solve) {n : ℕ} {img : Img} {cv : Option (Img → ℕ → ℕ → ℕ)} {pyr : List Level}
    (hpyr : computeFromImage n img cv = some pyr) (hcols : img.cols ≤ 2147483647) (hrows : img.rows ≤ 2147483647)
    {m0 mp : MLP} (hr : MLP.Reach p m0) {c : FC} (hs : c.Settled) (hc : c.validC = true) (hd : c.nearB = true ∨ c.warpC.det ≠ 0)
    {l1 l2 : ℕ} (hl : l1 ≤ l2) (hin : MLP.isMultilevelPatchInFrame p junk pyr c l2 true = some (c, true))
    (hcv : cv = none ∨ (2 ^ (n - 1) ∣ img.rows ∧ 2 ^ (n - 1) ∣ img.cols) ∨ c.cam = none ∨ c.warpC.distOne < 1e-6)
    (hmp : MLP.extractMultilevelPatchFromImage p junk m0 pyr c l2 true = some (c, mp))
    (hw : cfg.useWeighting = true → ∀ k, 0 < cfg.w k) (hg : cfg.gradExp ≤ 0)
    (ht : Spec.Textured p l1 l2 (fun l => (mp.patches l).patch) (fun l => (mp.patches l).border))
    (hf : cfg.useSqew = true → Spec.NotFlat p l1 l2 (fun l => (mp.patches l).patch))
    {maxIter : ℕ} {tol : ℝ} (hi : 1 ≤ maxIter) (htol : 0 < tol) :
    ∃ o, align2D p cfg junk ex solve pyr mp c l1 l2 maxIter tol = some o ∧ o.ok = true ∧ o.nan = false ∧
      o.c.getC = some (o.c, c.c) ∧ o.c.getWarpC = some (o.c, c.warpC) := by
  obtain ⟨_, hval, _⟩ := extractAll_inv hs (List.range (l2 + 1)) m0 mp c List.nodup_range hmp
  refine C104_found hp hev hsol hpyr hcols hrows (.extract hr hmp) hs hc hd hl hin hcv (fun l _ b => hval l (List.mem_range.mpr (by omega))) hmp
    (α := 1) (β := 0) (fun l _ _ k _ => by ring) ?_ (Or.inr rfl) hw hg ht hf hi htol
  split_ifs
  · norm_num
  · rfl

/-- C104: without texture in two directions (and gain and offset estimated) the alignment reports failure and leaves the coordinates
as they are: the condition of `C104_found` is sharp. -/
theorem C104_untextured {p : ℕ} (hp : 2 ≤ p) (hev : p % 2 = 0) {cfg : AlignCfg} {junk : FC} {ex : ℕ → Patch} {solve : Option (List Row) → SolveRes}
    (hsol : Spec.SolvesLeastSquares solve) {n : ℕ} {img : Img} {cv : Option (Img → ℕ → ℕ → ℕ)} {pyr : List Level}
    (hpyr : computeFromImage n img cv = some pyr) (hcols : img.cols ≤ 2147483647) (hrows : img.rows ≤ 2147483647)
    {mp : MLP} (hr : MLP.Reach p mp) {c : FC} (hs : c.Settled) (hc : c.validC = true) (hd : c.nearB = true ∨ c.warpC.det ≠ 0)
    {l1 l2 : ℕ} (hl : l1 ≤ l2) {wb : Bool} (hin : MLP.isMultilevelPatchInFrame p junk pyr c l2 wb = some (c, true))
    (hcv : cv = none ∨ (2 ^ (n - 1) ∣ img.rows ∧ 2 ^ (n - 1) ∣ img.cols) ∨ c.cam = none ∨ c.warpC.distOne < 1e-6)
    (hv : ∀ l, l1 ≤ l → l ≤ l2 → mp.isValidPatch l = true)
    {m0 vis : MLP} (hvis : MLP.extractMultilevelPatchFromImage p junk m0 pyr c l2 wb = some (c, vis)) {α β : ℝ}
    (hsame : ∀ l, l1 ≤ l → l ≤ l2 → ∀ k < p * p, (vis.patches l).patch k = α * (mp.patches l).patch k + β)
    (hα : 1 / 2 ≤ α) (ho : cfg.useOffset = true) (hq : cfg.useSqew = true) (hw : cfg.useWeighting = true → ∀ k, 0 < cfg.w k)
    (ht : ¬ Spec.Textured p l1 l2 (fun l => (mp.patches l).patch) (fun l => (mp.patches l).border))
    (hf : Spec.NotFlat p l1 l2 (fun l => (mp.patches l).patch)) {maxIter : ℕ} {tol : ℝ} :
    align2D p cfg junk ex solve pyr mp c l1 l2 maxIter tol = some ⟨c, false, false⟩ :=
  align_untextured hp hsol hs hc hl hd (shows_of hp hev hpyr hcols hrows hs hin hcv hvis hv hsame) hr hw hα ho hq ht hf

/-- A patch that is in frame with its border is in frame without. -/
lemma inFrame_inner {p : ℕ} (hp : 2 ≤ p) {n : ℕ} {img : Img} {cv : Option (Img → ℕ → ℕ → ℕ)} {pyr : List Level}
    (hpyr : computeFromImage n img cv = some pyr) (hcols : img.cols ≤ 2147483647) (hrows : img.rows ≤ 2147483647) {junk c : FC} {l : ℕ} {wb : Bool}
    (hs : c.Settled) (h : MLP.isMultilevelPatchInFrame p junk pyr c l wb = some (c, true)) :
    MLP.isMultilevelPatchInFrame p junk pyr c l false = some (c, true) := by
  obtain ⟨lvl, cl, h1, h2, h3, h4, h5⟩ := inFrame_level hp hs h
  have h6 : Patch.InP p lvl.img cl false := by
    cases wb with
    | true => exact Patch.inP_inner hp h5
    | false => exact h5
  have hln : l < n := by
    rw [← (levelsFrom_spec cv _ _ _ _ hpyr).1]
    exact (List.getElem?_eq_some_iff.mp h1).1
  obtain ⟨B, hB, s1, s2⟩ := pyr_size hpyr l hln
  rw [h1] at hB
  obtain rfl := Option.some.inj hB
  have h7 := Patch.isPatchInFrame_of hp (by rw [s2]; exact (Nat.div_le_self _ _).trans hcols) (by rw [s1]; exact (Nat.div_le_self _ _).trans hrows) h3 h4 h6
  unfold MLP.isMultilevelPatchInFrame at h ⊢
  split_ifs at h with h0
  · simp at h
  rw [if_neg h0]
  simp [FC.comWarpC_valid hs.warp, h2, h1, h7]

/-- C104: the adaptive alignment finds an unmoved textured patch too, for every number of seeds and every direction: whenever it runs to
completion it succeeds, and at the coordinates it returns the image shows the reference patch up to a constant brightness offset (several
seeds may find equally good places, so the place need not be the start pixel). -/
theorem C104_adaptive {p : ℕ} (hp : 2 ≤ p) (hev : p % 2 = 0) {cfg : AlignCfg} {junk : FC} {ex : ℕ → Patch} {tmp : MLP} {solve : Option (List Row) → SolveRes}
    (hsol : Spec.SolvesLeastSquares solve) {n : ℕ} {img : Img} {cv : Option (Img → ℕ → ℕ → ℕ)} {pyr : List Level}
    (hpyr : computeFromImage n img cv = some pyr) (hcols : img.cols ≤ 2147483647) (hrows : img.rows ≤ 2147483647)
    {mp : MLP} (hr : MLP.Reach p mp) {c : FC} (hs : c.Settled) (hc : c.validC = true) (hd : c.nearB = true ∨ c.warpC.det ≠ 0)
    {highest lowest : ℕ} {wb : Bool} (hl : highest ≤ lowest) (hin : MLP.isMultilevelPatchInFrame p junk pyr c lowest wb = some (c, true))
    (hcv : cv = none ∨ (2 ^ (n - 1) ∣ img.rows ∧ 2 ^ (n - 1) ∣ img.cols) ∨ c.cam = none ∨ c.warpC.distOne < 1e-6)
    (hv : ∀ l, highest ≤ l → l ≤ lowest → mp.isValidPatch l = true)
    {m0 vis : MLP} (hvis : MLP.extractMultilevelPatchFromImage p junk m0 pyr c lowest wb = some (c, vis)) {β : ℝ}
    (hsame : ∀ l, highest ≤ l → l ≤ lowest → ∀ k < p * p, (vis.patches l).patch k = (mp.patches l).patch k + β)
    (hβ : cfg.useOffset = true ∨ β = 0)
    (hw : cfg.useWeighting = true → ∀ k, 0 < cfg.w k) (hg : cfg.gradExp ≤ 0)
    (ht : Spec.Textured p highest lowest (fun l => (mp.patches l).patch) (fun l => (mp.patches l).border))
    (hf : cfg.useSqew = true → Spec.NotFlat p highest lowest (fun l => (mp.patches l).patch))
    {sigma1 range coverage : ℝ} {dir : V2} {maxUni k : ℤ} (hk : seedCount sigma1 coverage range lowest maxUni = some k) (hk0 : 0 ≤ k)
    {o : Out} (h : align2DAdaptive p cfg junk ex tmp solve pyr mp c sigma1 dir lowest highest range coverage maxUni = some o) :
    o.ok = true ∧ o.nan = false ∧ ∃ m, MLP.extractMultilevelPatchFromImage p junk tmp pyr o.c lowest false = some (o.c, m) ∧
      ∃ b : ℝ, ∀ l, highest ≤ l → l ≤ lowest → ∀ y < p, ∀ x < p, Spec.cell p (m.patches l).patch y x = Spec.cell p (mp.patches l).patch y x + b := by
  set c0 := c.setC c.c false with hc0
  obtain ⟨s0, v0, e1, e2, e3, e4⟩ := setC_self hs
  have hα : (if cfg.useSqew then (1 : ℝ) / 2 ≤ 1 else (1 : ℝ) = 1) := by split_ifs <;> norm_num
  have hsame' : ∀ l, highest ≤ l → l ≤ lowest → ∀ k < p * p, (vis.patches l).patch k = 1 * (mp.patches l).patch k + β := by
    intro l a b k hk; rw [one_mul]; exact hsame l a b k hk
  have hinw := inFrame_setC hs hin
  have hin0 := inFrame_inner hp hpyr hcols hrows s0 hinw
  have hcv0 : cv = none ∨ (2 ^ (n - 1) ∣ img.rows ∧ 2 ^ (n - 1) ∣ img.cols) ∨ c0.cam = none ∨ c0.warpC.distOne < 1e-6 := by rw [hc0, e4, e2]; exact hcv
  have hvis0 : MLP.extractMultilevelPatchFromImage p junk m0 pyr c0 lowest wb = some (c0, vis) := extract_setC hs _ _ _ _ hvis
  have hal0 : align2D p cfg junk ex solve pyr mp c0 highest lowest = some ⟨c0, false, true⟩ := by
    have := align_shows hp (cfg := cfg) (ex := ex) (maxIter := 10) (tol := 0.03) hsol (by norm_num) (by norm_num) s0 v0 hl (by rw [e3, e2]; exact hd)
      (shows_of hp hev hpyr hcols hrows s0 hinw hcv0 hvis0 hv hsame') hr hw hg hα hβ ht hf
    rw [this, setC_setC, ← hc0]
    congr 2
    rw [hc0, e1]
  have hal : align2D p cfg junk ex solve pyr mp c highest lowest = some ⟨c0, false, true⟩ :=
    align_shows hp (cfg := cfg) (ex := ex) (maxIter := 10) (tol := 0.03) hsol (by norm_num) (by norm_num) hs hc hl hd
      (shows_of hp hev hpyr hcols hrows hs hin hcv hvis hv hsame') hr hw hg hα hβ ht hf
  -- what the image shows at `c0`
  obtain ⟨⟨m1, hm1, _⟩, hall⟩ := C25_coarsest_decides hp hpyr hcols hrows hin0 hcv0 tmp
  have hkk : ∀ y x, y < p → x < p → y * p + x < p * p := by intro y x hy hx; nlinarith
  have hdiff : ∀ l, highest ≤ l → l ≤ lowest → ∀ y < p, ∀ x < p, Spec.cell p (m1.patches l).patch y x = Spec.cell p (mp.patches l).patch y x + β := by
    intro l a b y hy x hx
    obtain ⟨lvl, cl, g1, g2, g3, g4, g5, g6, g7, g8, g9⟩ := shows_of hp hev hpyr hcols hrows s0 hinw hcv0 hvis0 hv hsame' l a b
    obtain ⟨_, _, _, _, hex⟩ := extractAll_inv s0 (List.range (lowest + 1)) tmp m1 c0 List.nodup_range hm1
    obtain ⟨old, lvl', cl2, cl', f1, f2, f3⟩ := hex l (List.mem_range.mpr (by omega))
    rw [g1] at f1
    obtain rfl := Option.some.inj f1
    rw [g2] at f2
    simp only [Option.some.injEq, Prod.mk.injEq, true_and] at f2
    subst f2
    obtain ⟨E, hE⟩ := Patch.extract_total (old := old) g3 g6 g7 g5
    have := g9 old E hE (y * p + x) (hkk y x hy hx)
    rw [hE] at f3
    simp only [Option.some.injEq, Prod.mk.injEq] at f3
    rw [f3.2] at this
    unfold Spec.cell
    rw [this]
    ring
  rcases eq_or_lt_of_le hk0 with hk0 | hk1
  · subst hk0
    rw [C32_simple_case hk, hal] at h
    obtain rfl := Option.some.inj h
    exact ⟨rfl, rfl, m1, hm1, β, hdiff⟩
  · have hk1 : 1 ≤ k := hk1
    obtain ⟨i1, i2⟩ := C32_best_seed hc hs.warp hk hk1 h
    have hz : ((0 : ℤ) * (range * 2 ^ (lowest + 1)) : ℝ) • dir = (⟨0, 0⟩ : V2) := by
      rw [Int.cast_zero, zero_mul]
      show V2.mk _ _ = _
      simp
    have hadd : c.c + (⟨0, 0⟩ : V2) = c.c := by
      have : ∀ q : V2, q + (⟨0, 0⟩ : V2) = q := by
        intro q
        cases q
        show V2.mk _ _ = V2.mk _ _
        simp
      exact this _
    have hseed : SeedMatch p cfg junk ex tmp solve pyr mp c dir lowest highest (range * 2 ^ (lowest + 1)) 0 c0 (MLP.computeAverageDifference p m1 mp highest lowest) := by
      refine ⟨⟨⟨c0, false, true⟩, ?_, rfl, rfl⟩, hin0, m1, hm1, rfl⟩
      rw [hz, hadd]
      exact hal0
    have hzero : MLP.computeAverageDifference p m1 mp highest lowest = 0 := (C28_zero_iff (by omega) hl m1 mp).mpr ⟨β, hdiff⟩
    have hok : o.ok = true := i1.mpr ⟨0, by omega, by omega, c0, _, hseed⟩
    obtain ⟨i, e, j1, j2, ⟨⟨oi, a1, a2, a3⟩, hin', m, hm, hme⟩, hmin⟩ := i2 hok
    have h0 := (hmin 0 (by omega) (by omega) c0 _ hseed).1
    rw [hzero] at h0
    have hnn := (C28_symmetric p m mp highest lowest).1
    have he0 : MLP.computeAverageDifference p m mp highest lowest = 0 := le_antisymm (by rw [← hme]; exact h0) hnn
    obtain ⟨b, hb⟩ := (C28_zero_iff (by omega) hl m mp).mp he0
    have hnan : o.nan = false := by
      unfold align2DAdaptive at h
      simp only [hk, Option.bind_eq_bind, Option.bind_some, Option.pure_def] at h
      rw [if_neg (by omega)] at h
      split_ifs at h with hse
      · obtain rfl := Option.some.inj h; rfl
      · obtain ⟨⟨_, q⟩, _, h⟩ := Option.bind_eq_some_iff.mp h
        obtain ⟨st, _, h⟩ := Option.bind_eq_some_iff.mp h
        cases hb : st.best with
        | none => simp only [hb, Option.some.injEq] at h; rw [← h]
        | some w => simp only [hb, Option.some.injEq] at h; rw [← h]
    exact ⟨hok, hnan, m, hm, b, hb⟩

/-! ### A concrete instance -/

/-- A 6 × 6 image with the given grey values (row, column). -/
def img6 (f : ℕ → ℕ → ℕ) : Img := ⟨6, 6, f⟩

/-- On a 6 × 6 image, at the pixel corner (3,3), patches of size 2 are inside; the expanded patch is the grey values of rows and columns 1–4. -/
lemma demo_taken (f : ℕ → ℕ → ℕ) (junk : FC) (m0 : MLP) : ∃ mp, computeFromImage 1 (img6 f) none = some [⟨img6 f, 0⟩] ∧
    MLP.isMultilevelPatchInFrame 2 junk [⟨img6 f, 0⟩] (FC.constructPixel junk ⟨3, 3⟩) 0 true = some (FC.constructPixel junk ⟨3, 3⟩, true) ∧
    MLP.extractMultilevelPatchFromImage 2 junk m0 [⟨img6 f, 0⟩] (FC.constructPixel junk ⟨3, 3⟩) 0 true = some (FC.constructPixel junk ⟨3, 3⟩, mp) ∧
    (∀ y < 4, ∀ x < 4, Spec.cell (2 + 2) (mp.patches 0).border y x = f (y + 1) (x + 1)) ∧
    (∀ y < 2, ∀ x < 2, Spec.cell 2 (mp.patches 0).patch y x = f (y + 2) (x + 2)) := by
  set c := FC.constructPixel junk ⟨3, 3⟩ with hc
  have hs : c.Settled := ⟨rfl, rfl⟩
  have hl : ([⟨img6 f, 0⟩] : List Level)[0]? = some ⟨img6 f, 0⟩ := rfl
  have hpyr : computeFromImage 1 (img6 f) none = some [⟨img6 f, 0⟩] := rfl
  obtain ⟨o, ho, hos, hof, hoc, how, hoi⟩ := levelTransform_settled (junk := junk) hl hl hs
  have hon : o.nearB = true := by unfold FC.nearB; rw [hoi]; rfl
  have hoc' : o.c = ⟨3, 3⟩ := by rw [hoc, levelPixel_self]; rfl
  have hP : Patch.InP 2 (img6 f) o true := by
    unfold Patch.InP
    rw [hon, if_pos rfl, hoc']
    simp only [Patch.PlainIn, halfPatch, img6]
    norm_num
  have hfr := Patch.isPatchInFrame_of (p := 2) (wb := true) (by norm_num) (by norm_num [img6]) (by norm_num [img6]) hos hof hP
  have hin : MLP.isMultilevelPatchInFrame 2 junk [⟨img6 f, 0⟩] c 0 true = some (c, true) := by
    have hf : c.isInFront = true := rfl
    unfold MLP.isMultilevelPatchInFrame
    simp only [hf, FC.comWarpC_valid hs.warp, ho, hl, hfr, Option.bind_eq_bind, Option.bind_some, Bool.not_true, Bool.false_eq_true, if_false, Option.pure_def]
  obtain ⟨⟨mp, hmp, _⟩, _⟩ := C25_coarsest_decides (p := 2) (by norm_num) hpyr (by norm_num [img6]) (by norm_num [img6]) hin (Or.inl rfl) m0
  obtain ⟨_, _, _, _, hex⟩ := extractAll_inv hs (List.range (0 + 1)) m0 mp c List.nodup_range hmp
  obtain ⟨old, lvl, cl, cl', e1, e2, e3⟩ := hex 0 (by simp)
  rw [hl] at e1
  obtain rfl := Option.some.inj e1
  rw [ho] at e2
  simp only [Option.some.injEq, Prod.mk.injEq, true_and] at e2
  subst e2
  have hvc : o.validC = true := by
    unfold levelTransform at ho
    simp only [hl, hs.getC, Option.bind_eq_bind, Option.bind_some, Option.pure_def] at ho
    have : c.cam = none := rfl
    simp only [this, Option.some.injEq, Prod.mk.injEq, true_and] at ho
    rw [← ho]; rfl
  have hB : ∀ y < 4, ∀ x < 4, Spec.cell (2 + 2) (mp.patches 0).border y x = f (y + 1) (x + 1) := by
    intro y hy x hx
    have hu : usedWarp o = M2.one := by
      unfold usedWarp; rw [if_pos]; left; rw [hoi]; rfl
    have := (C26_integer hvc hos.warp e3 (y := y) (x := x) (v := y + 1) (u := x + 1) hy hx (by
      rw [hu, hoc']
      simp only [samplePos, M2.mulVec, M2.one, halfPatch]
      show V2.mk _ _ = V2.mk _ _
      congr 1 <;> push_cast <;> norm_num <;> ring)).2.2
    simp only [written, if_true] at this
    have e : 2 * halfPatch 2 true = 2 + 2 := rfl
    rw [e] at this
    rw [this]
    simp [img6]
  refine ⟨mp, hpyr, hin, hmp, hB, fun y hy x hx => ?_⟩
  rw [C26_inner e3 hy hx, hB (y + 1) (by omega) (x + 1) (by omega)]

/-- The image `x · y²` is textured and not flat there. -/
lemma demo_textured {mp : MLP} (hB : ∀ y < 4, ∀ x < 4, Spec.cell (2 + 2) (mp.patches 0).border y x = (((x + 1) * (y + 1) ^ 2 : ℕ) : ℝ))
    (hI : ∀ y < 2, ∀ x < 2, Spec.cell 2 (mp.patches 0).patch y x = (((x + 2) * (y + 2) ^ 2 : ℕ) : ℝ)) :
    Spec.Textured 2 0 0 (fun l => (mp.patches l).patch) (fun l => (mp.patches l).border) ∧ Spec.NotFlat 2 0 0 (fun l => (mp.patches l).patch) := by
  have hgx : ∀ y < 2, ∀ x < 2, Spec.gx 2 (mp.patches 0).border y x = ((y : ℝ) + 2) ^ 2 := by
    intro y hy x hx
    unfold Spec.gx
    rw [hB _ (by omega) _ (by omega), hB _ (by omega) _ (by omega)]
    push_cast
    ring
  have hgy : ∀ y < 2, ∀ x < 2, Spec.gy 2 (mp.patches 0).border y x = ((x : ℝ) + 2) * (2 * y + 4) := by
    intro y hy x hx
    unfold Spec.gy
    rw [hB _ (by omega) _ (by omega), hB _ (by omega) _ (by omega)]
    push_cast
    ring
  refine ⟨?_, ?_⟩
  · intro a b k0 k1 h
    have h' : ∀ y : ℕ, y < 2 → ∀ x : ℕ, x < 2 → ((y : ℝ) + 2) ^ 2 * a + ((x : ℝ) + 2) * (2 * y + 4) * b = k0 + k1 * (((x : ℝ) + 2) * ((y : ℝ) + 2) ^ 2) := by
      intro y hy x hx
      have := h 0 (le_refl _) (le_refl _) y hy x hx
      simp only [hgx y hy x hx, hgy y hy x hx, hI y hy x hx, pow_zero, div_one] at this
      push_cast at this
      exact this
    have q1 := h' 0 (by norm_num) 0 (by norm_num)
    have q2 := h' 0 (by norm_num) 1 (by norm_num)
    have q3 := h' 1 (by norm_num) 0 (by norm_num)
    have q4 := h' 1 (by norm_num) 1 (by norm_num)
    norm_num at q1 q2 q3 q4
    constructor <;> linarith
  · rintro ⟨k, hk⟩
    have k1 := hk 0 (le_refl _) (le_refl _) 0 (by norm_num) 0 (by norm_num)
    have k2 := hk 0 (le_refl _) (le_refl _) 0 (by norm_num) 1 (by norm_num)
    rw [hI 0 (by norm_num) 0 (by norm_num)] at k1
    rw [hI 0 (by norm_num) 1 (by norm_num)] at k2
    norm_num at k1 k2
    linarith

/-- The hypotheses of `C104_unmoved` (hence of `C104_found`) are met: with gain and offset estimated and a Huber threshold, a patch taken
from the image `x · y²` is found where it was taken. -/
example (junk : FC) (ex : ℕ → Patch) (m0 : MLP) (hr : MLP.Reach 2 m0) : ∃ solve mp o,
    MLP.extractMultilevelPatchFromImage 2 junk m0 [⟨img6 fun y x => x * y ^ 2, 0⟩] (FC.constructPixel junk ⟨3, 3⟩) 0 true = some (FC.constructPixel junk ⟨3, 3⟩, mp) ∧
    align2D 2 ⟨3, fun _ => 1, false, true, true, 0⟩ junk ex solve [⟨img6 fun y x => x * y ^ 2, 0⟩] mp (FC.constructPixel junk ⟨3, 3⟩) 0 0 = some o ∧ o.ok = true ∧
    o.c.getC = some (o.c, ⟨3, 3⟩) := by
  obtain ⟨solve, hsol⟩ := leastSquares_exists
  obtain ⟨mp, h1, h2, h3, hB, hI⟩ := demo_taken (fun y x => x * y ^ 2) junk m0
  obtain ⟨h4, h5⟩ := demo_textured hB hI
  obtain ⟨o, h6, h7, _, h8, _⟩ := C104_unmoved (p := 2) (cfg := ⟨3, fun _ => 1, false, true, true, 0⟩) (ex := ex) (by norm_num) rfl hsol h1 (by norm_num [img6])
    (by norm_num [img6]) hr (c := FC.constructPixel junk ⟨3, 3⟩) ⟨rfl, rfl⟩ rfl (Or.inl rfl) (le_refl _) h2 (Or.inl rfl) h3 (by simp) (le_refl _) h4 (fun _ => h5)
    (maxIter := 10) (tol := 0.03) (by norm_num) (by norm_num)
  exact ⟨solve, mp, o, h3, h6, h7, h8⟩

/-- The hypotheses of `C104_untextured` are met: a patch taken from the ramp `10y + x` is not found, although it is exactly there. -/
example (junk : FC) (ex : ℕ → Patch) (m0 : MLP) (hr : MLP.Reach 2 m0) : ∃ solve mp,
    MLP.extractMultilevelPatchFromImage 2 junk m0 [⟨img6 fun y x => 10 * y + x, 0⟩] (FC.constructPixel junk ⟨3, 3⟩) 0 true = some (FC.constructPixel junk ⟨3, 3⟩, mp) ∧
    align2D 2 ⟨3, fun _ => 1, false, true, true, 0⟩ junk ex solve [⟨img6 fun y x => 10 * y + x, 0⟩] mp (FC.constructPixel junk ⟨3, 3⟩) 0 0 =
      some ⟨FC.constructPixel junk ⟨3, 3⟩, false, false⟩ := by
  obtain ⟨solve, hsol⟩ := leastSquares_exists
  obtain ⟨mp, h1, h2, h3, hB, hI⟩ := demo_taken (fun y x => 10 * y + x) junk m0
  have hs : (FC.constructPixel junk ⟨3, 3⟩).Settled := ⟨rfl, rfl⟩
  obtain ⟨_, hval, _⟩ := extractAll_inv hs (List.range (0 + 1)) m0 mp _ List.nodup_range h3
  refine ⟨solve, mp, h3, C104_untextured (p := 2) (by norm_num) rfl hsol h1 (by norm_num [img6]) (by norm_num [img6]) (.extract hr h3) hs rfl (Or.inl rfl) (le_refl _)
    h2 (Or.inl rfl) (fun l _ b => hval l (List.mem_range.mpr (by omega))) h3 (α := 1) (β := 0) (fun l _ _ k _ => by ring) (by norm_num) rfl rfl (by simp) ?_ ?_⟩
  · intro ht
    have := ht 1 0 1 0 (by
      intro l _ hl y hy x hx
      obtain rfl : l = 0 := by omega
      simp only [Spec.gx]
      rw [hB _ (by omega) _ (by omega), hB _ (by omega) _ (by omega)]
      push_cast
      ring)
    norm_num at this
  · rintro ⟨k, hk⟩
    have k1 := hk 0 (le_refl _) (le_refl _) 0 (by norm_num) 0 (by norm_num)
    have k2 := hk 0 (le_refl _) (le_refl _) 0 (by norm_num) 1 (by norm_num)
    rw [hI 0 (by norm_num) 0 (by norm_num)] at k1
    rw [hI 0 (by norm_num) 1 (by norm_num)] at k2
    norm_num at k1 k2
    linarith

/-- For coordinates without a warp every run of `align2D` returns, and the coordinates returned still have the warp they had. -/
lemma align2D_unwarped {p : ℕ} (hp : 2 ≤ p) {cfg : AlignCfg} {junk : FC} {ex : ℕ → Patch} {pyr : List Level} {mp : MLP} {c : FC} {l1 l2 : ℕ}
    {solve : Option (List Row) → SolveRes} (hc : c.validC = true) (hw : c.validWarpC = true) (hl : l2 < pyr.length)
    (hsz : ∀ lvl ∈ pyr, lvl.img.cols ≤ 2147483647 ∧ lvl.img.rows ≤ 2147483647) (hn : c.cam = none ∨ c.warpC.distOne < 1e-6) (maxIter : ℕ) (tol : ℝ) :
    ∃ o, align2D p cfg junk ex solve pyr mp c l1 l2 maxIter tol = some o ∧ o.c.validC = true ∧ o.c.validWarpC = true ∧ o.c.cam = c.cam ∧ o.c.warpC = c.warpC := by
  unfold align2D
  induction maxIter generalizing c with
  | zero => exact ⟨_, rfl, hc, hw, rfl, rfl⟩
  | succ n ih =>
    have hg : c.getC = some (c, c.c) := by simp [FC.getC, FC.comC, hc]
    obtain ⟨res, hres⟩ := C67_equations_defined_unwarped (cfg := cfg) (junk := junk) (ex := ex) (mp := mp) (l1 := l1) hp hc hw hl hsz hn
    unfold loop
    simp only [hg, hres, Option.bind_eq_bind, Option.bind_some]
    match answer solve res with
    | none => exact ⟨_, rfl, hc, hw, rfl, rfl⟩
    | some .lowRank => exact ⟨_, rfl, hc, hw, rfl, rfl⟩
    | some .nonfinite => exact ⟨_, rfl, by simp [FC.setC], by simpa [FC.setC] using hw, by simp [FC.setC], by simp [FC.setC]⟩
    | some (.ok u) =>
      dsimp only
      split_ifs
      · exact ⟨_, rfl, by simp [FC.setC], by simpa [FC.setC] using hw, by simp [FC.setC], by simp [FC.setC]⟩
      · obtain ⟨o, h1, h2, h3, h4, h5⟩ := ih (c := c.setC (c.c + u) false) (by simp [FC.setC]) (by simpa [FC.setC] using hw) (by simpa [FC.setC] using hn)
        exact ⟨o, h1, h2, h3, by rw [h4]; simp [FC.setC], by rw [h5]; simp [FC.setC]⟩

/-- C67: the adaptive alignment is defined too: on a pyramid built from an image, for coordinates without a warp, it returns whatever the
solver answers, for every number of seeds, direction and step. -/
theorem C67_adaptive_defined {p : ℕ} (hp : 2 ≤ p) {cfg : AlignCfg} {junk : FC} {ex : ℕ → Patch} {tmp : MLP} {solve : Option (List Row) → SolveRes}
    {n : ℕ} {img : Img} {cv : Option (Img → ℕ → ℕ → ℕ)} {pyr : List Level}
    (hpyr : computeFromImage n img cv = some pyr) (hcols : img.cols ≤ 2147483647) (hrows : img.rows ≤ 2147483647)
    {mp : MLP} {c : FC} (hc : c.validC = true) (hw : c.validWarpC = true) (hn : c.cam = none ∨ c.warpC.distOne < 1e-6) {highest lowest : ℕ}
    (hl : lowest < n) {sigma1 range coverage : ℝ} {dir : V2} {maxUni k : ℤ} (hk : seedCount sigma1 coverage range lowest maxUni = some k) :
    ∃ o, align2DAdaptive p cfg junk ex tmp solve pyr mp c sigma1 dir lowest highest range coverage maxUni = some o := by
  have hlen : lowest < pyr.length := by rw [(levelsFrom_spec cv _ _ _ _ hpyr).1]; exact hl
  have hsz : ∀ lvl ∈ pyr, lvl.img.cols ≤ 2147483647 ∧ lvl.img.rows ≤ 2147483647 := by
    intro lvl hm
    obtain ⟨i, hi, rfl⟩ := List.getElem_of_mem hm
    obtain ⟨a, ha, h1, h2⟩ := pyr_size hpyr i (by rw [← (levelsFrom_spec cv _ _ _ _ hpyr).1]; exact hi)
    rw [List.getElem?_eq_getElem hi, Option.some.injEq] at ha
    rw [ha, h1, h2]
    exact ⟨(Nat.div_le_self _ _).trans hcols, (Nat.div_le_self _ _).trans hrows⟩
  -- the error at a candidate is defined
  have hev : ∀ d : FC, d.validC = true → d.validWarpC = true → (d.cam = none ∨ d.warpC.distOne < 1e-6) →
      ∃ e, evalAt p junk tmp pyr mp lowest highest d = some (d, e) := by
    intro d h1 h2 h3
    have hs : d.Settled := ⟨h2, by simp [FC.comC, h1]⟩
    obtain ⟨o, ho, hos, hof, hoc, how, hoi⟩ := levelTransform_settled (junk := junk) (List.getElem?_eq_getElem (show 0 < pyr.length by omega))
      (List.getElem?_eq_getElem hlen) hs
    have hnear : o.nearB = true := by
      unfold FC.nearB
      rw [hoi, how]
      rcases h3 with h | h
      · simp [h]
      · cases hcam : d.cam with
        | none => simp
        | some cam => simp [h]
    obtain ⟨r, hr⟩ : ∃ r, Patch.isPatchInFrame p (pyr[lowest]).img o false = some (o, r) := by
      unfold Patch.isPatchInFrame
      simp [hof, FC.comWarpC_valid hos.warp, FC.isNear_valid hos.warp, hnear, hos.getC]
    have hin : MLP.isMultilevelPatchInFrame p junk pyr d lowest false = some (d, r) := by
      unfold MLP.isMultilevelPatchInFrame
      have hf : d.isInFront = true := by simp [FC.isInFront, h1]
      simp [hf, FC.comWarpC_valid h2, ho, List.getElem?_eq_getElem hlen, hr]
    unfold evalAt
    simp only [hin, Option.bind_eq_bind, Option.bind_some]
    cases r with
    | false => exact ⟨none, rfl⟩
    | true =>
      obtain ⟨⟨m, hm, _⟩, _⟩ := C25_coarsest_decides hp hpyr hcols hrows hin (Or.inr (Or.inr h3)) tmp
      exact ⟨_, by simp only [if_true, hm, Option.bind_some]; rfl⟩
  -- every seed
  have hst : ∀ (q : V2) (st : Ad) (i : ℤ), st.c.validWarpC = true → (st.c.cam = none ∨ st.c.warpC.distOne < 1e-6) →
      ∃ st', adStep (fun c => align2D p cfg junk ex solve pyr mp c highest lowest) (evalAt p junk tmp pyr mp lowest highest) q dir (seedStep range lowest) st i = some st' ∧
        st'.c.validWarpC = true ∧ (st'.c.cam = none ∨ st'.c.warpC.distOne < 1e-6) := by
    intro q st i h1 h2
    obtain ⟨o, a1, a2, a3, a4, a5⟩ := align2D_unwarped (cfg := cfg) (junk := junk) (ex := ex) (mp := mp) (l1 := highest) (solve := solve) hp
      (c := st.c.setC (q + (i * seedStep range lowest) • dir) false) (by simp [FC.setC]) (by simpa [FC.setC] using h1) hlen hsz (by simpa [FC.setC] using h2) 10 0.03
    have h4 : o.c.cam = none ∨ o.c.warpC.distOne < 1e-6 := by rw [a4, a5]; simpa [FC.setC] using h2
    obtain ⟨e, he⟩ := hev o.c a2 a3 h4
    unfold adStep
    simp only [a1, he, Option.bind_eq_bind, Option.bind_some, Option.pure_def]
    cases o.ok with
    | false => exact ⟨_, rfl, a3, h4⟩
    | true =>
      cases e with
      | none => exact ⟨_, rfl, a3, h4⟩
      | some err =>
        cases st.best with
        | none => exact ⟨_, rfl, a3, h4⟩
        | some be =>
          simp only [if_true]
          split_ifs
          · exact ⟨_, rfl, a3, h4⟩
          · exact ⟨_, rfl, a3, h4⟩
  have hfold : ∀ (q : V2) (is : List ℤ) (st : Ad), st.c.validWarpC = true → (st.c.cam = none ∨ st.c.warpC.distOne < 1e-6) →
      ∃ st', is.foldlM (adStep (fun c => align2D p cfg junk ex solve pyr mp c highest lowest) (evalAt p junk tmp pyr mp lowest highest) q dir (seedStep range lowest)) st = some st' := by
    intro q is
    induction is with
    | nil => intro st _ _; exact ⟨st, rfl⟩
    | cons i is ih =>
      intro st h1 h2
      obtain ⟨st1, b1, b2, b3⟩ := hst q st i h1 h2
      obtain ⟨st2, c1⟩ := ih st1 b2 b3
      exact ⟨st2, by rw [List.foldlM_cons, b1]; exact c1⟩
  have hg : c.getC = some (c, c.c) := by simp [FC.getC, FC.comC, hc]
  unfold align2DAdaptive
  simp only [hk, hg, Option.bind_eq_bind, Option.bind_some, Option.pure_def]
  split_ifs
  · obtain ⟨o, ho, _⟩ := align2D_unwarped (cfg := cfg) (junk := junk) (ex := ex) (mp := mp) (l1 := highest) (solve := solve) hp hc hw hlen hsz hn 10 0.03
    exact ⟨o, ho⟩
  · exact ⟨_, rfl⟩
  · obtain ⟨st, h1⟩ := hfold c.c (seeds k) ⟨c, none⟩ hw hn
    rw [h1]
    simp only [Option.bind_some]
    cases st.best with
    | none => exact ⟨_, rfl⟩
    | some be => exact ⟨_, rfl⟩

/-- One seed on each side. -/
lemma demo_seeds : seedCount 5 2 1 0 1 = some 1 := by
  have e : ((5 : ℝ) * 2) / seedStep 1 0 - 0.5 = 9 / 2 := by unfold seedStep; norm_num
  have ce : ⌈(9 / 2 : ℝ)⌉ = 5 := by norm_num [Int.ceil_eq_iff]
  unfold seedCount cInt truncZ
  rw [e, ce]
  norm_num

/-- The hypotheses of `C67_adaptive_defined` and of `C104_adaptive` are met: with three seeds two pixels apart, a patch taken from the image
`x · y²` is found. -/
example (junk : FC) (ex : ℕ → Patch) (m0 tmp : MLP) (hr : MLP.Reach 2 m0) : ∃ solve mp o,
    MLP.extractMultilevelPatchFromImage 2 junk m0 [⟨img6 fun y x => x * y ^ 2, 0⟩] (FC.constructPixel junk ⟨3, 3⟩) 0 true = some (FC.constructPixel junk ⟨3, 3⟩, mp) ∧
    align2DAdaptive 2 ⟨3, fun _ => 1, false, true, true, 0⟩ junk ex tmp solve [⟨img6 fun y x => x * y ^ 2, 0⟩] mp (FC.constructPixel junk ⟨3, 3⟩) 5 ⟨1, 0⟩ 0 0 1 2 1 = some o ∧
    o.ok = true := by
  obtain ⟨solve, hsol⟩ := leastSquares_exists
  obtain ⟨mp, h1, h2, h3, hB, hI⟩ := demo_taken (fun y x => x * y ^ 2) junk m0
  obtain ⟨h4, h5⟩ := demo_textured hB hI
  have hs : (FC.constructPixel junk ⟨3, 3⟩).Settled := ⟨rfl, rfl⟩
  obtain ⟨_, hval, _⟩ := extractAll_inv hs (List.range (0 + 1)) m0 mp _ List.nodup_range h3
  obtain ⟨o, ho⟩ := C67_adaptive_defined (p := 2) (cfg := ⟨3, fun _ => 1, false, true, true, 0⟩) (junk := junk) (ex := ex) (tmp := tmp) (solve := solve) (by norm_num) h1
    (by norm_num [img6]) (by norm_num [img6]) (mp := mp) (c := FC.constructPixel junk ⟨3, 3⟩) rfl rfl (Or.inl rfl) (highest := 0) (lowest := 0) (by norm_num)
    (dir := ⟨1, 0⟩) demo_seeds
  refine ⟨solve, mp, o, h3, ho, ?_⟩
  have hfin := C104_adaptive (p := 2) (cfg := ⟨3, fun _ => 1, false, true, true, 0⟩) (highest := 0) (lowest := 0) (sigma1 := 5) (range := 1) (coverage := 2)
    (dir := ⟨1, 0⟩) (maxUni := 1) (k := 1) (o := o) (by norm_num) rfl hsol h1 (by norm_num [img6]) (by norm_num [img6]) (.extract hr h3) hs rfl (Or.inl rfl) (le_refl _)
    h2 (Or.inl rfl) (fun l _ b => hval l (List.mem_range.mpr (by omega))) h3 (β := 0) (fun l _ _ k _ => by ring) (Or.inr rfl) (by simp) (le_refl _) h4 (fun _ => h5)
    demo_seeds (by norm_num) ho
  exact hfin.1

end Rovio
