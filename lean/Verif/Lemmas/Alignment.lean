import Verif.Model.Alignment
import Verif.Spec.Robust
import Verif.Lemmas.Pyramid
import Verif.Lemmas.PatchScore
import Mathlib.Analysis.SpecialFunctions.Sqrt
import Mathlib.Analysis.Calculus.Deriv.Abs
import Mathlib.Analysis.Calculus.Deriv.MeanValue

/-! Helper lemmas for the patch alignment. -/

namespace Rovio.Align

/-! ### Huber -/

/-- The residual map of the Huber step. -/
noncomputable def hub (k e : ℝ) : ℝ := (huberRow k ⟨0, 0, e⟩).b

/-- The factor applied to the Jacobian row. -/
noncomputable def hubF (k e : ℝ) : ℝ := (huberRow k ⟨1, 0, e⟩).a0

lemma hub_small {k e : ℝ} (h : |e| ≤ k) : hub k e = e := by
  unfold hub huberRow
  simp only
  split_ifs with h1 h2 <;> first | rfl | exact absurd h (not_le.mpr h2)

lemma hubF_small {k e : ℝ} (h : |e| ≤ k) : hubF k e = 1 := by
  unfold hubF huberRow
  simp only
  split_ifs with h1 h2 <;> first | rfl | exact absurd h (not_le.mpr h2)

lemma hub_off {k e : ℝ} (h : k ≤ 0) : hub k e = e := by
  unfold hub huberRow
  simp [not_lt.mpr h]

lemma hubF_off {k e : ℝ} (h : k ≤ 0) : hubF k e = 1 := by
  unfold hubF huberRow
  simp [not_lt.mpr h]

lemma hub_pos {k e : ℝ} (hk : 0 < k) (h : k < e) : hub k e = Real.sqrt (k * (2 * e - k)) := by
  have he : 0 < e := hk.trans h
  have ha : |e| = e := abs_of_pos he
  have h2 : (2.0 : ℝ) = 2 := by norm_num
  unfold hub huberRow
  simp only [ha, h2, gt_iff_lt, hk, h, if_true, he.le, mul_one]

lemma hubF_pos {k e : ℝ} (hk : 0 < k) (h : k < e) : hubF k e = k / Real.sqrt (k * (2 * e - k)) := by
  have he : 0 < e := hk.trans h
  have ha : |e| = e := abs_of_pos he
  have h2 : (2.0 : ℝ) = 2 := by norm_num
  unfold hubF huberRow
  simp only [ha, h2, gt_iff_lt, hk, h, if_true, he.le, mul_one]

lemma hub_neg (k e : ℝ) : hub k (-e) = - hub k e := by
  unfold hub huberRow
  simp only [abs_neg]
  split_ifs with h1 h2 h3 h4 h5 <;> try simp
  · have : e = 0 := by linarith
    rw [this] at h2; simp at h2; linarith
  · linarith

lemma hubF_neg (k e : ℝ) : hubF k (-e) = hubF k e := by
  unfold hubF huberRow
  simp only [abs_neg]
  split_ifs with h1 h2 h3 h4 h5 <;> try simp
  all_goals try rw [div_neg, neg_neg]
  all_goals linarith

lemma huberRow_eq (k : ℝ) (r : Row) : huberRow k r = ⟨hubF k r.b * r.a0, hubF k r.b * r.a1, hub k r.b⟩ := by
  unfold hub hubF huberRow
  simp only
  split_ifs <;> simp

/-- The derivative of the Huber residual map is the row factor, everywhere. -/
lemma hub_deriv {k : ℝ} (hk : 0 < k) (e : ℝ) : HasDerivAt (hub k) (hubF k e) e := by
  -- right branch
  have big : ∀ x, 0 < 2 * x - k → HasDerivAt (fun x => Real.sqrt (k * (2 * x - k))) (k / Real.sqrt (k * (2 * x - k))) x := by
    intro x hx
    have hne : k * (2 * x - k) ≠ 0 := (mul_pos hk hx).ne'
    have h1 : HasDerivAt (fun x : ℝ => k * (2 * x - k)) (k * 2) x := by
      have := ((hasDerivAt_id x).const_mul 2).sub_const k |>.const_mul k
      simpa using this
    have := h1.sqrt hne
    refine this.congr_deriv ?_
    field_simp
  -- positive side
  have pos : ∀ x, 0 ≤ x → HasDerivAt (hub k) (hubF k x) x := by
    intro x hx
    rcases lt_trichotomy x k with h | h | h
    · have hs : |x| < k := by rw [abs_of_nonneg hx]; exact h
      rw [hubF_small hs.le]
      refine (hasDerivAt_id x).congr_of_eventuallyEq ?_
      filter_upwards [(continuous_abs.isOpen_preimage _ isOpen_Iio).mem_nhds (show x ∈ (abs ⁻¹' Set.Iio k) from hs)] with y hy
      exact hub_small (le_of_lt hy)
    · subst h
      rw [hubF_small (by rw [abs_of_nonneg hx])]
      have hl : HasDerivWithinAt (hub x) 1 (Set.Iic x) x := by
        refine (hasDerivAt_id x).hasDerivWithinAt.congr_of_eventuallyEq ?_ (hub_small (by rw [abs_of_nonneg hx]))
        rw [Filter.EventuallyEq, eventually_nhdsWithin_iff]
        filter_upwards [Ioi_mem_nhds (show (0 : ℝ) < x from hk)] with y hy hy'
        exact hub_small (by rw [abs_of_pos hy]; exact hy')
      have hr : HasDerivWithinAt (hub x) 1 (Set.Ici x) x := by
        have hb := (big x (by linarith)).hasDerivWithinAt (s := Set.Ici x)
        have e1 : x / Real.sqrt (x * (2 * x - x)) = 1 := by
          have : x * (2 * x - x) = x * x := by ring
          rw [this, Real.sqrt_mul_self hk.le, div_self hk.ne']
        rw [e1] at hb
        refine hb.congr ?_ ?_
        · intro y hy
          rcases eq_or_lt_of_le (show x ≤ y from hy) with h | h
          · subst h
            rw [hub_small (by rw [abs_of_nonneg hx])]
            have : x * (2 * x - x) = x * x := by ring
            rw [this, Real.sqrt_mul_self hk.le]
          · exact hub_pos hk h
        · rw [hub_small (by rw [abs_of_nonneg hx])]
          have : x * (2 * x - x) = x * x := by ring
          rw [this, Real.sqrt_mul_self hk.le]
      have := hl.union hr
      rwa [Set.Iic_union_Ici, hasDerivWithinAt_univ] at this
    · rw [hubF_pos hk h]
      refine (big x (by linarith)).congr_of_eventuallyEq ?_
      filter_upwards [Ioi_mem_nhds h] with y hy
      exact hub_pos hk hy
  rcases le_total 0 e with h | h
  · exact pos e h
  · have h1 := pos (-e) (by linarith)
    rw [hubF_neg] at h1
    have h2 : HasDerivAt (fun x => - hub k (-x)) (hubF k e) e := by
      have h3 := h1.scomp e (hasDerivAt_neg e)
      have h4 : HasDerivAt (fun x => - (hub k ∘ Neg.neg) x) (-((-1 : ℝ) • hubF k e)) e := h3.fun_neg
      refine h4.congr_deriv ?_
      simp
    refine h2.congr_of_eventuallyEq (Filter.Eventually.of_forall fun x => ?_)
    simp only [hub_neg, neg_neg]

lemma hubF_range {k : ℝ} (hk : 0 < k) (e : ℝ) : 0 < hubF k e ∧ hubF k e ≤ 1 := by
  have pos : ∀ x, 0 ≤ x → 0 < hubF k x ∧ hubF k x ≤ 1 := by
    intro x hx
    rcases le_or_gt x k with h | h
    · rw [hubF_small (by rw [abs_of_nonneg hx]; exact h)]; norm_num
    · rw [hubF_pos hk h]
      have h0 : 0 < k * (2 * x - k) := mul_pos hk (by linarith)
      have hs := Real.sqrt_pos.mpr h0
      refine ⟨div_pos hk hs, ?_⟩
      rw [div_le_one hs]
      apply Real.le_sqrt_of_sq_le
      nlinarith
  rcases le_total 0 e with h | h
  · exact pos e h
  · have := pos (-e) (by linarith); rwa [hubF_neg] at this

lemma hub_sq {k : ℝ} (hk : 0 < k) (e : ℝ) : hub k e ^ 2 = Spec.huberLoss2 k e := by
  have pos : ∀ x, 0 ≤ x → hub k x ^ 2 = Spec.huberLoss2 k x := by
    intro x hx
    unfold Spec.huberLoss2
    rw [abs_of_nonneg hx]
    rcases le_or_gt x k with h | h
    · rw [hub_small (by rw [abs_of_nonneg hx]; exact h), if_pos h]
    · rw [hub_pos hk h, if_neg (not_le.mpr h), Real.sq_sqrt (mul_nonneg hk.le (by linarith))]
      ring
  rcases le_total 0 e with h | h
  · exact pos e h
  · have := pos (-e) (by linarith)
    rw [hub_neg] at this
    have e1 : Spec.huberLoss2 k (-e) = Spec.huberLoss2 k e := by unfold Spec.huberLoss2; simp
    rw [e1] at this
    rw [← this]; ring

lemma hub_sign {k : ℝ} (hk : 0 < k) {e : ℝ} (he : 0 < e) : 0 < hub k e := by
  rcases le_or_gt e k with h | h
  · rw [hub_small (by rw [abs_of_pos he]; exact h)]; exact he
  · rw [hub_pos hk h]; exact Real.sqrt_pos.mpr (mul_pos hk (by linarith))

lemma hub_strictMono {k : ℝ} (hk : 0 < k) : StrictMono (hub k) := by
  apply strictMono_of_deriv_pos
  intro x
  rw [(hub_deriv hk x).deriv]
  exact (hubF_range hk x).1

lemma hub_abs_le {k : ℝ} (hk : 0 < k) (e : ℝ) : |hub k e| ≤ |e| := by
  apply abs_le_abs_of_sq_le
  rw [hub_sq hk]
  unfold Spec.huberLoss2
  split_ifs with h
  · exact le_refl _
  · have : e ^ 2 = |e| ^ 2 := (sq_abs e).symm
    rw [this]
    nlinarith [sq_nonneg (|e| - k)]
where
  abs_le_abs_of_sq_le {a b : ℝ} (h : a ^ 2 ≤ b ^ 2) : |a| ≤ |b| := sq_le_sq.mp h

/-! ### Sums and regression -/

lemma S_add (cfg : AlignCfg) (raws : List Raw) (f g : Raw → ℝ) : S cfg raws (fun r => f r + g r) = S cfg raws f + S cfg raws g := by
  unfold S
  rw [← List.sum_map_add]
  congr 1
  exact List.map_congr_left fun r _ => by ring

lemma S_smul (cfg : AlignCfg) (raws : List Raw) (k : ℝ) (f : Raw → ℝ) : S cfg raws (fun r => k * f r) = k * S cfg raws f := by
  unfold S
  rw [← List.sum_map_mul_left]
  congr 1
  exact List.map_congr_left fun r _ => by ring

lemma S_congr (cfg : AlignCfg) (raws : List Raw) {f g : Raw → ℝ} (h : ∀ r ∈ raws, f r = g r) : S cfg raws f = S cfg raws g := by
  unfold S
  congr 1
  exact List.map_congr_left fun r hr => by rw [h r hr]

lemma S_map (cfg : AlignCfg) (raws : List Raw) (m : Raw → Raw) (hm : ∀ r, (m r).w = r.w) (f : Raw → ℝ) :
    S cfg (raws.map m) f = S cfg raws (fun r => f (m r)) := by
  unfold S
  rw [List.map_map]
  congr 1
  apply List.map_congr_left
  intro r _
  simp [Function.comp, wt, hm]

lemma mean_add (cfg : AlignCfg) (raws : List Raw) (f g : Raw → ℝ) : mean cfg raws (fun r => f r + g r) = mean cfg raws f + mean cfg raws g := by
  unfold mean; rw [S_add, add_div]

lemma mean_smul (cfg : AlignCfg) (raws : List Raw) (k : ℝ) (f : Raw → ℝ) : mean cfg raws (fun r => k * f r) = k * mean cfg raws f := by
  unfold mean; rw [S_smul, mul_div_assoc]

lemma mean_const (cfg : AlignCfg) (raws : List Raw) (h : S cfg raws (fun _ => 1) ≠ 0) (k : ℝ) : mean cfg raws (fun _ => k) = k := by
  have := mean_smul cfg raws k (fun _ => 1)
  simp only [mul_one] at this
  rw [this]
  unfold mean
  rw [div_self h, mul_one]

lemma mean_congr (cfg : AlignCfg) (raws : List Raw) {f g : Raw → ℝ} (h : ∀ r ∈ raws, f r = g r) : mean cfg raws f = mean cfg raws g := by
  unfold mean; rw [S_congr cfg raws h]

lemma mean_map (cfg : AlignCfg) (raws : List Raw) (m : Raw → Raw) (hm : ∀ r, (m r).w = r.w) (f : Raw → ℝ) :
    mean cfg (raws.map m) f = mean cfg raws (fun r => f (m r)) := by
  unfold mean; rw [S_map cfg raws m hm, S_map cfg raws m hm]

/-- Weighted variance of the reference values. -/
noncomputable def var (cfg : AlignCfg) (raws : List Raw) : ℝ := mean cfg raws (fun r => r.x * r.x) - mean cfg raws (·.x) * mean cfg raws (·.x)

/-- The unclamped gain. -/
noncomputable def gain (cfg : AlignCfg) (raws : List Raw) : ℝ :=
  (mean cfg raws (fun r => r.x * r.y) - mean cfg raws (·.x) * mean cfg raws (·.y)) / var cfg raws

lemma regress_eq (cfg : AlignCfg) (raws : List Raw) : regress cfg raws =
    if S cfg raws (fun _ => 1) = 0 then none
    else if cfg.useSqew = true ∧ var cfg raws = 0 then none
    else
      let ra : ℝ × ℝ × ℝ :=
        if cfg.useSqew then
          if gain cfg raws < 0.5 then (0.5, 0, 0)
          else (gain cfg raws, (mean cfg raws (fun r => r.x * r.dx) - mean cfg raws (·.x) * mean cfg raws (·.dx)) / var cfg raws,
            (mean cfg raws (fun r => r.x * r.dy) - mean cfg raws (·.x) * mean cfg raws (·.dy)) / var cfg raws)
        else (1, 0, 0)
      let rb : ℝ × ℝ × ℝ :=
        if cfg.useOffset then (mean cfg raws (·.y) - ra.1 * mean cfg raws (·.x), mean cfg raws (·.dx) - ra.2.1 * mean cfg raws (·.x),
          mean cfg raws (·.dy) - ra.2.2 * mean cfg raws (·.x))
        else (0, 0, 0)
      some ⟨ra.1, ra.2.1, ra.2.2, rb.1, rb.2.1, rb.2.2⟩ := rfl

/-- Adding a constant to the reference values. -/
def shiftX (κ : ℝ) (r : Raw) : Raw := { r with x := r.x + κ }

/-- The same regression for references that are `κ` brighter. -/
def Reg.shift (κ : ℝ) (g : Reg) : Reg := ⟨g.a, g.adx, g.ady, g.b - g.a * κ, g.bdx - g.adx * κ, g.bdy - g.ady * κ⟩

lemma regress_shift (cfg : AlignCfg) (ho : cfg.useOffset = true) (κ : ℝ) (raws : List Raw) :
    regress cfg (raws.map (shiftX κ)) = (regress cfg raws).map (Reg.shift κ) := by
  have hw : ∀ r, (shiftX κ r).w = r.w := fun _ => rfl
  have hS : S cfg (raws.map (shiftX κ)) (fun _ => 1) = S cfg raws (fun _ => 1) := S_map cfg raws _ hw _
  rw [regress_eq, regress_eq, hS]
  by_cases h0 : S cfg raws (fun _ => 1) = 0
  · simp [h0]
  have mx : mean cfg (raws.map (shiftX κ)) (·.x) = mean cfg raws (·.x) + κ := by
    rw [mean_map cfg raws _ hw]
    show mean cfg raws (fun r => r.x + κ) = _
    rw [mean_add, mean_const cfg raws h0]
  have my : mean cfg (raws.map (shiftX κ)) (·.y) = mean cfg raws (·.y) := mean_map cfg raws _ hw _
  have mdx : mean cfg (raws.map (shiftX κ)) (·.dx) = mean cfg raws (·.dx) := mean_map cfg raws _ hw _
  have mdy : mean cfg (raws.map (shiftX κ)) (·.dy) = mean cfg raws (·.dy) := mean_map cfg raws _ hw _
  have mxf : ∀ f : Raw → ℝ, (∀ r, f (shiftX κ r) = f r) →
      mean cfg (raws.map (shiftX κ)) (fun r => r.x * f r) = mean cfg raws (fun r => r.x * f r) + κ * mean cfg raws f := by
    intro f hf
    rw [mean_map cfg raws _ hw, ← mean_smul, ← mean_add]
    refine mean_congr cfg raws fun r _ => ?_
    rw [hf]
    show (r.x + κ) * f r = _
    ring
  have mxx : mean cfg (raws.map (shiftX κ)) (fun r => r.x * r.x) = mean cfg raws (fun r => r.x * r.x) + 2 * κ * mean cfg raws (·.x) + κ * κ := by
    rw [mean_map cfg raws _ hw, ← mean_smul, ← mean_add, ← mean_const cfg raws h0 (κ * κ), ← mean_add]
    refine mean_congr cfg raws fun r _ => ?_
    show (r.x + κ) * (r.x + κ) = _
    ring
  have hvar : var cfg (raws.map (shiftX κ)) = var cfg raws := by
    unfold var; rw [mxx, mx]; ring
  have hcov : ∀ f : Raw → ℝ, (∀ r, f (shiftX κ r) = f r) →
      mean cfg (raws.map (shiftX κ)) (fun r => r.x * f r) - mean cfg (raws.map (shiftX κ)) (·.x) * mean cfg (raws.map (shiftX κ)) f =
      mean cfg raws (fun r => r.x * f r) - mean cfg raws (·.x) * mean cfg raws f := by
    intro f hf
    have : mean cfg (raws.map (shiftX κ)) f = mean cfg raws f := by
      rw [mean_map cfg raws _ hw]; exact mean_congr cfg raws fun r _ => hf r
    rw [mxf f hf, mx, this]; ring
  have hgain : gain cfg (raws.map (shiftX κ)) = gain cfg raws := by
    unfold gain; rw [hvar, hcov (·.y) fun _ => rfl]
  rw [if_neg h0, if_neg h0, hvar]
  by_cases hv : cfg.useSqew = true ∧ var cfg raws = 0
  · simp [hv]
  rw [if_neg hv, if_neg hv, hgain, hcov (·.dx) fun _ => rfl, hcov (·.dy) fun _ => rfl, mx, my, mdx, mdy]
  simp only [ho, if_true, Option.map_some, Reg.shift]
  congr 2 <;> ring

lemma rowOf_shift (cfg : AlignCfg) (κ : ℝ) (g : Reg) (r : Raw) :
    rowOf cfg (some (g.shift κ)) (shiftX κ r) = rowOf cfg (some g) r := by
  have : fixed (some (g.shift κ)) (shiftX κ r) = fixed (some g) r := by
    unfold fixed Reg.shift shiftX
    simp only
    congr 1 <;> ring
  unfold rowOf
  rw [this]
  rfl

lemma assemble_shift (cfg : AlignCfg) (ho : cfg.useOffset = true) (κ : ℝ) (lvls : List (List Raw)) :
    assemble cfg (lvls.map (List.map (shiftX κ))) = assemble cfg lvls := by
  unfold assemble
  simp only [List.map_eq_nil_iff, ho, Bool.true_or, if_true]
  split_ifs with h
  · rfl
  · rw [← List.map_flatten, regress_shift cfg ho]
    cases hr : regress cfg lvls.flatten with
    | none => simp
    | some g =>
      simp only [Option.map_some, List.map_map]
      congr 1
      apply List.map_congr_left
      intro r _
      exact rowOf_shift cfg κ g r

/-! ### Inverting the equations -/

lemma isPatchInFrame_same {p : ℕ} {img : Img} {c c' : FC} {wb b : Bool} (hs : c.Settled)
    (h : Patch.isPatchInFrame p img c wb = some (c', b)) : c' = c := by
  unfold Patch.isPatchInFrame at h
  simp only [FC.comWarpC_valid hs.warp, FC.isNear_valid hs.warp, FC.getWarpC_valid hs.warp, hs.getC, Option.bind_eq_bind,
    Option.bind_some, if_true, Option.pure_def] at h
  by_cases hf : c.isInFront = true
  · rw [if_pos hf] at h
    by_cases hn : c.nearB = true
    · simp only [hn, if_true, Option.some.injEq, Prod.mk.injEq] at h; exact h.1.symm
    · simp only [hn, Bool.false_eq_true, if_false] at h
      cases hk : Patch.cornersOk img c.c c.warpC (halfPatch p wb) with
      | none => simp [hk] at h
      | some ok => simp only [hk, Option.bind_some, Option.some.injEq, Prod.mk.injEq] at h; exact h.1.symm
  · rw [if_neg hf] at h
    simp only [Option.some.injEq, Prod.mk.injEq] at h; exact h.1.symm

/-- What a used level contributes. -/
def Contributes (p : ℕ) (cfg : AlignCfg) (junk : FC) (ex : ℕ → Patch) (pyr : List Level) (mp : MLP) (c : FC) (affInv : M2) (near : Bool)
    (l : ℕ) (rs : List Raw) : Prop :=
  ∃ lvl cl E, pyr[l]? = some lvl ∧ levelTransform junk pyr c 0 l = some (c, cl) ∧ cl.Settled ∧ mp.isValidPatch l = true ∧
    Patch.isPatchInFrame p lvl.img cl false = some (cl, true) ∧ Patch.extractPatchFromImage p (ex l) lvl.img cl false = some (cl, E) ∧
    rs = (List.range (p * p)).map (rawPixel p cfg affInv near l ((mp.patches l).computeGradientParameters p) E)

lemma rawLevel_inv {p : ℕ} {cfg : AlignCfg} {junk : FC} {ex : ℕ → Patch} {pyr : List Level} {mp : MLP} {c : FC} {affInv : M2} {near : Bool}
    {l : ℕ} {rs : List Raw} (hs : c.Settled) (h : rawLevel p cfg junk pyr mp ex c affInv near l = some (some rs)) :
    Contributes p cfg junk ex pyr mp c affInv near l rs := by
  unfold rawLevel at h
  cases ht : levelTransform junk pyr c 0 l with
  | none => simp [ht] at h
  | some t =>
    obtain ⟨c1, cl⟩ := t
    obtain ⟨_, _, a, b, ha, hb⟩ := levelTransform_inv hs.warp ht
    obtain ⟨o, ho, hos, _⟩ := levelTransform_settled (junk := junk) ha hb hs
    rw [ht] at ho
    simp only [Option.some.injEq, Prod.mk.injEq] at ho
    obtain ⟨rfl, rfl⟩ := ho
    simp only [ht, hb, Option.bind_eq_bind, Option.bind_some, Option.pure_def] at h
    cases hv : mp.isValidPatch l with
    | false => simp [hv] at h
    | true =>
      simp only [hv, if_true] at h
      cases hf : Patch.isPatchInFrame p b.img cl false with
      | none => simp [hf] at h
      | some t =>
        obtain ⟨c2, ok⟩ := t
        have := isPatchInFrame_same hos hf
        subst this
        simp only [hf, Option.bind_some] at h
        cases ok with
        | false => simp at h
        | true =>
          simp only [if_true] at h
          cases hg : ((mp.patches l).computeGradientParameters p).validGradient with
          | false => simp [hg] at h
          | true =>
            simp only [hg, if_true] at h
            cases he : Patch.extractPatchFromImage p (ex l) b.img c2 false with
            | none => simp [he] at h
            | some t =>
              obtain ⟨c3, E⟩ := t
              simp only [he, Option.bind_some, Option.some.injEq] at h
              have : c3 = c2 := by
                rw [Patch.extract_settled hos] at he
                obtain ⟨g, _, hg⟩ := Option.map_eq_some_iff.mp he
                exact (congrArg Prod.fst hg).symm
              subst this
              exact ⟨b, _, E, hb, ht, hos, hv, hf, he, h.symm⟩

lemma mapM_mem {α β : Type} {f : α → Option β} : ∀ {l : List α} {r : List β}, l.mapM f = some r → ∀ b ∈ r, ∃ a ∈ l, f a = some b
  | [], r, h, b, hb => by simp at h; subst h; simp at hb
  | a :: l, r, h, b, hb => by
    rw [List.mapM_cons] at h
    cases ha : f a with
    | none => simp [ha] at h
    | some x =>
      cases hl : l.mapM f with
      | none => simp [ha, hl] at h
      | some y =>
        simp [ha, hl] at h
        subst h
        rcases List.mem_cons.mp hb with h | h
        · exact ⟨a, by simp, by rw [ha, h]⟩
        · obtain ⟨a', h1, h2⟩ := mapM_mem hl b h
          exact ⟨a', by simp [h1], h2⟩

/-- The equations from a settled coordinates object: the object is unchanged, and the rows come from levels in the interval. -/
lemma equations_inv {p : ℕ} {cfg : AlignCfg} {junk : FC} {ex : ℕ → Patch} {pyr : List Level} {mp : MLP} {c c' : FC} {l1 l2 : ℕ} {res : EqRes}
    (hs : c.Settled) (hc : c.validC = true) (h : equations p cfg junk ex pyr mp c l1 l2 = some (c', res)) :
    c' = c ∧ ∃ used : List (List Raw), (∀ rs ∈ used, ∃ l, l1 ≤ l ∧ l ≤ l2 ∧ Contributes p cfg junk ex pyr mp c c.warpC.inv c.nearB l rs) ∧
      (res = assemble cfg used ∨ (res = .nonfinite ∧ used ≠ [] ∧ c.nearB = false ∧ c.warpC.det = 0)) := by
  unfold equations at h
  have hcc : c.comC = some (c, true) := by simp [FC.comC, hc]
  simp only [hcc, FC.comWarpC_valid hs.warp, FC.getWarpC_valid hs.warp, FC.isNear_valid hs.warp, Option.bind_eq_bind, Option.bind_some,
    Bool.not_true, Bool.false_eq_true, if_false, Option.pure_def] at h
  cases hm : (List.range' l1 (l2 + 1 - l1)).mapM (rawLevel p cfg junk pyr mp ex c c.warpC.inv c.nearB) with
  | none => simp [hm] at h
  | some lvls =>
    simp only [hm, Option.bind_some] at h
    have hu : ∀ rs ∈ lvls.filterMap id, ∃ l, l1 ≤ l ∧ l ≤ l2 ∧ Contributes p cfg junk ex pyr mp c c.warpC.inv c.nearB l rs := by
      intro rs hrs
      obtain ⟨o, ho, hor⟩ := List.mem_filterMap.mp hrs
      simp only [id] at hor
      subst hor
      obtain ⟨l, hl, hlr⟩ := mapM_mem hm _ ho
      rw [List.mem_range'_1] at hl
      exact ⟨l, hl.1, by omega, rawLevel_inv hs hlr⟩
    split_ifs at h with hd
    · simp only [Option.some.injEq, Prod.mk.injEq] at h
      exact ⟨h.1.symm, _, hu, Or.inr ⟨h.2.symm, hd⟩⟩
    · simp only [Option.some.injEq, Prod.mk.injEq] at h
      exact ⟨h.1.symm, _, hu, Or.inl h.2.symm⟩

/-! ### Affine brightness -/

lemma wt_sum_nonneg (cfg : AlignCfg) (raws : List Raw) (f : Raw → ℝ) (hf : ∀ r ∈ raws, 0 ≤ wt cfg r * f r) : 0 ≤ S cfg raws f := by
  unfold S
  apply List.sum_nonneg
  intro x hx
  obtain ⟨r, hr, rfl⟩ := List.mem_map.mp hx
  exact hf r hr

lemma regress_affine (cfg : AlignCfg) (raws : List Raw) (α β : ℝ) (hy : ∀ r ∈ raws, r.y = α * r.x + β) (g : Reg) (hr : regress cfg raws = some g)
    (hα : if cfg.useSqew then 1 / 2 ≤ α else α = 1) (hβ : cfg.useOffset = true ∨ β = 0) : g.a = α ∧ g.b = β := by
  rw [regress_eq] at hr
  by_cases h0 : S cfg raws (fun _ => 1) = 0
  · simp [h0] at hr
  rw [if_neg h0] at hr
  have my : mean cfg raws (·.y) = α * mean cfg raws (·.x) + β := by
    rw [mean_congr cfg raws (g := fun r => α * r.x + β) hy, mean_add, mean_smul, mean_const cfg raws h0]
  have mxy : mean cfg raws (fun r => r.x * r.y) = α * mean cfg raws (fun r => r.x * r.x) + β * mean cfg raws (·.x) := by
    rw [mean_congr cfg raws (g := fun r => α * (r.x * r.x) + β * r.x) (fun r h => by rw [hy r h]; ring), mean_add, mean_smul, mean_smul]
  by_cases hv : cfg.useSqew = true ∧ var cfg raws = 0
  · simp [hv] at hr
  rw [if_neg hv] at hr
  have h5 : (0.5 : ℝ) = 1 / 2 := by norm_num
  by_cases hsq : cfg.useSqew = true
  · have hv' : var cfg raws ≠ 0 := fun h => hv ⟨hsq, h⟩
    have hga : gain cfg raws = α := by
      unfold gain
      rw [mxy, my, div_eq_iff hv']
      unfold var
      ring
    rw [if_pos hsq] at hα
    have hlt : ¬ (α < 0.5) := by rw [h5]; linarith
    simp only [hsq, if_true, hga, hlt, if_false, my] at hr
    simp only [Option.some.injEq] at hr
    subst hr
    refine ⟨rfl, ?_⟩
    rcases hβ with h | h
    · simp [h]
    · by_cases ho : cfg.useOffset = true <;> simp [ho, h]
  · rw [if_neg hsq] at hα
    subst hα
    simp only [hsq, Bool.false_eq_true, if_false, my, Option.some.injEq] at hr
    subst hr
    refine ⟨rfl, ?_⟩
    rcases hβ with h | h
    · simp [h]
    · by_cases ho : cfg.useOffset = true <;> simp [ho, h]

lemma rowOf_zero (cfg : AlignCfg) (reg : Option Reg) (r : Raw) (h : (fixed reg r).b = 0) : (rowOf cfg reg r).b = 0 := by
  have hh : (huberRow cfg.huber (fixed reg r)).b = 0 := by
    rw [huberRow_eq]
    simp only
    rw [h]
    have := hub_neg cfg.huber 0
    rw [neg_zero] at this
    linarith
  unfold rowOf
  simp only
  split_ifs <;> simp [scaleRow, hh]

lemma assemble_affine {cfg : AlignCfg} {lvls : List (List Raw)} {rows : List Row} (α β : ℝ) (hy : ∀ rs ∈ lvls, ∀ r ∈ rs, r.y = α * r.x + β)
    (hr : assemble cfg lvls = .ok rows) (hα : if cfg.useSqew then 1 / 2 ≤ α else α = 1) (hβ : cfg.useOffset = true ∨ β = 0) :
    ∀ r ∈ rows, r.b = 0 := by
  have hy' : ∀ r ∈ lvls.flatten, r.y = α * r.x + β := by
    intro r hr
    obtain ⟨rs, h1, h2⟩ := List.mem_flatten.mp hr
    exact hy rs h1 r h2
  unfold assemble at hr
  split_ifs at hr with h1 h2
  · cases hg : regress cfg lvls.flatten with
    | none => simp [hg] at hr
    | some g =>
      simp only [hg, EqRes.ok.injEq] at hr
      subst hr
      obtain ⟨ha, hb⟩ := regress_affine cfg _ α β hy' g hg hα hβ
      intro r hr
      obtain ⟨q, hq, rfl⟩ := List.mem_map.mp hr
      apply rowOf_zero
      simp only [fixed]
      rw [ha, hb, hy' q hq]
      ring
  · simp only [EqRes.ok.injEq] at hr
    subst hr
    simp only [Bool.or_eq_true, not_or] at h2
    rw [if_neg h2.2] at hα
    have hb : β = 0 := hβ.resolve_left h2.1
    subst hα hb
    intro r hr
    obtain ⟨q, hq, rfl⟩ := List.mem_map.mp hr
    apply rowOf_zero
    simp only [fixed]
    rw [hy' q hq]
    ring

/-! ### Optimality -/

lemma mean_sq (cfg : AlignCfg) (raws : List Raw) (h0 : S cfg raws (fun _ => 1) ≠ 0) (a b : ℝ) :
    mean cfg raws (fun r => (r.y - a * r.x - b) ^ 2) =
      (mean cfg raws (·.y) - a * mean cfg raws (·.x) - b) ^ 2 + (mean cfg raws (fun r => r.y * r.y) - mean cfg raws (·.y) * mean cfg raws (·.y)) -
      2 * a * (mean cfg raws (fun r => r.x * r.y) - mean cfg raws (·.x) * mean cfg raws (·.y)) + a ^ 2 * var cfg raws := by
  have : mean cfg raws (fun r => (r.y - a * r.x - b) ^ 2) = mean cfg raws (fun r => r.y * r.y) + (-2 * a) * mean cfg raws (fun r => r.x * r.y) +
      (-2 * b) * mean cfg raws (·.y) + (a ^ 2) * mean cfg raws (fun r => r.x * r.x) + (2 * a * b) * mean cfg raws (·.x) + b ^ 2 := by
    rw [← mean_const cfg raws h0 (b ^ 2), ← mean_smul, ← mean_smul, ← mean_smul, ← mean_smul, ← mean_add, ← mean_add, ← mean_add, ← mean_add, ← mean_add]
    exact mean_congr cfg raws fun r _ => by ring
  rw [this]
  unfold var
  ring

lemma var_nonneg (cfg : AlignCfg) (raws : List Raw) (hw : ∀ r ∈ raws, 0 ≤ wt cfg r) (h0 : S cfg raws (fun _ => 1) ≠ 0) : 0 ≤ var cfg raws := by
  have h1 : 0 ≤ S cfg raws (fun _ => 1) := wt_sum_nonneg cfg raws _ fun r hr => by simpa using hw r hr
  have h2 : var cfg raws = mean cfg raws (fun r => (r.x - mean cfg raws (·.x)) ^ 2) := by
    generalize hm : mean cfg raws (·.x) = m
    have : mean cfg raws (fun r => (r.x - m) ^ 2) = mean cfg raws (fun r => r.x * r.x) + (-2 * m) * mean cfg raws (·.x) + m ^ 2 := by
      rw [← mean_const cfg raws h0 (m ^ 2), ← mean_smul, ← mean_add, ← mean_add]
      exact mean_congr cfg raws fun r _ => by ring
    rw [this]
    unfold var
    rw [hm]
    ring
  rw [h2]
  unfold mean
  exact div_nonneg (wt_sum_nonneg cfg raws _ fun r hr => mul_nonneg (hw r hr) (sq_nonneg _)) h1

end Rovio.Align
