import Verif.Props.Alignment

/-!
# C66, C32: gradient weights in the equations; the default levels of the adaptive alignment
-/

namespace Rovio

open Rovio.Spec

namespace Align

/-- **C66.** With a gradient exponent every row is the row without it, multiplied by the weight of its (brightness-corrected) gradient; the equation of the row stays the
same unless the weight is zero. -/
theorem C66_gradient_row {cfg : AlignCfg} (he : 0 < cfg.gradExp) (reg : Option Reg) (r : Raw) :
    rowOf cfg reg r = scaleRow (gradWeight cfg.gradExp (fixed reg r).a0 (fixed reg r).a1) (rowOf { cfg with gradExp := 0 } reg r) ∧
      (gradWeight cfg.gradExp (fixed reg r).a0 (fixed reg r).a1 ≠ 0 → ∀ u : V2,
        ((rowOf cfg reg r).a0 * u.x + (rowOf cfg reg r).a1 * u.y = (rowOf cfg reg r).b ↔
          (rowOf { cfg with gradExp := 0 } reg r).a0 * u.x + (rowOf { cfg with gradExp := 0 } reg r).a1 * u.y = (rowOf { cfg with gradExp := 0 } reg r).b)) := by
  have h : rowOf cfg reg r = scaleRow (gradWeight cfg.gradExp (fixed reg r).a0 (fixed reg r).a1) (rowOf { cfg with gradExp := 0 } reg r) := by
    unfold rowOf
    simp only [if_pos he, gt_iff_lt, lt_irrefl, if_false]
    by_cases hw : cfg.useWeighting = true
    · simp only [hw, if_true, scaleRow]
      congr 1 <;> ring
    · simp only [hw, Bool.false_eq_true, if_false]
  refine ⟨h, fun h0 u => ?_⟩
  rw [h]
  simp only [scaleRow]
  constructor
  · intro e
    apply mul_right_cancel₀ h0
    linear_combination e
  · intro e
    linear_combination (gradWeight cfg.gradExp (fixed reg r).a0 (fixed reg r).a1) * e

/-- Non-vacuity: a row whose gradient is half of the limit has half the weight. -/
example (reg : AlignCfg) : (rowOf { reg with gradExp := 2, huber := 0, useWeighting := false } none ⟨1, 3, 7, 128, 0⟩).b = 2 := by
  rw [(C66_gradient_row (cfg := { reg with gradExp := 2, huber := 0, useWeighting := false }) (by norm_num) none ⟨1, 3, 7, 128, 0⟩).1]
  norm_num [scaleRow, gradWeight, fixed, rowOf, huberRow]

/-- **C66.** Without brightness adaptation and without warp, with intensities of 8 bits around the patch, the weight of every pixel on every level is positive and at most one. -/
theorem C66_gradient_bytes (p : ℕ) (cfg : AlignCfg) (he : 0 < cfg.gradExp) (A : M2) (l : ℕ) (P E : Patch) (hv : P.validGradient = false)
    (hb : ∀ k, k < (p + 2) * (p + 2) → 0 ≤ P.border k ∧ P.border k ≤ 255) {k : ℕ} (hk : k < p * p) :
    0 < gradWeight cfg.gradExp (fixed none (rawPixel p cfg A true l (P.computeGradientParameters p) E k)).a0
        (fixed none (rawPixel p cfg A true l (P.computeGradientParameters p) E k)).a1 ∧
      gradWeight cfg.gradExp (fixed none (rawPixel p cfg A true l (P.computeGradientParameters p) E k)).a0
        (fixed none (rawPixel p cfg A true l (P.computeGradientParameters p) E k)).a1 ≤ 1 := by
  refine (C66_gradient_weight _ _ _ he).2.1 ?_
  have hp : 0 < p := by
    rcases Nat.eq_zero_or_pos p with h | h
    · subst h; simp at hk
    · exact h
  have hy : k / p < p := Nat.div_lt_of_lt_mul hk
  have hx : k % p < p := Nat.mod_lt _ hp
  have hin : ∀ a b, a < p + 2 → b < p + 2 → a * (p + 2) + b < (p + 2) * (p + 2) := fun a b ha hb => by nlinarith
  have hl : (0 : ℝ) ≤ 0.5 ^ l ∧ (0.5 : ℝ) ^ l ≤ 1 := ⟨by positivity, pow_le_one₀ (by norm_num) (by norm_num)⟩
  have e1 := hb _ (hin (k / p + 1) (k % p + 2) (by omega) (by omega))
  have e2 := hb _ (hin (k / p + 1) (k % p) (by omega) (by omega))
  have e3 := hb _ (hin (k / p + 2) (k % p + 1) (by omega) (by omega))
  have e4 := hb _ (hin (k / p) (k % p + 1) (by omega) (by omega))
  have h1 : (k / p + 1) * (p + 2) + 1 + k % p + 1 = (k / p + 1) * (p + 2) + (k % p + 2) := by ring
  have h2 : (k / p + 1) * (p + 2) + 1 + k % p - 1 = (k / p + 1) * (p + 2) + k % p := by omega
  have h3 : (k / p + 1) * (p + 2) + 1 + k % p + (p + 2) = (k / p + 2) * (p + 2) + (k % p + 1) := by ring
  have h4 : (k / p + 1) * (p + 2) + 1 + k % p - (p + 2) = k / p * (p + 2) + (k % p + 1) := by
    have : (k / p + 1) * (p + 2) = k / p * (p + 2) + (p + 2) := by ring
    omega
  simp only [fixed, rawPixel, if_true, Patch.computeGradientParameters, hv, Bool.false_eq_true, if_false, if_pos hk, Patch.gradAt, h1, h2, h3, h4]
  generalize P.border ((k / p + 1) * (p + 2) + (k % p + 2)) = a at *
  generalize P.border ((k / p + 1) * (p + 2) + k % p) = b at *
  generalize P.border ((k / p + 2) * (p + 2) + (k % p + 1)) = c at *
  generalize P.border (k / p * (p + 2) + (k % p + 1)) = d at *
  generalize (0.5 : ℝ) ^ l = s at *
  have key : ∀ u v : ℝ, 0 ≤ u ∧ u ≤ 255 → 0 ≤ v ∧ v ≤ 255 → (-s * (0.5 * (u - v))) ^ 2 ≤ 127.5 ^ 2 := fun u v hu hv => by
    have h5 : |u - v| ≤ 255 := abs_le.2 ⟨by linarith [hu.1, hv.2], by linarith [hu.2, hv.1]⟩
    have h6 : |(-s * (0.5 * (u - v)))| ≤ 127.5 := by
      rw [abs_mul, abs_neg, abs_mul, abs_of_nonneg hl.1, abs_of_pos (by norm_num : (0 : ℝ) < 0.5)]
      have : s * (0.5 * |u - v|) ≤ 1 * (0.5 * 255) := mul_le_mul hl.2 (by linarith) (by positivity) zero_le_one
      linarith
    rw [← sq_abs]
    exact pow_le_pow_left₀ (abs_nonneg _) h6 2
  have k1 := key a b e1 e2
  have k2 := key c d e3 e4
  norm_num at k1 k2 ⊢
  linarith

/-- A patch of a vertical edge between black and white. -/
noncomputable def edge : Patch := ⟨fun _ => 0, fun k => if k % 4 < 2 then 0 else 255, fun _ => 0, fun _ => 0, 0, 0, 0, 0, false⟩

/-- Non-vacuity: the steepest possible edge still has a positive weight. -/
example (cfg : AlignCfg) (E : Patch) : 0 < gradWeight 1 (fixed none (rawPixel 2 { cfg with gradExp := 1 } M2.one true 0 (edge.computeGradientParameters 2) E 0)).a0
    (fixed none (rawPixel 2 { cfg with gradExp := 1 } M2.one true 0 (edge.computeGradientParameters 2) E 0)).a1 :=
  (C66_gradient_bytes 2 { cfg with gradExp := 1 } (by norm_num) M2.one 0 edge E rfl (fun k _ => by unfold edge; dsimp only; split_ifs <;> norm_num) (by norm_num)).1

/-- Four pixels of 8 bits: a reference with a steep texture that is seen with three times the contrast. -/
def steep : List Raw := [⟨1, 0, 0, 127, 0⟩, ⟨1, 0, 0, -127, 0⟩, ⟨1, 1, 3, 127, 0⟩, ⟨1, 1, 3, -127, 0⟩]

/-- **C66, finding.** When the gain is estimated the gradient is multiplied with it before the weight is computed: a steep pixel of an image seen with more contrast gets a
negative weight, larger than that of a pixel without gradient. -/
theorem C66_finding_gradient_gain : ∃ (cfg : AlignCfg) (g : Reg), cfg.gradExp = 1 ∧ cfg.useSqew = true ∧ regress cfg steep = some g ∧ g.a = 3 ∧
    ∀ r ∈ steep, |r.dx| ≤ 127.5 ∧ gradWeight cfg.gradExp (fixed (some g) r).a0 (fixed (some g) r).a1 < -1 := by
  refine ⟨⟨0, fun _ => 1, false, true, true, 1⟩, ⟨3, 0, 0, 0, 0, 0⟩, rfl, rfl, ?_, rfl, ?_⟩
  · norm_num [regress, steep, mean, S, wt]
  · have hw : ∀ x : ℝ, x ^ 2 = 381 ^ 2 → gradWeight 1 x 0 < -1 := fun x hx => by
      rw [(C66_gradient_weight 1 x 0 one_pos).1, Real.rpow_one, hx]
      have h1 : Real.sqrt ((381 : ℝ) ^ 2 + 0 ^ 2) = 381 := by rw [show (381 : ℝ) ^ 2 + 0 ^ 2 = 381 ^ 2 by ring]; exact Real.sqrt_sq (by norm_num)
      have h2 : Real.sqrt 2 < 1.45 := by rw [Real.sqrt_lt' (by norm_num)]; norm_num
      have h3 : 0 < Real.sqrt 2 := by positivity
      rw [h1]
      have : 2 < 381 / (128 * Real.sqrt 2) := by rw [lt_div_iff₀ (by positivity)]; linarith
      linarith
    intro r hr
    simp only [steep, List.mem_cons, List.not_mem_nil, or_false] at hr
    rcases hr with rfl | rfl | rfl | rfl <;> refine ⟨by norm_num, ?_⟩ <;>
      · simp only [fixed, zero_mul, sub_zero, mul_zero]
        exact hw _ (by norm_num)

lemma mapM_none {α β : Type} (f : α → Option β) : ∀ (l : List α) (x : α), x ∈ l → f x = none → l.mapM f = none
  | a :: l, x, hx, h => by
    rw [List.mapM_cons]
    rcases List.mem_cons.1 hx with rfl | hx
    · rw [h]; rfl
    · rw [mapM_none f l x hx h]
      cases f a <;> rfl

lemma align2D_beyond {p : ℕ} {cfg : AlignCfg} {junk : FC} {ex : ℕ → Patch} {solve : Option (List Row) → SolveRes} {pyr : List Level} {mp : MLP} {c : FC} {l1 l2 k : ℕ} {tol : ℝ}
    (hc : c.validC = true) (hw : c.validWarpC = true) (h1 : l1 ≤ l2) (h2 : pyr.length ≤ l2) : align2D p cfg junk ex solve pyr mp c l1 l2 (k + 1) tol = none := by
  have hcc : c.comC = some (c, true) := by simp [FC.comC, hc]
  have hww : c.comWarpC = some (c, true) := by simp [FC.comWarpC, hw]
  have hraw : ∀ A near, rawLevel p cfg junk pyr mp ex c A near l2 = none := fun A near => by
    unfold rawLevel levelTransform
    rw [List.getElem?_eq_none h2]
    cases pyr[0]? <;> rfl
  have hgc : c.getC = some (c, c.c) := by simp [FC.getC, hcc]
  have hgw : c.getWarpC = some (c, c.warpC) := by simp [FC.getWarpC, hww]
  have heq : equations p cfg junk ex pyr mp c l1 l2 = none := by
    unfold equations
    simp only [hcc, hww, hgw, Option.bind_eq_bind, Option.bind_some, Bool.not_true, Bool.false_eq_true, if_false]
    cases hn : c.isNearIdentityWarping with
    | none => rfl
    | some n =>
      obtain ⟨c', near⟩ := n
      have e : c' = c := by
        unfold FC.isNearIdentityWarping at hn
        by_cases hi : c.isWarpIdentity = true
        · rw [if_pos hi, Option.some.injEq, Prod.mk.injEq] at hn
          exact hn.1.symm
        · rw [if_neg hi] at hn
          simp only [hww, hgw, Option.bind_eq_bind, Option.bind_some, Bool.not_true, Bool.false_eq_true, if_false, Option.pure_def, Option.some.injEq, Prod.mk.injEq] at hn
          exact hn.1.symm
      subst e
      simp only [Option.bind_some]
      rw [mapM_none _ _ l2 (by rw [List.mem_range'_1]; omega) (hraw _ _)]
      rfl
  unfold align2D loop
  simp only [hgc, heq, Option.bind_eq_bind, Option.bind_some, Option.bind_none]

/-- **C32, finding.** The default of `align2DAdaptive` for its lowest level is the number of levels, one beyond the last: with it, and also with an `align2D` up to a level the
pyramid does not have, the alignment is undefined, for coordinates with known pixel and warp. -/
theorem C32_finding_default_level {p : ℕ} {cfg : AlignCfg} {junk : FC} {ex : ℕ → Patch} {tmp : MLP} {solve : Option (List Row) → SolveRes} {pyr : List Level} {mp : MLP}
    {cInit : FC} {sigma1 : ℝ} {dir : V2} {range coverage : ℝ} {maxUni : ℤ} (hc : cInit.validC = true) (hw : cInit.validWarpC = true) (hm : 0 ≤ maxUni) :
    align2DAdaptive p cfg junk ex tmp solve pyr mp cInit sigma1 dir pyr.length 0 range coverage maxUni = none := by
  unfold align2DAdaptive
  cases hn : seedCount sigma1 coverage range pyr.length maxUni with
  | none => rfl
  | some n =>
    have h0 : 0 ≤ n := by
      unfold seedCount at hn
      obtain ⟨z, -, rfl⟩ := Option.map_eq_some_iff.1 hn
      exact le_min (le_max_right _ _) hm
    simp only [Option.bind_eq_bind, Option.bind_some]
    by_cases hz : n = 0
    · rw [if_pos hz]
      exact align2D_beyond hc hw (Nat.zero_le _) le_rfl
    rw [if_neg hz]
    obtain ⟨m, hm'⟩ : ∃ m, (2 * n + 1).toNat = m + 1 := ⟨(2 * n).toNat, by omega⟩
    have hs : seeds n = ((0 : ℤ) - n) :: ((List.range m).map Nat.succ).map fun k : ℕ => (k : ℤ) - n := by
      unfold seeds
      rw [hm', List.range_succ_eq_map]
      simp
    have hgc : cInit.getC = some (cInit, cInit.c) := by simp [FC.getC, FC.comC, hc]
    rw [hs, if_neg (by simp), hgc]
    simp only [Option.bind_some, List.foldlM_cons]
    have : adStep (fun c => align2D p cfg junk ex solve pyr mp c 0 pyr.length) (evalAt p junk tmp pyr mp pyr.length 0) cInit.c dir (seedStep range pyr.length) ⟨cInit, none⟩
        ((0 : ℤ) - n) = none := by
      unfold adStep
      have h := align2D_beyond (p := p) (cfg := cfg) (junk := junk) (ex := ex) (solve := solve) (mp := mp) (k := 9) (tol := 0.03)
        (c := cInit.setC (cInit.c + (((0 : ℤ) - n : ℤ) * seedStep range pyr.length) • dir) false) (by simp [FC.setC]) (by simpa [FC.setC] using hw) (Nat.zero_le _) (le_refl pyr.length)
      dsimp only
      rw [h]
      rfl
    rw [this]
    rfl

/-- Non-vacuity: any coordinates object with pixel and warp. -/
example (p : ℕ) (cfg : AlignCfg) (junk : FC) (ex : ℕ → Patch) (tmp : MLP) (solve : Option (List Row) → SolveRes) (pyr : List Level) (mp : MLP) (dir : V2) :
    align2DAdaptive p cfg junk ex tmp solve pyr mp ((junk.setC ⟨10, 20⟩ false).setWarpC M2.one) 1 dir pyr.length 0 1 2 5 = none :=
  C32_finding_default_level (by simp [FC.setC, FC.setWarpC]) (by simp [FC.setWarpC]) (by norm_num)

end Align

end Rovio
