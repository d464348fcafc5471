import Verif.Spec.Unmoved
import Verif.Props.Alignment

/-! Helper lemmas for C104: a patch aligned with the image it was taken from. -/

namespace Rovio

open Align

namespace Patch

lemma sampleWarped_shift (img : Img) (q : V2) (W : M2) (hs y x : ℕ) : sampleWarped img q W (hs + 1) (y + 1) (x + 1) = sampleWarped img q W hs y x := by
  have e : ∀ n : ℕ, ((n + 1 : ℕ) : ℝ) - ((hs + 1 : ℕ) : ℝ) = (n : ℝ) - hs := by intro n; push_cast; ring
  unfold sampleWarped
  simp only [e]

lemma samplePlain_shift (img : Img) (q : V2) (hs y x : ℕ) : samplePlain img q (hs + 1) (y + 1) (x + 1) = samplePlain img q hs y x := by
  have e : ∀ (u : ℤ) (n : ℕ), u + ((n + 1 : ℕ) : ℤ) - ((hs + 1 : ℕ) : ℤ) = u + n - hs := by intro u n; push_cast; ring
  unfold samplePlain
  simp only [e]

/-- Extracting with border gives the same inner patch as extracting without. -/
lemma inner_same {p : ℕ} (he : p % 2 = 0) {old old' A B : Patch} {img : Img} {c c1 c2 : FC} (hs : c.Settled)
    (h1 : extractPatchFromImage p old img c true = some (c1, A)) (h2 : extractPatchFromImage p old' img c false = some (c2, B)) :
    ∀ k < p * p, A.patch k = B.patch k := by
  intro k hk
  have hp : 2 * (p / 2) = p := by omega
  have hp0 : 0 < p := by
    rcases Nat.eq_zero_or_pos p with h | h
    · subst h; omega
    · exact h
  rw [extract_settled hs] at h1 h2
  obtain ⟨g1, f1, e1⟩ := Option.map_eq_some_iff.mp h1
  obtain ⟨g2, f2, e2⟩ := Option.map_eq_some_iff.mp h2
  have a1 := congrArg (fun t : FC × Patch => t.2.patch k) e1
  have a2 := congrArg (fun t : FC × Patch => t.2.patch k) e2
  simp only [if_true, Bool.false_eq_true, if_false, extractPatchFromPatchWithBorder, halfPatch, hk, Nat.add_zero, hp] at a1 a2
  have hw : 2 * (p / 2 + 1) = p + 2 := by omega
  have hy : k / p < p := Nat.div_lt_of_lt_mul hk
  have hx : k % p < p := Nat.mod_lt _ hp0
  have hi : (k / p + 1) * (p + 2) + 1 + k % p = (k / p + 1) * (p + 2) + (k % p + 1) := by ring
  have hlt : (k / p + 1) * (p + 2) + (k % p + 1) < (p + 2) * (p + 2) := by nlinarith [hy, hx]
  have hd : ((k / p + 1) * (p + 2) + (k % p + 1)) / (p + 2) = k / p + 1 := by
    rw [mul_comm, Nat.mul_add_div (by positivity), Nat.div_eq_of_lt (show k % p + 1 < p + 2 by omega), Nat.add_zero]
  have hm : ((k / p + 1) * (p + 2) + (k % p + 1)) % (p + 2) = k % p + 1 := by
    rw [mul_comm, Nat.mul_add_mod]; exact Nat.mod_eq_of_lt (show k % p + 1 < p + 2 by omega)
  rw [hi, hw, if_pos hlt, hd, hm] at a1
  rw [← a1, ← a2]
  have v1 := fill_get f1 (y := k / p + 1) (x := k % p + 1) (by simp only [halfPatch, if_true]; omega) (by simp only [halfPatch, if_true]; omega)
  have v2 := fill_get f2 (y := k / p) (x := k % p) (by simp only [halfPatch, Bool.false_eq_true, if_false]; omega) (by simp only [halfPatch, Bool.false_eq_true, if_false]; omega)
  simp only [halfPatch, if_true, Bool.false_eq_true, if_false, Nat.add_zero] at v1 v2
  by_cases hn : c.nearB = true
  · simp only [hn, if_true, samplePlain_shift] at v1 v2
    rw [v1] at v2
    exact Option.some.inj v2
  · simp only [hn, Bool.false_eq_true, if_false, sampleWarped_shift] at v1 v2
    rw [v1] at v2
    exact Option.some.inj v2

/-- The extracted inner patch does not depend on the patch written to, nor on the border. -/
lemma inner_any {p : ℕ} (he : p % 2 = 0) {old old' A B : Patch} {img : Img} {c c1 c2 : FC} {wb : Bool} (hs : c.Settled)
    (h1 : extractPatchFromImage p old img c wb = some (c1, A)) (h2 : extractPatchFromImage p old' img c false = some (c2, B)) :
    ∀ k < p * p, A.patch k = B.patch k := by
  cases wb with
  | true => exact inner_same he hs h1 h2
  | false =>
    intro k hk
    have hp : 2 * (p / 2) = p := by omega
    rw [extract_settled hs] at h1 h2
    obtain ⟨g1, f1, e1⟩ := Option.map_eq_some_iff.mp h1
    obtain ⟨g2, f2, e2⟩ := Option.map_eq_some_iff.mp h2
    rw [f1] at f2
    obtain rfl := Option.some.inj f2
    have a1 := congrArg (fun t : FC × Patch => t.2.patch k) e1
    have a2 := congrArg (fun t : FC × Patch => t.2.patch k) e2
    simp only [Bool.false_eq_true, if_false, halfPatch, Nat.add_zero, hp, hk, if_true] at a1 a2
    rw [← a1, ← a2]

/-- In frame with border implies in frame without. -/
lemma inP_inner {p : ℕ} (hp : 2 ≤ p) {img : Img} {c : FC} (h : InP p img c true) : InP p img c false := by
  have h1 : (1 : ℝ) ≤ (p / 2 : ℕ) := by exact_mod_cast (by omega : 1 ≤ p / 2)
  unfold InP at h ⊢
  by_cases hn : c.nearB = true
  · rw [if_pos hn] at h ⊢
    unfold PlainIn at h ⊢
    simp only [halfPatch, if_true, Bool.false_eq_true, if_false, Nat.add_zero] at h ⊢
    push_cast at h ⊢
    exact ⟨by linarith [h.1], by linarith [h.2.1], by linarith [h.2.2.1], by linarith [h.2.2.2]⟩
  · rw [if_neg hn] at h ⊢
    unfold WarpIn at h ⊢
    simp only [halfPatch, if_true, Bool.false_eq_true, if_false, Nat.add_zero] at h ⊢
    push_cast at h ⊢
    intro dx dy hdx hdy
    set A : ℝ := ((p / 2 : ℕ) : ℝ) with hA
    have b1 : -(A + 1 - 1 / 2) ≤ dx := by rcases hdx with e | e <;> rw [e] <;> linarith
    have b2 : dx ≤ A + 1 - 1 / 2 := by rcases hdx with e | e <;> rw [e] <;> linarith
    have b3 : -(A + 1 - 1 / 2) ≤ dy := by rcases hdy with e | e <;> rw [e] <;> linarith
    have b4 : dy ≤ A + 1 - 1 / 2 := by rcases hdy with e | e <;> rw [e] <;> linarith
    have cx := corner_bound (a := c.warpC.a) (b := c.warpC.b) (lo := 1 / 2 - c.c.x) (hi := (img.cols : ℝ) - 1 / 2 - c.c.x) (A := A + 1 - 1 / 2)
      (fun dx dy h1 h2 => by have := h dx dy h1 h2; constructor <;> linarith) b1 b2 b3 b4
    have cy := corner_bound (a := c.warpC.c) (b := c.warpC.d) (lo := 1 / 2 - c.c.y) (hi := (img.rows : ℝ) - 1 / 2 - c.c.y) (A := A + 1 - 1 / 2)
      (fun dx dy h1 h2 => by have := h dx dy h1 h2; constructor <;> linarith) b1 b2 b3 b4
    exact ⟨by linarith [cx.1], by linarith [cx.2], by linarith [cy.1], by linarith [cy.2]⟩

end Patch

/-! ### Extraction over the levels -/

lemma extractLevel_inv {p : ℕ} {junk : FC} {pyr : List Level} {wb : Bool} {c c' : FC} {m m' : MLP} {i : ℕ} (hs : c.Settled)
    (h : MLP.extractLevel p junk pyr wb (c, m) i = some (c', m')) :
    c' = c ∧ m'.isValidPatch = Function.update m.isValidPatch i true ∧ (∀ j, j ≠ i → m'.patches j = m.patches j) ∧
      ∃ lvl cl cl', pyr[i]? = some lvl ∧ levelTransform junk pyr c 0 i = some (c, cl) ∧
        Patch.extractPatchFromImage p (m.patches i) lvl.img cl wb = some (cl', m'.patches i) := by
  unfold MLP.extractLevel at h
  obtain ⟨⟨c1, cl⟩, h1, ha⟩ := Option.bind_eq_some_iff.mp h
  obtain ⟨lvl, h2, hb⟩ := Option.bind_eq_some_iff.mp ha
  obtain ⟨⟨cl', P⟩, h3, hd⟩ := Option.bind_eq_some_iff.mp hb
  obtain ⟨_, _, a, b, ha, hb⟩ := levelTransform_inv hs.warp h1
  obtain ⟨o, ho, _⟩ := levelTransform_settled (junk := junk) ha hb hs
  rw [h1] at ho
  simp only [Option.some.injEq, Prod.mk.injEq] at ho
  obtain ⟨rfl, rfl⟩ := ho
  simp only [Option.pure_def, Option.some.injEq, Prod.mk.injEq] at hd
  obtain ⟨rfl, rfl⟩ := hd
  refine ⟨rfl, rfl, fun j hj => by simp [hj], lvl, cl, cl', h2, h1, ?_⟩
  simpa using h3

lemma extractAll_inv {p : ℕ} {junk : FC} {pyr : List Level} {wb : Bool} {c : FC} (hs : c.Settled) : ∀ (is : List ℕ) (m m' : MLP) (c' : FC), is.Nodup →
    is.foldlM (MLP.extractLevel p junk pyr wb) (c, m) = some (c', m') →
    c' = c ∧ (∀ i ∈ is, m'.isValidPatch i = true) ∧ (∀ j, j ∉ is → m'.patches j = m.patches j) ∧ (∀ j, m.isValidPatch j = true → m'.isValidPatch j = true) ∧
    ∀ i ∈ is, ∃ old lvl cl cl', pyr[i]? = some lvl ∧ levelTransform junk pyr c 0 i = some (c, cl) ∧
        Patch.extractPatchFromImage p old lvl.img cl wb = some (cl', m'.patches i)
  | [], m, m', c', _, h => by
    simp only [List.foldlM_nil, Option.pure_def, Option.some.injEq, Prod.mk.injEq] at h
    obtain ⟨rfl, rfl⟩ := h
    simp
  | i :: is, m, m', c', hd, h => by
    rw [List.foldlM_cons] at h
    obtain ⟨⟨c1, m1⟩, h1, hrest⟩ := Option.bind_eq_some_iff.mp h
    obtain ⟨rfl, v1, o1, lvl, cl, cl', e1, e2, e3⟩ := extractLevel_inv hs h1
    obtain ⟨hni, hd'⟩ := List.nodup_cons.mp hd
    obtain ⟨a1, a2, a3, a4, a5⟩ := extractAll_inv hs is m1 m' c' hd' hrest
    refine ⟨a1, ?_, ?_, ?_, ?_⟩
    · intro j hj
      rcases List.mem_cons.mp hj with rfl | hj
      · exact a4 _ (by rw [v1]; simp)
      · exact a2 j hj
    · intro j hj
      simp only [List.mem_cons, not_or] at hj
      rw [a3 j hj.2, o1 j hj.1]
    · intro j hj
      apply a4
      rw [v1]
      by_cases hji : j = i
      · subst hji; simp
      · simp [hji, hj]
    · intro j hj
      rcases List.mem_cons.mp hj with rfl | hj
      · exact ⟨_, lvl, cl, cl', e1, e2, by rw [a3 _ hni]; exact e3⟩
      · exact a5 j hj

/-! ### The equations when every level is used -/

/-- What the in-frame test tells about one level. -/
lemma inFrame_level {p : ℕ} (hp : 2 ≤ p) {junk : FC} {pyr : List Level} {c : FC} {l : ℕ} {wb : Bool} (hs : c.Settled)
    (h : MLP.isMultilevelPatchInFrame p junk pyr c l wb = some (c, true)) :
    ∃ lvl cl, pyr[l]? = some lvl ∧ levelTransform junk pyr c 0 l = some (c, cl) ∧ cl.Settled ∧ cl.isInFront = true ∧ Patch.InP p lvl.img cl wb := by
  unfold MLP.isMultilevelPatchInFrame at h
  split_ifs at h with h0
  · simp at h
  simp only [FC.comWarpC_valid hs.warp, Option.bind_eq_bind, Option.bind_some, Bool.not_true, Bool.false_eq_true, if_false, Option.pure_def] at h
  obtain ⟨⟨c1, cl⟩, h1, h⟩ := Option.bind_eq_some_iff.mp h
  obtain ⟨lvl, h2, h⟩ := Option.bind_eq_some_iff.mp h
  obtain ⟨⟨c2, r⟩, h3, h⟩ := Option.bind_eq_some_iff.mp h
  simp only [Option.some.injEq, Prod.mk.injEq] at h
  obtain ⟨rfl, rfl⟩ := h
  obtain ⟨_, _, a, b, ha, hb⟩ := levelTransform_inv hs.warp h1
  obtain ⟨o, ho, hos, hof, _⟩ := levelTransform_settled (junk := junk) ha hb hs
  rw [h1] at ho
  simp only [Option.some.injEq, Prod.mk.injEq] at ho
  obtain ⟨_, rfl⟩ := ho
  have := isPatchInFrame_same hos h3
  subst this
  exact ⟨lvl, _, h2, h1, hos, hof, (Patch.isPatchInFrame_true hp h3).2⟩

lemma gradParams_valid (p : ℕ) (P : Patch) : (P.computeGradientParameters p).validGradient = true := by
  unfold Patch.computeGradientParameters
  split_ifs with h
  · exact h
  · rfl

lemma gradParams_patch (p : ℕ) (P : Patch) : (P.computeGradientParameters p).patch = P.patch := by
  unfold Patch.computeGradientParameters
  split_ifs <;> rfl

/-- A level that is in frame and valid contributes. -/
lemma rawLevel_of {p : ℕ} (hp : 2 ≤ p) {cfg : AlignCfg} {junk : FC} {ex : ℕ → Patch} {pyr : List Level} {mp : MLP} {c cl : FC} {affInv : M2} {near : Bool}
    {l : ℕ} {lvl : Level} (h1 : pyr[l]? = some lvl) (h2 : levelTransform junk pyr c 0 l = some (c, cl)) (hs : cl.Settled) (hf : cl.isInFront = true)
    (hin : Patch.InP p lvl.img cl false) (hc : lvl.img.cols ≤ 2147483647) (hr : lvl.img.rows ≤ 2147483647) (hv : mp.isValidPatch l = true) :
    ∃ E, Patch.extractPatchFromImage p (ex l) lvl.img cl false = some (cl, E) ∧
      rawLevel p cfg junk pyr mp ex c affInv near l =
        some (some ((List.range (p * p)).map (rawPixel p cfg affInv near l ((mp.patches l).computeGradientParameters p) E))) := by
  obtain ⟨E, hE⟩ := Patch.extract_total (old := ex l) hs hc hr hin
  refine ⟨E, hE, ?_⟩
  unfold rawLevel
  simp only [h2, hv, h1, Patch.isPatchInFrame_of hp hc hr hs hf hin, hE, gradParams_valid, Option.bind_eq_bind, Option.bind_some, if_true, Option.pure_def]

lemma mapM_some {α β : Type} {f : α → Option β} {g : α → β} : ∀ (l : List α), (∀ a ∈ l, f a = some (g a)) → l.mapM f = some (l.map g)
  | [], _ => rfl
  | a :: l, h => by
    rw [List.mapM_cons, h a (by simp), mapM_some l fun b hb => h b (by simp [hb])]
    rfl

/-- The equations when every level contributes. -/
lemma equations_all {p : ℕ} {cfg : AlignCfg} {junk : FC} {ex : ℕ → Patch} {pyr : List Level} {mp : MLP} {c : FC} {l1 l2 : ℕ} (hs : c.Settled) (hc : c.validC = true)
    (hl : l1 ≤ l2) (hd : c.nearB = true ∨ c.warpC.det ≠ 0) (raw : ℕ → List Raw)
    (hraw : ∀ l, l1 ≤ l → l ≤ l2 → rawLevel p cfg junk pyr mp ex c c.warpC.inv c.nearB l = some (some (raw l))) :
    equations p cfg junk ex pyr mp c l1 l2 = some (c, assemble cfg ((List.range' l1 (l2 + 1 - l1)).map raw)) ∧ (List.range' l1 (l2 + 1 - l1)).map raw ≠ [] := by
  have hcc : c.comC = some (c, true) := by simp [FC.comC, hc]
  have hm : (List.range' l1 (l2 + 1 - l1)).mapM (rawLevel p cfg junk pyr mp ex c c.warpC.inv c.nearB) =
      some ((List.range' l1 (l2 + 1 - l1)).map fun l => some (raw l)) := by
    apply mapM_some
    intro l hl'
    rw [List.mem_range'_1] at hl'
    exact hraw l hl'.1 (by omega)
  have hne : (List.range' l1 (l2 + 1 - l1)).map raw ≠ [] := by
    intro h
    have := congrArg List.length h
    simp only [List.length_map, List.length_range', List.length_nil] at this
    omega
  have hf : ((List.range' l1 (l2 + 1 - l1)).map fun l => some (raw l)).filterMap id = (List.range' l1 (l2 + 1 - l1)).map raw := by
    rw [List.filterMap_map]
    exact List.filterMap_eq_map_iff_forall_eq_some.mpr fun _ _ => rfl
  refine ⟨?_, hne⟩
  unfold equations
  simp only [hcc, FC.comWarpC_valid hs.warp, FC.getWarpC_valid hs.warp, FC.isNear_valid hs.warp, Option.bind_eq_bind, Option.bind_some,
    Bool.not_true, Bool.false_eq_true, if_false, Option.pure_def, hm, hf]
  rw [if_neg]
  rintro ⟨_, h1, h2⟩
  rcases hd with hd | hd
  · simp [hd] at h1
  · exact hd h2

/-! ### Regression and rank -/

lemma S_one_pos {cfg : AlignCfg} {raws : List Raw} (hne : raws ≠ []) (hw : ∀ r ∈ raws, 0 < wt cfg r) : 0 < S cfg raws (fun _ => 1) := by
  unfold S
  apply List.sum_pos
  · intro x hx
    obtain ⟨r, hr, rfl⟩ := List.mem_map.mp hx
    simpa using hw r hr
  · simpa using hne

lemma var_ne {cfg : AlignCfg} {raws : List Raw} (hne : raws ≠ []) (hw : ∀ r ∈ raws, 0 < wt cfg r) (hx : ¬ ∃ k, ∀ r ∈ raws, r.x = k) : var cfg raws ≠ 0 := by
  have h1 := S_one_pos hne hw
  intro hv
  have h2 : var cfg raws = mean cfg raws (fun r => (r.x - mean cfg raws (·.x)) ^ 2) := by
    generalize hm : mean cfg raws (·.x) = m
    have : mean cfg raws (fun r => (r.x - m) ^ 2) = mean cfg raws (fun r => r.x * r.x) + (-2 * m) * mean cfg raws (·.x) + m ^ 2 := by
      rw [← mean_const cfg raws h1.ne' (m ^ 2), ← mean_smul, ← mean_add, ← mean_add]
      exact mean_congr cfg raws fun r _ => by ring
    rw [this]
    unfold var
    rw [hm]
    ring
  rw [h2] at hv
  unfold mean at hv
  rcases div_eq_zero_iff.mp hv with h | h
  · apply hx
    refine ⟨S cfg raws (·.x) / S cfg raws (fun _ => 1), fun r hr => ?_⟩
    unfold S at h
    have h0 : ∀ y ∈ raws.map fun r => wt cfg r * (r.x - S cfg raws (·.x) / S cfg raws (fun _ => 1)) ^ 2, 0 ≤ y := by
      intro y hy
      obtain ⟨q, hq, rfl⟩ := List.mem_map.mp hy
      exact mul_nonneg (hw q hq).le (sq_nonneg _)
    have := List.single_le_sum h0 _ (List.mem_map_of_mem hr)
    have h3 : (raws.map fun r => wt cfg r * (r.x - S cfg raws (·.x) / S cfg raws (fun _ => 1)) ^ 2).sum = 0 := h
    rw [h3] at this
    have h4 := mul_nonneg (hw r hr).le (sq_nonneg (r.x - S cfg raws (·.x) / S cfg raws (fun _ => 1)))
    have h5 : wt cfg r * (r.x - S cfg raws (·.x) / S cfg raws (fun _ => 1)) ^ 2 = 0 := le_antisymm this h4
    rcases mul_eq_zero.mp h5 with h6 | h6
    · exact absurd h6 (hw r hr).ne'
    · have := pow_eq_zero_iff (two_ne_zero) |>.mp h6
      linarith
  · exact h1.ne' h

lemma regress_some {cfg : AlignCfg} {raws : List Raw} (hne : raws ≠ []) (hw : ∀ r ∈ raws, 0 < wt cfg r)
    (hx : cfg.useSqew = true → ¬ ∃ k, ∀ r ∈ raws, r.x = k) : ∃ g, regress cfg raws = some g := by
  rw [regress_eq, if_neg (S_one_pos hne hw).ne', if_neg]
  · exact ⟨_, rfl⟩
  · rintro ⟨h1, h2⟩
    exact var_ne hne hw (hx h1) h2

/-- Processing a row only scales its gradient; the factor vanishes neither for a zero residual nor through positive weights. -/
lemma rowOf_scale (cfg : AlignCfg) (reg : Option Reg) (r : Raw) : ∃ s : ℝ, (rowOf cfg reg r).a0 = s * (fixed reg r).a0 ∧
    (rowOf cfg reg r).a1 = s * (fixed reg r).a1 ∧ (cfg.gradExp ≤ 0 → 0 < wt cfg r → (fixed reg r).b = 0 → s ≠ 0) := by
  have hz : hubF cfg.huber 0 = 1 := by
    rcases le_or_gt cfg.huber 0 with h | h
    · exact hubF_off h
    · exact hubF_small (by simpa using h.le)
  unfold rowOf
  simp only [huberRow_eq]
  by_cases hg : cfg.gradExp > 0
  · by_cases hw : cfg.useWeighting = true
    · refine ⟨hubF cfg.huber (fixed reg r).b * gradWeight cfg.gradExp (fixed reg r).a0 (fixed reg r).a1 * r.w, ?_, ?_, fun h => absurd h (not_le.mpr hg)⟩ <;>
        simp only [hg, hw, if_true, scaleRow] <;> ring
    · refine ⟨hubF cfg.huber (fixed reg r).b * gradWeight cfg.gradExp (fixed reg r).a0 (fixed reg r).a1, ?_, ?_, fun h => absurd h (not_le.mpr hg)⟩ <;>
        simp only [hg, hw, if_true, Bool.false_eq_true, if_false, scaleRow] <;> ring
  · by_cases hw : cfg.useWeighting = true
    · refine ⟨hubF cfg.huber (fixed reg r).b * r.w, ?_, ?_, fun _ h1 h2 => ?_⟩
      · simp only [hg, hw, if_true, if_false, scaleRow]; ring
      · simp only [hg, hw, if_true, if_false, scaleRow]; ring
      · rw [h2, hz, one_mul]
        unfold wt at h1
        rw [if_pos hw] at h1
        exact h1.ne'
    · refine ⟨hubF cfg.huber (fixed reg r).b, ?_, ?_, fun _ h1 h2 => ?_⟩
      · simp only [hg, hw, if_false, Bool.false_eq_true]
      · simp only [hg, hw, if_false, Bool.false_eq_true]
      · rw [h2, hz]; exact one_ne_zero

/-- With texture the equations have full rank and no residual. -/
lemma assemble_full {cfg : AlignCfg} {lvls : List (List Raw)} (hne : lvls.flatten ≠ []) (hg : cfg.gradExp ≤ 0)
    (hw : ∀ r ∈ lvls.flatten, 0 < wt cfg r) (hx : cfg.useSqew = true → ¬ ∃ k, ∀ r ∈ lvls.flatten, r.x = k) {α β : ℝ}
    (hy : ∀ r ∈ lvls.flatten, r.y = α * r.x + β) (hα : if cfg.useSqew then 1 / 2 ≤ α else α = 1) (hβ : cfg.useOffset = true ∨ β = 0)
    (ht : ∀ (v : V2) (k0 k1 : ℝ), (∀ r ∈ lvls.flatten, r.dx * v.x + r.dy * v.y = k0 + k1 * r.x) → v = ⟨0, 0⟩) :
    ∃ rows, assemble cfg lvls = .ok rows ∧ (∀ r ∈ rows, r.b = 0) ∧ Spec.FullRank rows := by
  have hl : lvls ≠ [] := by rintro rfl; simp at hne
  have hα0 : α ≠ 0 := by
    intro h
    subst h
    split_ifs at hα
    · norm_num at hα
    · norm_num at hα
  by_cases hos : (cfg.useOffset || cfg.useSqew) = true
  · obtain ⟨g, hreg⟩ := regress_some hne hw hx
    obtain ⟨ga, gb⟩ := regress_affine cfg _ α β hy g hreg hα hβ
    have hok : assemble cfg lvls = .ok (lvls.flatten.map (rowOf cfg (some g))) := by
      unfold assemble
      rw [if_neg hl, if_pos hos, hreg]
    refine ⟨_, hok, assemble_affine α β (fun rs h1 r h2 => hy r (List.mem_flatten.mpr ⟨rs, h1, h2⟩)) hok hα hβ, ?_⟩
    intro v hv
    refine ht v (g.bdx * v.x + g.bdy * v.y) (g.adx * v.x + g.ady * v.y) fun r hr => ?_
    obtain ⟨s, s0, s1, s2⟩ := rowOf_scale cfg (some g) r
    have hs : s ≠ 0 := s2 hg (hw r hr) (by simp only [fixed]; rw [ga, gb, hy r hr]; ring)
    have := hv _ (List.mem_map_of_mem (f := rowOf cfg (some g)) hr)
    rw [s0, s1] at this
    simp only [fixed, ga] at this
    have h2 : s * α * (r.dx * v.x + r.dy * v.y - (g.bdx * v.x + g.bdy * v.y + (g.adx * v.x + g.ady * v.y) * r.x)) = 0 := by linear_combination this
    have h3 := (mul_eq_zero.mp h2).resolve_left (mul_ne_zero hs hα0)
    linarith
  · have hok : assemble cfg lvls = .ok (lvls.flatten.map (rowOf cfg none)) := by
      unfold assemble
      rw [if_neg hl, if_neg hos]
    refine ⟨_, hok, assemble_affine α β (fun rs h1 r h2 => hy r (List.mem_flatten.mpr ⟨rs, h1, h2⟩)) hok hα hβ, ?_⟩
    simp only [Bool.or_eq_true, not_or] at hos
    rw [if_neg hos.2] at hα
    have hb : β = 0 := hβ.resolve_left hos.1
    intro v hv
    refine ht v 0 0 fun r hr => ?_
    obtain ⟨s, s0, s1, s2⟩ := rowOf_scale cfg none r
    have hs : s ≠ 0 := s2 hg (hw r hr) (by simp only [fixed]; rw [hy r hr, hα, hb]; ring)
    have := hv _ (List.mem_map_of_mem (f := rowOf cfg none) hr)
    rw [s0, s1] at this
    simp only [fixed] at this
    have h2 : s * (r.dx * v.x + r.dy * v.y) = 0 := by linear_combination this
    rw [(mul_eq_zero.mp h2).resolve_left hs]
    ring

/-- Without texture some direction is invisible (gain and offset estimated). -/
lemma assemble_deficient {cfg : AlignCfg} {lvls : List (List Raw)} (hne : lvls.flatten ≠ [])
    (hw : ∀ r ∈ lvls.flatten, 0 < wt cfg r) (hx : ¬ ∃ k, ∀ r ∈ lvls.flatten, r.x = k) {α β : ℝ} (ho : cfg.useOffset = true) (hq : cfg.useSqew = true)
    (hy : ∀ r ∈ lvls.flatten, r.y = α * r.x + β) (hα : 1 / 2 ≤ α) {v : V2} {k0 k1 : ℝ} (hv : v ≠ ⟨0, 0⟩)
    (ht : ∀ r ∈ lvls.flatten, r.dx * v.x + r.dy * v.y = k0 + k1 * r.x) :
    ∃ rows, assemble cfg lvls = .ok rows ∧ ¬ Spec.FullRank rows := by
  have hl : lvls ≠ [] := by rintro rfl; simp at hne
  have hS := (S_one_pos hne hw).ne'
  have hvar := var_ne hne hw hx
  set raws := lvls.flatten with hraws
  obtain ⟨g, hreg⟩ := regress_some hne hw fun _ => hx
  have ga : gain cfg raws = α := by
    have my : mean cfg raws (·.y) = α * mean cfg raws (·.x) + β := by
      rw [mean_congr cfg raws (g := fun r => α * r.x + β) hy, mean_add, mean_smul, mean_const cfg raws hS]
    have mxy : mean cfg raws (fun r => r.x * r.y) = α * mean cfg raws (fun r => r.x * r.x) + β * mean cfg raws (·.x) := by
      rw [mean_congr cfg raws (g := fun r => α * (r.x * r.x) + β * r.x) (fun r h => by rw [hy r h]; ring), mean_add, mean_smul, mean_smul]
    unfold gain
    rw [mxy, my, div_eq_iff hvar]
    unfold var
    ring
  have md : v.x * mean cfg raws (·.dx) + v.y * mean cfg raws (·.dy) = k0 + k1 * mean cfg raws (·.x) := by
    rw [← mean_const cfg raws hS k0, ← mean_smul, ← mean_smul, ← mean_smul, ← mean_add, ← mean_add]
    exact mean_congr cfg raws fun r hr => by linarith [ht r hr]
  have mxd : v.x * mean cfg raws (fun r => r.x * r.dx) + v.y * mean cfg raws (fun r => r.x * r.dy) =
      k0 * mean cfg raws (·.x) + k1 * mean cfg raws (fun r => r.x * r.x) := by
    rw [← mean_smul, ← mean_smul, ← mean_smul, ← mean_smul, ← mean_add, ← mean_add]
    exact mean_congr cfg raws fun r hr => by linear_combination r.x * ht r hr
  have hok : assemble cfg lvls = .ok (raws.map (rowOf cfg (some g))) := by
    unfold assemble
    rw [if_neg hl, if_pos (by rw [ho]; rfl), ← hraws, hreg]
  refine ⟨_, hok, fun hfull => hv (hfull v ?_)⟩
  have h5 : ¬ (α < 0.5) := by rw [show (0.5 : ℝ) = 1 / 2 by norm_num]; linarith
  rw [regress_eq, if_neg hS, if_neg (fun h => hvar h.2)] at hreg
  simp only [hq, ho, if_true, ga, h5, if_false, Option.some.injEq] at hreg
  have e1 : g.adx * v.x + g.ady * v.y = k1 := by
    rw [← hreg]
    simp only
    rw [div_mul_eq_mul_div, div_mul_eq_mul_div, ← add_div, div_eq_iff hvar]
    unfold var
    linear_combination mxd - mean cfg raws (·.x) * md
  have e2 : g.bdx * v.x + g.bdy * v.y = k0 := by
    have b1 : g.bdx = mean cfg raws (·.dx) - g.adx * mean cfg raws (·.x) := by rw [← hreg]
    have b2 : g.bdy = mean cfg raws (·.dy) - g.ady * mean cfg raws (·.x) := by rw [← hreg]
    rw [b1, b2]
    linear_combination md - mean cfg raws (·.x) * e1
  intro row hrow
  obtain ⟨r, hr, rfl⟩ := List.mem_map.mp hrow
  obtain ⟨s, s0, s1, _⟩ := rowOf_scale cfg (some g) r
  rw [s0, s1]
  simp only [fixed]
  linear_combination s * g.a * (ht r hr - r.x * e1 - e2)

/-- The least-squares answer to equations without residual. -/
lemma solve_zero {solve : Option (List Row) → SolveRes} (hsol : Spec.SolvesLeastSquares solve) {rows : List Row} (hb : ∀ r ∈ rows, r.b = 0)
    (hf : Spec.FullRank rows) : solve (some rows) = .ok ⟨0, 0⟩ := by
  obtain ⟨x, hx, hmin⟩ := hsol.full rows hf
  have h0 : Spec.squaredError rows ⟨0, 0⟩ = 0 := by
    unfold Spec.squaredError
    apply List.sum_eq_zero
    intro y hy
    obtain ⟨r, hr, rfl⟩ := List.mem_map.mp hy
    simp [hb r hr]
  have h1 := hmin ⟨0, 0⟩
  rw [h0] at h1
  have hx0 : x = ⟨0, 0⟩ := by
    refine hf x fun r hr => ?_
    have hn : ∀ y ∈ rows.map fun r => (r.a0 * x.x + r.a1 * x.y - r.b) ^ 2, 0 ≤ y := by
      intro y hy
      obtain ⟨q, _, rfl⟩ := List.mem_map.mp hy
      exact sq_nonneg _
    have h2 := (List.single_le_sum hn _ (List.mem_map_of_mem hr)).trans h1
    have h3 := pow_eq_zero_iff (two_ne_zero) |>.mp (le_antisymm h2 (sq_nonneg _))
    rw [hb r hr] at h3
    linarith
  rw [hx, hx0]

/-! ### One alignment -/

/-- The image at `c` shows `α · reference + β` on levels `l1 … l2`, all of them inside. -/
def Shows (p : ℕ) (junk : FC) (pyr : List Level) (mp : MLP) (c : FC) (l1 l2 : ℕ) (α β : ℝ) : Prop :=
  ∀ l, l1 ≤ l → l ≤ l2 → ∃ lvl cl, pyr[l]? = some lvl ∧ levelTransform junk pyr c 0 l = some (c, cl) ∧ cl.Settled ∧ cl.isInFront = true ∧
    Patch.InP p lvl.img cl false ∧ lvl.img.cols ≤ 2147483647 ∧ lvl.img.rows ≤ 2147483647 ∧ mp.isValidPatch l = true ∧
    ∀ old E, Patch.extractPatchFromImage p old lvl.img cl false = some (cl, E) → ∀ k < p * p, E.patch k = α * (mp.patches l).patch k + β

/-- The rows collected when the image shows the patch. -/
lemma shows_raws {p : ℕ} (hp : 2 ≤ p) {cfg : AlignCfg} {junk : FC} {ex : ℕ → Patch} {pyr : List Level} {mp : MLP} {c : FC} {l1 l2 : ℕ} {α β : ℝ}
    (hs : c.Settled) (hc : c.validC = true) (hl : l1 ≤ l2) (hd : c.nearB = true ∨ c.warpC.det ≠ 0) (h : Shows p junk pyr mp c l1 l2 α β) (hr : MLP.Reach p mp) :
    ∃ lvls, equations p cfg junk ex pyr mp c l1 l2 = some (c, assemble cfg lvls) ∧ lvls.flatten ≠ [] ∧
      (∀ r ∈ lvls.flatten, r.y = α * r.x + β) ∧
      (∀ r ∈ lvls.flatten, ∃ l k, l1 ≤ l ∧ l ≤ l2 ∧ k < p * p ∧ r.w = cfg.w (l * p * p + k)) ∧
      (∀ l, l1 ≤ l → l ≤ l2 → ∀ y < p, ∀ x < p, ∃ r ∈ lvls.flatten, r.x = Spec.cell p (mp.patches l).patch y x ∧
        let Jx := -(Spec.gx p (mp.patches l).border y x / 2 ^ l)
        let Jy := -(Spec.gy p (mp.patches l).border y x / 2 ^ l)
        r.dx = (if c.nearB then Jx else Jx * c.warpC.inv.a + Jy * c.warpC.inv.c) ∧ r.dy = (if c.nearB then Jy else Jx * c.warpC.inv.b + Jy * c.warpC.inv.d)) ∧
      (∀ r ∈ lvls.flatten, ∃ l y x, l1 ≤ l ∧ l ≤ l2 ∧ y < p ∧ x < p ∧ r.x = Spec.cell p (mp.patches l).patch y x ∧
        let Jx := -(Spec.gx p (mp.patches l).border y x / 2 ^ l)
        let Jy := -(Spec.gy p (mp.patches l).border y x / 2 ^ l)
        r.dx = (if c.nearB then Jx else Jx * c.warpC.inv.a + Jy * c.warpC.inv.c) ∧ r.dy = (if c.nearB then Jy else Jx * c.warpC.inv.b + Jy * c.warpC.inv.d)) := by
  have hE : ∀ l, ∃ E : Patch, l1 ≤ l → l ≤ l2 → (∀ k < p * p, E.patch k = α * (mp.patches l).patch k + β) ∧
      rawLevel p cfg junk pyr mp ex c c.warpC.inv c.nearB l =
        some (some ((List.range (p * p)).map (rawPixel p cfg c.warpC.inv c.nearB l ((mp.patches l).computeGradientParameters p) E))) := by
    intro l
    by_cases hb : l1 ≤ l ∧ l ≤ l2
    · obtain ⟨lvl, cl, h1, h2, h3, h4, h5, h6, h7, h8, h9⟩ := h l hb.1 hb.2
      obtain ⟨E, e1, e2⟩ := rawLevel_of hp (cfg := cfg) (ex := ex) (mp := mp) (affInv := c.warpC.inv) (near := c.nearB) h1 h2 h3 h4 h5 h6 h7 h8
      exact ⟨E, fun _ _ => ⟨h9 _ E e1, e2⟩⟩
    · exact ⟨(mp.patches l), fun a b => absurd ⟨a, b⟩ hb⟩
  choose E hE using hE
  set raw : ℕ → List Raw := fun l => (List.range (p * p)).map (rawPixel p cfg c.warpC.inv c.nearB l ((mp.patches l).computeGradientParameters p) (E l)) with hraw
  obtain ⟨he, hne⟩ := equations_all (p := p) (cfg := cfg) (junk := junk) (ex := ex) (pyr := pyr) (mp := mp) hs hc hl hd raw fun l a b => (hE l a b).2
  have hmem : ∀ r, r ∈ ((List.range' l1 (l2 + 1 - l1)).map raw).flatten ↔ ∃ l k, l1 ≤ l ∧ l ≤ l2 ∧ k < p * p ∧
      r = rawPixel p cfg c.warpC.inv c.nearB l ((mp.patches l).computeGradientParameters p) (E l) k := by
    intro r
    simp only [List.mem_flatten, List.mem_map, List.mem_range'_1]
    constructor
    · rintro ⟨_, ⟨l, hl', rfl⟩, hr⟩
      obtain ⟨k, hk, rfl⟩ := List.mem_map.mp hr
      exact ⟨l, k, hl'.1, by omega, List.mem_range.mp hk, rfl⟩
    · rintro ⟨l, k, a, b, hk, rfl⟩
      exact ⟨_, ⟨l, ⟨a, by omega⟩, rfl⟩, List.mem_map.mpr ⟨k, List.mem_range.mpr hk, rfl⟩⟩
  have hhalf : ∀ (l : ℕ) (z : ℝ), -(0.5 : ℝ) ^ l * z = -(z / 2 ^ l) := by
    intro l z
    rw [show (0.5 : ℝ) = 1 / 2 by norm_num, one_div, inv_pow]
    ring
  have hgrad : ∀ l y x, y < p → x < p → ((mp.patches l).computeGradientParameters p).dx (y * p + x) = Spec.gx p (mp.patches l).border y x ∧
      ((mp.patches l).computeGradientParameters p).dy (y * p + x) = Spec.gy p (mp.patches l).border y x := by
    intro l y x hy hx
    exact (C27_score (mlp_reach hr l)).2.2.1 y hy x hx
  have hk2 : ∀ y x, y < p → x < p → y * p + x < p * p := by intro y x hy hx; nlinarith
  refine ⟨_, he, ?_, ?_, ?_, ?_, ?_⟩
  · intro h0
    have : rawPixel p cfg c.warpC.inv c.nearB l1 ((mp.patches l1).computeGradientParameters p) (E l1) 0 ∈ ((List.range' l1 (l2 + 1 - l1)).map raw).flatten :=
      (hmem _).mpr ⟨l1, 0, le_refl _, hl, by positivity, rfl⟩
    rw [h0] at this
    simp at this
  · intro r hr'
    obtain ⟨l, k, a, b, hk, rfl⟩ := (hmem r).mp hr'
    simp only [rawPixel, gradParams_patch]
    exact (hE l a b).1 k hk
  · intro r hr'
    obtain ⟨l, k, a, b, hk, rfl⟩ := (hmem r).mp hr'
    exact ⟨l, k, a, b, hk, rfl⟩
  · intro l a b y hy x hx
    refine ⟨_, (hmem _).mpr ⟨l, y * p + x, a, b, hk2 y x hy hx, rfl⟩, ?_, ?_⟩
    · simp only [rawPixel, gradParams_patch]; rfl
    · simp only [rawPixel, (hgrad l y x hy hx).1, (hgrad l y x hy hx).2, hhalf, and_self]
  · intro r hr'
    obtain ⟨l, k, a, b, hk, rfl⟩ := (hmem r).mp hr'
    have hy : k / p < p := Nat.div_lt_of_lt_mul hk
    have hx : k % p < p := Nat.mod_lt _ (by omega)
    have hkk : k = k / p * p + k % p := by rw [mul_comm]; exact (Nat.div_add_mod k p).symm
    refine ⟨l, k / p, k % p, a, b, hy, hx, ?_, ?_⟩
    · simp only [rawPixel, gradParams_patch, Spec.cell]; rw [← hkk]
    · have := hgrad l _ _ hy hx
      rw [← hkk] at this
      simp only [rawPixel, this.1, this.2, hhalf, and_self]

lemma shows_of {p : ℕ} (hp : 2 ≤ p) (hev : p % 2 = 0) {n : ℕ} {img : Img} {cv : Option (Img → ℕ → ℕ → ℕ)} {pyr : List Level}
    (hpyr : computeFromImage n img cv = some pyr) (hc : img.cols ≤ 2147483647) (hr : img.rows ≤ 2147483647)
    {junk c c' : FC} {l1 l2 : ℕ} {wb : Bool} (hs : c.Settled) (hin : MLP.isMultilevelPatchInFrame p junk pyr c l2 wb = some (c, true))
    (hcv : cv = none ∨ (2 ^ (n - 1) ∣ img.rows ∧ 2 ^ (n - 1) ∣ img.cols) ∨ c.cam = none ∨ c.warpC.distOne < 1e-6)
    {mp m0 vis : MLP} (hvis : MLP.extractMultilevelPatchFromImage p junk m0 pyr c l2 wb = some (c', vis)) (hv : ∀ l, l1 ≤ l → l ≤ l2 → mp.isValidPatch l = true)
    {α β : ℝ} (hsame : ∀ l, l1 ≤ l → l ≤ l2 → ∀ k < p * p, (vis.patches l).patch k = α * (mp.patches l).patch k + β) :
    Shows p junk pyr mp c l1 l2 α β := by
  obtain ⟨_, hall⟩ := C25_coarsest_decides hp hpyr hc hr hin hcv mp
  obtain ⟨_, _, _, _, hex⟩ := extractAll_inv hs (List.range (l2 + 1)) m0 vis c' List.nodup_range hvis
  intro l a b
  obtain ⟨lvl, cl, h1, h2, h3, h4, h5⟩ := inFrame_level hp hs (hall l b)
  obtain ⟨old, lvl', cl2, cl', e1, e2, e3⟩ := hex l (List.mem_range.mpr (by omega))
  rw [h1] at e1
  obtain rfl := Option.some.inj e1
  rw [h2] at e2
  simp only [Option.some.injEq, Prod.mk.injEq, true_and] at e2
  subst e2
  have hln : l < n := by
    rw [← (levelsFrom_spec cv _ _ _ _ hpyr).1]
    exact (List.getElem?_eq_some_iff.mp h1).1
  obtain ⟨B, hB, s1, s2⟩ := pyr_size hpyr l hln
  rw [h1] at hB
  obtain rfl := Option.some.inj hB
  refine ⟨lvl, cl, h1, h2, h3, h4, ?_, by rw [s2]; exact (Nat.div_le_self _ _).trans hc, by rw [s1]; exact (Nat.div_le_self _ _).trans hr, hv l a b, ?_⟩
  · cases wb with
    | true => exact Patch.inP_inner hp h5
    | false => exact h5
  · intro old' E hE k hk
    rw [← Patch.inner_any hev h3 e3 hE k hk]
    exact hsame l a b k hk

lemma getC_of {c : FC} (hc : c.validC = true) : c.getC = some (c, c.c) := by simp [FC.getC, FC.comC, hc]

lemma align_step {p : ℕ} {cfg : AlignCfg} {junk : FC} {ex : ℕ → Patch} {solve : Option (List Row) → SolveRes} {pyr : List Level} {mp : MLP} {c : FC}
    {l1 l2 maxIter : ℕ} {tol : ℝ} (hi : 1 ≤ maxIter) (htol : 0 < tol) (hc : c.validC = true) {rows : List Row}
    (he : equations p cfg junk ex pyr mp c l1 l2 = some (c, .ok rows)) (hsol : solve (some rows) = .ok ⟨0, 0⟩) :
    align2D p cfg junk ex solve pyr mp c l1 l2 maxIter tol = some ⟨c.setC c.c false, false, true⟩ := by
  obtain ⟨m, rfl⟩ : ∃ m, maxIter = m + 1 := ⟨maxIter - 1, by omega⟩
  have h0 : c.c + (⟨0, 0⟩ : V2) = c.c := by
    have : ∀ q : V2, q + (⟨0, 0⟩ : V2) = q := by
      intro q
      cases q
      show V2.mk _ _ = V2.mk _ _
      simp
    exact this _
  have ht : (0 : ℝ) * 0 + 0 * 0 < tol * tol := by nlinarith
  unfold align2D loop
  simp only [getC_of hc, he, answer, hsol, Option.bind_eq_bind, Option.bind_some, Option.pure_def, h0, ht, if_true]

lemma align_low {p : ℕ} {cfg : AlignCfg} {junk : FC} {ex : ℕ → Patch} {solve : Option (List Row) → SolveRes} {pyr : List Level} {mp : MLP} {c : FC}
    {l1 l2 maxIter : ℕ} {tol : ℝ} (hc : c.validC = true) {rows : List Row}
    (he : equations p cfg junk ex pyr mp c l1 l2 = some (c, .ok rows)) (hsol : solve (some rows) = .lowRank) :
    align2D p cfg junk ex solve pyr mp c l1 l2 maxIter tol = some ⟨c, false, false⟩ := by
  unfold align2D
  cases maxIter with
  | zero => rfl
  | succ m =>
    unfold loop
    simp only [getC_of hc, he, answer, hsol, Option.bind_eq_bind, Option.bind_some, Option.pure_def]

lemma wt_pos {cfg : AlignCfg} {r : Raw} (h : cfg.useWeighting = true → 0 < r.w) : 0 < wt cfg r := by
  unfold wt
  split_ifs with hw
  · exact h hw
  · exact one_pos

/-- The equations when the image shows the patch: no residuals, full rank. -/
lemma equations_shows {p : ℕ} (hp : 2 ≤ p) {cfg : AlignCfg} {junk : FC} {ex : ℕ → Patch} {pyr : List Level} {mp : MLP} {c : FC}
    {l1 l2 : ℕ} {α β : ℝ} (hs : c.Settled) (hc : c.validC = true) (hl : l1 ≤ l2) (hd : c.nearB = true ∨ c.warpC.det ≠ 0) (h : Shows p junk pyr mp c l1 l2 α β) (hr : MLP.Reach p mp)
    (hw : cfg.useWeighting = true → ∀ k, 0 < cfg.w k) (hg : cfg.gradExp ≤ 0) (hα : if cfg.useSqew then 1 / 2 ≤ α else α = 1) (hβ : cfg.useOffset = true ∨ β = 0)
    (ht : Spec.Textured p l1 l2 (fun l => (mp.patches l).patch) (fun l => (mp.patches l).border))
    (hf : cfg.useSqew = true → Spec.NotFlat p l1 l2 (fun l => (mp.patches l).patch)) :
    ∃ rows, equations p cfg junk ex pyr mp c l1 l2 = some (c, .ok rows) ∧ (∀ r ∈ rows, r.b = 0) ∧ Spec.FullRank rows := by
  obtain ⟨lvls, he, hne, hy, hwt, hall, _⟩ := shows_raws hp (cfg := cfg) (ex := ex) hs hc hl hd h hr
  obtain ⟨rows, hrows, hb, hfull⟩ := assemble_full hne hg
    (fun r hr => wt_pos fun h' => by obtain ⟨l, k, _, _, _, e⟩ := hwt r hr; rw [e]; exact hw h' _)
    (fun hq ⟨k, hk⟩ => hf hq ⟨k, fun l a b y hy' x hx => by obtain ⟨r, hr, e, _⟩ := hall l a b y hy' x hx; rw [← hk r hr]; exact e.symm⟩)
    hy hα hβ (by
      intro v k0 k1 hv
      rcases Bool.eq_false_or_eq_true c.nearB with hn | hn
      · have := ht (-v.x) (-v.y) k0 k1 (by
          intro l a b y hy' x hx
          obtain ⟨r, hr, e1, e2, e3⟩ := hall l a b y hy' x hx
          have := hv r hr
          rw [e2, e3, e1, if_pos hn, if_pos hn] at this
          rw [← this]
          ring)
        cases v
        simp only [neg_eq_zero] at this
        rw [this.1, this.2]
      · have hdet : c.warpC.det ≠ 0 := hd.resolve_left (by simp [hn])
        set A := c.warpC.inv with hA
        have := ht (-(A.a * v.x + A.b * v.y)) (-(A.c * v.x + A.d * v.y)) k0 k1 (by
          intro l a b y hy' x hx
          obtain ⟨r, hr, e1, e2, e3⟩ := hall l a b y hy' x hx
          have := hv r hr
          rw [e2, e3, e1, hn] at this
          simp only [Bool.false_eq_true, if_false] at this
          rw [← this]
          ring)
        have h1 : A.a * v.x + A.b * v.y = 0 := by linarith [this.1]
        have h2 : A.c * v.x + A.d * v.y = 0 := by linarith [this.2]
        have i1 : c.warpC.a * (A.a * v.x + A.b * v.y) + c.warpC.b * (A.c * v.x + A.d * v.y) = v.x := by
          rw [hA]
          simp only [M2.inv]
          have : c.warpC.det = c.warpC.a * c.warpC.d - c.warpC.b * c.warpC.c := rfl
          field_simp
          rw [this]
          ring
        have i2 : c.warpC.c * (A.a * v.x + A.b * v.y) + c.warpC.d * (A.c * v.x + A.d * v.y) = v.y := by
          rw [hA]
          simp only [M2.inv]
          have : c.warpC.det = c.warpC.a * c.warpC.d - c.warpC.b * c.warpC.c := rfl
          field_simp
          rw [this]
          ring
        rw [h1, h2] at i1 i2
        cases v
        simp only [mul_zero, add_zero] at i1 i2
        rw [← i1, ← i2])
  rw [hrows] at he
  exact ⟨rows, he, hb, hfull⟩

/-- Alignment with an image that shows the patch. -/
lemma align_shows {p : ℕ} (hp : 2 ≤ p) {cfg : AlignCfg} {junk : FC} {ex : ℕ → Patch} {solve : Option (List Row) → SolveRes} {pyr : List Level} {mp : MLP} {c : FC}
    {l1 l2 maxIter : ℕ} {tol α β : ℝ} (hsol : Spec.SolvesLeastSquares solve) (hi : 1 ≤ maxIter) (htol : 0 < tol)
    (hs : c.Settled) (hc : c.validC = true) (hl : l1 ≤ l2) (hd : c.nearB = true ∨ c.warpC.det ≠ 0) (h : Shows p junk pyr mp c l1 l2 α β) (hr : MLP.Reach p mp)
    (hw : cfg.useWeighting = true → ∀ k, 0 < cfg.w k) (hg : cfg.gradExp ≤ 0) (hα : if cfg.useSqew then 1 / 2 ≤ α else α = 1) (hβ : cfg.useOffset = true ∨ β = 0)
    (ht : Spec.Textured p l1 l2 (fun l => (mp.patches l).patch) (fun l => (mp.patches l).border))
    (hf : cfg.useSqew = true → Spec.NotFlat p l1 l2 (fun l => (mp.patches l).patch)) :
    align2D p cfg junk ex solve pyr mp c l1 l2 maxIter tol = some ⟨c.setC c.c false, false, true⟩ := by
  obtain ⟨rows, he, hb, hfull⟩ := equations_shows hp (cfg := cfg) (ex := ex) hs hc hl hd h hr hw hg hα hβ ht hf
  exact align_step hi htol hc he (solve_zero hsol hb hfull)

/-- Alignment with an image that shows the patch, without texture. -/
lemma align_untextured {p : ℕ} (hp : 2 ≤ p) {cfg : AlignCfg} {junk : FC} {ex : ℕ → Patch} {solve : Option (List Row) → SolveRes} {pyr : List Level} {mp : MLP} {c : FC}
    {l1 l2 maxIter : ℕ} {tol α β : ℝ} (hsol : Spec.SolvesLeastSquares solve)
    (hs : c.Settled) (hc : c.validC = true) (hl : l1 ≤ l2) (hd : c.nearB = true ∨ c.warpC.det ≠ 0) (h : Shows p junk pyr mp c l1 l2 α β) (hr : MLP.Reach p mp)
    (hw : cfg.useWeighting = true → ∀ k, 0 < cfg.w k) (hα : 1 / 2 ≤ α) (ho : cfg.useOffset = true) (hq : cfg.useSqew = true)
    (ht : ¬ Spec.Textured p l1 l2 (fun l => (mp.patches l).patch) (fun l => (mp.patches l).border))
    (hf : Spec.NotFlat p l1 l2 (fun l => (mp.patches l).patch)) :
    align2D p cfg junk ex solve pyr mp c l1 l2 maxIter tol = some ⟨c, false, false⟩ := by
  obtain ⟨lvls, he, hne, hy, hwt, hall, hmem⟩ := shows_raws hp (cfg := cfg) (ex := ex) hs hc hl hd h hr
  unfold Spec.Textured at ht
  push Not at ht
  obtain ⟨a, b, k0, k1, hab, hne0⟩ := ht
  have key : ∃ v : V2, v ≠ ⟨0, 0⟩ ∧ ∀ r ∈ lvls.flatten, r.dx * v.x + r.dy * v.y = k0 + k1 * r.x := by
    rcases Bool.eq_false_or_eq_true c.nearB with hn | hn
    · refine ⟨⟨-a, -b⟩, ?_, ?_⟩
      · intro h0
        simp only [V2.mk.injEq, neg_eq_zero] at h0
        exact hne0 h0.1 h0.2
      · intro r hr
        obtain ⟨l, y, x, a1, b1, hy', hx, e1, e2, e3⟩ := hmem r hr
        rw [e1, e2, e3, if_pos hn, if_pos hn, ← hab l a1 b1 y hy' x hx]
        ring
    · have hdet : c.warpC.det ≠ 0 := hd.resolve_left (by simp [hn])
      refine ⟨⟨-(c.warpC.a * a + c.warpC.b * b), -(c.warpC.c * a + c.warpC.d * b)⟩, ?_, ?_⟩
      · intro h0
        simp only [V2.mk.injEq, neg_eq_zero] at h0
        have hdd : c.warpC.det = c.warpC.a * c.warpC.d - c.warpC.b * c.warpC.c := rfl
        have ha : c.warpC.det * a = 0 := by rw [hdd]; linear_combination c.warpC.d * h0.1 - c.warpC.b * h0.2
        have hb : c.warpC.det * b = 0 := by rw [hdd]; linear_combination c.warpC.a * h0.2 - c.warpC.c * h0.1
        exact hne0 ((mul_eq_zero.mp ha).resolve_left hdet) ((mul_eq_zero.mp hb).resolve_left hdet)
      · intro r hr
        obtain ⟨l, y, x, a1, b1, hy', hx, e1, e2, e3⟩ := hmem r hr
        rw [e1, e2, e3, hn, ← hab l a1 b1 y hy' x hx]
        simp only [Bool.false_eq_true, if_false, M2.inv]
        have hdd : c.warpC.det = c.warpC.a * c.warpC.d - c.warpC.b * c.warpC.c := rfl
        field_simp
        rw [hdd]
        ring
  obtain ⟨v, hv, hrow⟩ := key
  obtain ⟨rows, hrows, hdef⟩ := assemble_deficient (cfg := cfg) hne
    (fun r hr => wt_pos fun h' => by obtain ⟨l, k, _, _, _, e⟩ := hwt r hr; rw [e]; exact hw h' _)
    (fun ⟨k, hk⟩ => hf ⟨k, fun l a b y hy' x hx => by obtain ⟨r, hr, e, _⟩ := hall l a b y hy' x hx; rw [← hk r hr]; exact e.symm⟩) ho hq hy hα hv hrow
  rw [hrows] at he
  exact align_low hc he (hsol.deficient rows hdef)

/-! ### Storing the pixel again -/

lemma setC_self {c : FC} (hs : c.Settled) : (c.setC c.c false).Settled ∧ (c.setC c.c false).validC = true ∧ (c.setC c.c false).c = c.c ∧
    (c.setC c.c false).warpC = c.warpC ∧ (c.setC c.c false).nearB = c.nearB ∧ (c.setC c.c false).cam = c.cam :=
  ⟨(setC_settled hs.warp _).1, by simp [FC.setC], by simp [FC.setC], by simp [FC.setC], by simp [FC.setC, FC.nearB], by simp [FC.setC]⟩

lemma levelTransform_setC {junk c cl : FC} {pyr : List Level} {l : ℕ} (hs : c.Settled) (h : levelTransform junk pyr c 0 l = some (c, cl)) :
    ∃ cl0, levelTransform junk pyr (c.setC c.c false) 0 l = some (c.setC c.c false, cl0) ∧ cl.Settled ∧ cl0.Settled ∧ cl.isInFront = true ∧ cl0.isInFront = true ∧
      cl0.c = cl.c ∧ cl0.warpC = cl.warpC ∧ cl0.nearB = cl.nearB := by
  obtain ⟨_, _, a, b, ha, hb⟩ := levelTransform_inv hs.warp h
  obtain ⟨s0, _, e1, e2, _, e4⟩ := setC_self hs
  obtain ⟨o, ho, o1, o2, o3, o4, o5⟩ := levelTransform_settled (junk := junk) ha hb hs
  obtain ⟨q, hq, q1, q2, q3, q4, q5⟩ := levelTransform_settled (junk := junk) ha hb s0
  rw [h] at ho
  simp only [Option.some.injEq, Prod.mk.injEq, true_and] at ho
  subst ho
  have hw : q.warpC = cl.warpC := by rw [q4, o4, e4, e2]
  exact ⟨q, hq, o1, q1, o2, q2, by rw [q3, o3, e1], hw, by unfold FC.nearB; rw [q5, o5, e4, hw]⟩

lemma inFrame_setC {p : ℕ} {junk c : FC} {pyr : List Level} {l : ℕ} {wb : Bool} (hs : c.Settled)
    (h : MLP.isMultilevelPatchInFrame p junk pyr c l wb = some (c, true)) :
    MLP.isMultilevelPatchInFrame p junk pyr (c.setC c.c false) l wb = some (c.setC c.c false, true) := by
  have s0 := (setC_self hs).1
  have hf : (c.setC c.c false).isInFront = true := by simp [FC.isInFront, (setC_self hs).2.1]
  unfold MLP.isMultilevelPatchInFrame at h ⊢
  split_ifs at h with h0
  · simp at h
  simp only [FC.comWarpC_valid hs.warp, Option.bind_eq_bind, Option.bind_some, Bool.not_true, Bool.false_eq_true, if_false, Option.pure_def] at h
  obtain ⟨⟨c1, cl⟩, h1, h2⟩ := Option.bind_eq_some_iff.mp h
  obtain ⟨lvl, h3, h4⟩ := Option.bind_eq_some_iff.mp h2
  obtain ⟨⟨c2, r⟩, h5, h6⟩ := Option.bind_eq_some_iff.mp h4
  simp only [Option.some.injEq, Prod.mk.injEq] at h6
  obtain ⟨rfl, rfl⟩ := h6
  obtain ⟨cl0, t1, t2, t3, t4, t5, t6, t7, t8⟩ := levelTransform_setC hs h1
  have h7 : ∃ d, Patch.isPatchInFrame p lvl.img cl0 wb = some (d, true) := by
    unfold Patch.isPatchInFrame at h5 ⊢
    simp only [t4, t5, if_true, FC.comWarpC_valid t2.warp, FC.isNear_valid t2.warp, FC.getWarpC_valid t2.warp, t2.getC, FC.comWarpC_valid t3.warp,
      FC.isNear_valid t3.warp, FC.getWarpC_valid t3.warp, t3.getC, Option.bind_eq_bind, Option.bind_some, Option.pure_def, t6, t7, t8] at h5 ⊢
    rcases Bool.eq_false_or_eq_true cl.nearB with hn | hn
    · simp only [hn, if_true, Option.some.injEq, Prod.mk.injEq] at h5 ⊢
      exact ⟨_, rfl, h5.2⟩
    · simp only [hn, Bool.false_eq_true, if_false] at h5 ⊢
      obtain ⟨ok, k1, k2⟩ := Option.bind_eq_some_iff.mp h5
      simp only [Option.some.injEq, Prod.mk.injEq] at k2
      rw [k1, k2.2]
      exact ⟨_, rfl⟩
  obtain ⟨d, h7⟩ := h7
  simp only [hf, FC.comWarpC_valid s0.warp, t1, h3, h7, Option.bind_eq_bind, Option.bind_some, Bool.not_true, Bool.false_eq_true, if_false, Option.pure_def]

lemma extract_setC {p : ℕ} {junk c : FC} {pyr : List Level} {wb : Bool} (hs : c.Settled) : ∀ (is : List ℕ) (m m' : MLP) (c' : FC),
    is.foldlM (MLP.extractLevel p junk pyr wb) (c, m) = some (c', m') →
    is.foldlM (MLP.extractLevel p junk pyr wb) (c.setC c.c false, m) = some (c.setC c.c false, m')
  | [], m, m', c', h => by
    simp only [List.foldlM_nil, Option.pure_def, Option.some.injEq, Prod.mk.injEq] at h ⊢
    exact ⟨trivial, h.2⟩
  | i :: is, m, m', c', h => by
    rw [List.foldlM_cons] at h ⊢
    obtain ⟨⟨c1, m1⟩, h1, hrest⟩ := Option.bind_eq_some_iff.mp h
    have hcc : c1 = c := (extractLevel_inv hs h1).1
    subst hcc
    have h2 : MLP.extractLevel p junk pyr wb (c1.setC c1.c false, m) i = some (c1.setC c1.c false, m1) := by
      unfold MLP.extractLevel at h1 ⊢
      obtain ⟨⟨c2, cl⟩, k1, k2⟩ := Option.bind_eq_some_iff.mp h1
      obtain ⟨lvl, k3, k4⟩ := Option.bind_eq_some_iff.mp k2
      obtain ⟨⟨cl', P⟩, k5, k6⟩ := Option.bind_eq_some_iff.mp k4
      simp only [Option.pure_def, Option.some.injEq, Prod.mk.injEq] at k6
      obtain ⟨rfl, rfl⟩ := k6
      obtain ⟨cl0, t1, t2, t3, t4, t5, t6, t7, t8⟩ := levelTransform_setC hs k1
      have k7 : Patch.extractPatchFromImage p (m.patches i) lvl.img cl0 wb = some (cl0, P) := by
        rw [Patch.extract_settled t2] at k5
        rw [Patch.extract_settled t3, t6, t7, t8]
        obtain ⟨g, g1, g2⟩ := Option.map_eq_some_iff.mp k5
        simp only [Prod.mk.injEq] at g2
        rw [g1, ← g2.2]
        rfl
      simp only [t1, k3, k7, Option.bind_eq_bind, Option.bind_some, Option.pure_def]
    have := extract_setC hs is m1 m' c' hrest
    simp only [h2, Option.bind_eq_bind, Option.bind_some, this]

end Rovio
