import Verif.Spec.Brightness
import Verif.Lemmas.ImgFull
import Verif.Lemmas.Alignment

/-! # Lemmas for C99: the brightness of images has no influence -/

namespace Rovio

open Spec

/-! ### Reading images -/

namespace Spec.BrightImg

variable {β : ℤ} {a b : Img}

lemma read (h : BrightImg β a b) (v u : ℤ) : Both (fun g g' : ℕ => (g' : ℤ) = g + β) (a.read v u) (b.read v u) := by
  unfold Img.read
  rw [← h.rows, ← h.cols]
  split_ifs with hc
  · exact .some (h.px _ (by omega) _ (by omega))
  · exact .none

lemma bilinear (h : BrightImg β a b) (v u : ℤ) {sx sy : ℝ} (hx : 0 ≤ sx) (hy : 0 ≤ sy) :
    Both (fun r r' : ℝ => r' = r + β) (Patch.bilinear a v u sx sy) (Patch.bilinear b v u sx sy) := by
  have cast : ∀ {g g' : ℕ}, (g' : ℤ) = g + β → (g' : ℝ) = g + β := fun h => by exact_mod_cast h
  unfold Patch.bilinear
  simp only [Option.bind_eq_bind]
  rcases hx.lt_or_eq with hx | hx <;> rcases hy.lt_or_eq with hy | hy
  · simp only [gt_iff_lt, hx, hy, if_true, and_self, Option.map_eq_bind]
    simp only [Option.bind_assoc, Function.comp_def, Option.bind_some]
    refine (h.read v u).bind fun g1 g1' e1 => (h.read v (u + 1)).bind fun g2 g2' e2 => (h.read (v + 1) u).bind fun g3 g3' e3 =>
      (h.read (v + 1) (u + 1)).bind fun g4 g4' e4 => .some ?_
    rw [cast e1, cast e2, cast e3, cast e4]
    norm_num
    ring
  · subst hy
    simp only [gt_iff_lt, hx, if_true, lt_irrefl, if_false, and_false, Option.map_eq_bind, Option.bind_assoc, Function.comp_def, Option.bind_some]
    refine (h.read v u).bind fun g1 g1' e1 => (h.read v (u + 1)).bind fun g2 g2' e2 => .some ?_
    rw [cast e1, cast e2]
    norm_num
    ring
  · subst hx
    simp only [gt_iff_lt, hy, if_true, lt_irrefl, if_false, false_and, Option.map_eq_bind, Option.bind_assoc, Function.comp_def, Option.bind_some]
    refine (h.read v u).bind fun g1 g1' e1 => (h.read (v + 1) u).bind fun g2 g2' e2 => .some ?_
    rw [cast e1, cast e2]
    norm_num
    ring
  · subst hx hy
    simp only [gt_iff_lt, lt_irrefl, if_false, and_false, Option.bind_some]
    refine (h.read v u).bind fun g1 g1' e1 => .some ?_
    rw [cast e1]
    norm_num

lemma samplePlain (h : BrightImg β a b) (q : V2) (hs y x : ℕ) :
    Both (fun r r' : ℝ => r' = r + β) (Patch.samplePlain a q hs y x) (Patch.samplePlain b q hs y x) := by
  unfold Patch.samplePlain floorInt
  simp only [Option.bind_eq_bind]
  split_ifs
  · simp only [Option.bind_some]
    exact h.bilinear _ _ (by have := Int.floor_le q.x; linarith) (by have := Int.floor_le q.y; linarith)
  all_goals exact .none

lemma sampleWarped (h : BrightImg β a b) (q : V2) (W : M2) (hs y x : ℕ) :
    Both (fun r r' : ℝ => r' = r + β) (Patch.sampleWarped a q W hs y x) (Patch.sampleWarped b q W hs y x) := by
  unfold Patch.sampleWarped floorInt
  simp only [Option.bind_eq_bind]
  split_ifs
  · simp only [Option.bind_some]
    refine h.bilinear _ _ ?_ ?_ <;> exact sub_nonneg.2 (Int.floor_le _)
  all_goals exact .none

end Spec.BrightImg

lemma fill_rel {α : Type} {R : α → α → Prop} (d : α) (h w : ℕ) {f g : ℕ → ℕ → Option α} (hfg : ∀ y x, Both R (f y x) (g y x)) :
    Both (fun u v => ∀ y < h, ∀ x < w, R (u y x) (v y x)) (fill d h w f) (fill d h w g) := by
  have hs : ∀ y x, (f y x).isSome = (g y x).isSome := by
    intro y x
    have := hfg y x
    generalize f y x = r at this
    generalize g y x = r' at this
    cases this <;> rfl
  unfold fill
  simp only [hs]
  split_ifs with hc
  · refine .some fun y hy x hx => ?_
    have h1 := hc y hy x hx
    have := hfg y x
    generalize f y x = r at this
    generalize hg : g y x = r' at this
    cases this with
    | none => rw [hg] at h1; simp at h1
    | some h => exact h
  · exact .none

/-- What an extraction writes, `β` brighter. -/
def ExtractedBy (p : ℕ) (wb : Bool) (β : ℝ) (a b : Patch) : Prop :=
  (∀ k < p * p, b.patch k = a.patch k + β) ∧ (wb = true → ∀ k < (p + 2) * (p + 2), b.border k = a.border k + β) ∧
    a.validGradient = false ∧ b.validGradient = false

lemma wrote_bright {p : ℕ} (hp : Even p) (wb : Bool) (β : ℝ) (old old' : Patch) {g g' : ℕ → ℕ → ℝ}
    (h : ∀ y < 2 * halfPatch p wb, ∀ x < 2 * halfPatch p wb, g' y x = g y x + β) : ExtractedBy p wb β (wrote p wb old g) (wrote p wb old' g') := by
  have at_ : ∀ {w k : ℕ}, k < w * w → k / w < w ∧ k % w < w := by
    intro w k hk
    have hw : 0 < w := by rcases Nat.eq_zero_or_pos w with h | h <;> simp_all
    exact ⟨Nat.div_lt_of_lt_mul hk, Nat.mod_lt _ hw⟩
  unfold wrote
  rw [halfPatch_even hp] at h ⊢
  cases wb
  · simp only [Bool.false_eq_true, if_false, add_zero] at h ⊢
    refine ⟨fun k hk => ?_, by simp, rfl, rfl⟩
    simp only [if_pos hk]
    exact h _ (at_ hk).1 _ (at_ hk).2
  · simp only [if_true] at h ⊢
    refine ⟨fun k hk => ?_, fun _ k hk => ?_, rfl, rfl⟩
    · simp only [Patch.extractPatchFromPatchWithBorder, if_pos hk, if_pos (border_lt hk)]
      exact h _ (at_ (border_lt hk)).1 _ (at_ (border_lt hk)).2
    · simp only [Patch.extractPatchFromPatchWithBorder, if_pos hk]
      exact h _ (at_ hk).1 _ (at_ hk).2

lemma Spec.BrightImg.extract {β : ℤ} {a b : Img} (h : BrightImg β a b) {p : ℕ} (hp : Even p) (old old' : Patch) (c : FC) (wb : Bool) :
    Both (fun u v => u.1 = v.1 ∧ ExtractedBy p wb β u.2 v.2) (Patch.extractPatchFromImage p old a c wb) (Patch.extractPatchFromImage p old' b c wb) := by
  unfold Patch.extractPatchFromImage
  simp only [Option.bind_eq_bind, Option.pure_def]
  cases c.isNearIdentityWarping with
  | none => exact .none
  | some cn =>
    obtain ⟨c, near⟩ := cn
    simp only [Option.bind_some]
    cases near
    · simp only [Bool.false_eq_true, if_false]
      cases c.getWarpC with
      | none => exact .none
      | some cw =>
        simp only [Option.bind_some]
        cases cw.1.getC with
        | none => exact .none
        | some cq =>
          simp only [Option.bind_some, Option.bind_assoc]
          refine (fill_rel 0 _ _ fun y x => h.sampleWarped cq.2 cw.2 (halfPatch p wb) y x).bind fun g g' hg => .some ⟨rfl, ?_⟩
          exact wrote_bright hp wb β old old' hg
    · simp only [if_true]
      cases c.getC with
      | none => exact .none
      | some cq =>
        simp only [Option.bind_some, Option.bind_assoc]
        refine (fill_rel 0 _ _ fun y x => h.samplePlain cq.2 (halfPatch p wb) y x).bind fun g g' hg => .some ⟨rfl, ?_⟩
        exact wrote_bright hp wb β old old' hg

lemma Spec.BrightImg.inFrame {β : ℤ} {a b : Img} (h : BrightImg β a b) (p : ℕ) (c : FC) (wb : Bool) :
    Patch.isPatchInFrame p a c wb = Patch.isPatchInFrame p b c wb := by
  unfold Patch.isPatchInFrame Patch.cornersOk Patch.cornerOk
  rw [h.rows, h.cols]

/-! ### Pyramids -/

namespace Spec.BrightPyr

variable {β : ℤ} {a b : List Level}

lemma get (h : BrightPyr β a b) (k : ℕ) : Both (fun x y : Level => BrightImg β x.img y.img ∧ x.center = y.center) a[k]? b[k]? := by
  rcases ImgFull.forall₂_at h k with ⟨h1, h2⟩ | ⟨x, y, h1, h2, h3⟩
  · rw [h1, h2]; exact .none
  · rw [h1, h2]; exact .some h3

lemma level (h : BrightPyr β a b) (j c : FC) (l1 l2 : ℕ) : levelTransform j a c l1 l2 = levelTransform j b c l1 l2 := by
  unfold levelTransform
  simp only [Option.bind_eq_bind]
  refine Both.eq ((h.get l1).bind fun x y hx => (h.get l2).bind fun x' y' hx' => ?_)
  rw [hx.2, hx'.2]
  exact Both.refl (fun _ => rfl) _

lemma inFrame (h : BrightPyr β a b) (p : ℕ) (j c : FC) (l : ℕ) (wb : Bool) :
    MLP.isMultilevelPatchInFrame p j a c l wb = MLP.isMultilevelPatchInFrame p j b c l wb := by
  unfold MLP.isMultilevelPatchInFrame
  split_ifs
  · rfl
  · simp only [Option.bind_eq_bind, Option.pure_def]
    cases c.comWarpC with
    | none => rfl
    | some cb =>
      simp only [Option.bind_some, h.level j]
      split_ifs
      · rfl
      · cases levelTransform j b cb.1 0 l with
        | none => rfl
        | some cl =>
          simp only [Option.bind_some]
          refine Both.eq ((h.get l).bind fun x y hx => ?_)
          rw [hx.1.inFrame]
          exact Both.refl (fun _ => rfl) _

/-- The levels below `l` were written by an extraction. -/
def _root_.Rovio.MLP.UptoBy (p : ℕ) (wb : Bool) (l : ℕ) (β : ℝ) (m m' : MLP) : Prop :=
  ∀ i < l, m.isValidPatch i = true ∧ m'.isValidPatch i = true ∧ ExtractedBy p wb β (m.patches i) (m'.patches i)

lemma extract_aux (h : BrightPyr β a b) {p : ℕ} (hp : Even p) (j : FC) (m m' : MLP) (c : FC) (wb : Bool) : ∀ l : ℕ,
    Both (fun u v => u.1 = v.1 ∧ MLP.UptoBy p wb l β u.2 v.2) ((List.range l).foldlM (MLP.extractLevel p j a wb) (c, m))
      ((List.range l).foldlM (MLP.extractLevel p j b wb) (c, m'))
  | 0 => .some ⟨rfl, by intro i hi; omega⟩
  | l + 1 => by
    simp only [List.range_succ, List.foldlM_append, Option.bind_eq_bind]
    refine (extract_aux h hp j m m' c wb l).bind ?_
    rintro ⟨c1, m1⟩ ⟨c2, m2⟩ ⟨h1, h2⟩
    simp only at h1 h2
    subst h1
    simp only [List.foldlM_cons, List.foldlM_nil, Option.pure_def, Option.bind_eq_bind, MLP.extractLevel, Option.bind_assoc, Option.bind_some, h.level j]
    cases levelTransform j b c1 0 l with
    | none => exact .none
    | some cl =>
      simp only [Option.bind_some]
      refine (h.get l).bind fun x y hx => (hx.1.extract hp (m1.patches l) (m2.patches l) cl.2 wb).bind fun u v huv => ?_
      refine .some ⟨rfl, ?_⟩
      intro i hi
      by_cases hil : i = l
      · subst hil
        simp only [Function.update_self]
        exact ⟨trivial, trivial, huv.2⟩
      · simp only [Function.update_of_ne hil]
        exact h2 i (by omega)

lemma extract (h : BrightPyr β a b) {p : ℕ} (hp : Even p) (j : FC) (m m' : MLP) (c : FC) (l : ℕ) (wb : Bool) :
    Both (fun u v => u.1 = v.1 ∧ MLP.UptoBy p wb (l + 1) β u.2 v.2) (MLP.extractMultilevelPatchFromImage p j m a c l wb)
      (MLP.extractMultilevelPatchFromImage p j m' b c l wb) := h.extract_aux hp j m m' c wb (l + 1)

end Spec.BrightPyr

/-! ### Patches -/

lemma foldl_sum (l : List ℝ) (f : ℝ → ℝ) (a : ℝ) : l.foldl (fun e d => e + f d) a = a + (l.map f).sum := by
  induction l generalizing a with
  | nil => simp
  | cons x l ih => simp only [List.foldl_cons, ih, List.map_cons, List.sum_cons]; ring

lemma differences_length (p : ℕ) (m n : MLP) (l1 l2 : ℕ) : (MLP.differences p m n l1 l2).length = (l2 + 1 - l1) * (p * p) := by
  unfold MLP.differences
  simp [List.length_flatMap]

lemma MLP.diff_bright {p l1 l2 : ℕ} {m m' n n' : MLP} {β γ : ℝ} (h : ∀ i ≤ l2, ∀ k < p * p, (m'.patches i).patch k = (m.patches i).patch k + β)
    (h' : ∀ i ≤ l2, ∀ k < p * p, (n'.patches i).patch k = (n.patches i).patch k + γ) :
    computeAverageDifference p m n l1 l2 = computeAverageDifference p m' n' l1 l2 := by
  have e : differences p m' n' l1 l2 = (differences p m n l1 l2).map (· + (β - γ)) := by
    unfold differences
    rw [List.map_flatMap]
    refine List.flatMap_congr fun i hi => ?_
    rw [List.map_map]
    refine List.map_congr_left fun k hk => ?_
    have hi : i ≤ l2 := by have := List.mem_range'.1 hi; omega
    simp only [Function.comp]
    rw [h i hi k (by simpa using hk), h' i hi k (by simpa using hk)]
    ring
  unfold computeAverageDifference
  rw [e]
  simp only
  have hl := differences_length p m n l1 l2
  generalize differences p m n l1 l2 = ds at hl
  by_cases h0 : ds = []
  · subst h0; rfl
  have hle : l1 ≤ l2 ∧ p ≠ 0 := by
    have : ds.length ≠ 0 := by simpa using h0
    rw [hl] at this
    constructor
    · by_contra hc
      apply this
      rw [show l2 + 1 - l1 = 0 by omega, zero_mul]
    · rintro rfl
      simp at this
  have hcnt : (p : ℝ) * p * ((l2 : ℝ) - l1 + 1) = ds.length := by
    rw [hl]
    push_cast [show l1 ≤ l2 + 1 by omega]
    ring
  have hpos : (ds.length : ℝ) ≠ 0 := by
    have : ds.length ≠ 0 := by simpa using h0
    exact_mod_cast this
  rw [hcnt]
  have hs : ∀ (l : List ℝ) (κ : ℝ), (l.map (· + κ)).foldl (fun o d => o + d) 0 = l.foldl (fun o d => o + d) 0 + l.length * κ := by
    intro l κ
    rw [foldl_sum _ (fun d => d), foldl_sum _ (fun d => d)]
    simp only [List.map_id']
    induction l with
    | nil => simp
    | cons x l ih =>
      simp only [List.map_cons, List.sum_cons, List.length_cons, zero_add] at ih ⊢
      rw [ih]
      push_cast
      ring
  rw [hs, add_div, mul_div_cancel_left₀ _ hpos, List.foldl_map]
  simp only [add_sub_add_right_eq_sub]

namespace Patch

lemma grad_bright {p : ℕ} {b b' : ℕ → ℝ} {β : ℝ} (h : ∀ k < (p + 2) * (p + 2), b' k = b k + β) {y x : ℕ} (hy : y < p) (hx : x < p) :
    gradAt p b y x = gradAt p b' y x := by
  have e1 : (y + 1) * (p + 2) + 1 + x + (p + 2) < (p + 2) * (p + 2) := by nlinarith
  unfold gradAt
  simp only
  rw [h _ (show (y + 1) * (p + 2) + 1 + x + 1 < _ by omega), h _ (show (y + 1) * (p + 2) + 1 + x - 1 < _ by omega), h _ e1,
    h _ (show (y + 1) * (p + 2) + 1 + x - (p + 2) < _ by omega)]
  simp only [add_sub_add_right_eq_sub]

lemma gradList_bright {p : ℕ} {b b' : ℕ → ℝ} {β : ℝ} (h : ∀ k < (p + 2) * (p + 2), b' k = b k + β) : gradList p b = gradList p b' := by
  unfold gradList
  refine List.flatMap_congr fun y hy => List.map_congr_left fun x hx => ?_
  exact grad_bright h (by simpa using hy) (by simpa using hx)

lemma compute_bright {p : ℕ} {β : ℝ} {a b : Patch} (h : BrightPatch p β a b) :
    BrightPatch p β (a.computeGradientParameters p) (b.computeGradientParameters p) ∧ (a.computeGradientParameters p).validGradient = true := by
  unfold computeGradientParameters
  rw [← h.validGradient]
  by_cases hv : a.validGradient = true
  · rw [if_pos hv, if_pos hv]
    exact ⟨h, hv⟩
  · rw [if_neg hv, if_neg hv]
    simp only [gradList_bright h.border]
    refine ⟨⟨h.patch, h.border, rfl, fun _ k hk => ?_, fun _ k hk => ?_, fun _ => rfl, fun _ => rfl, fun _ => rfl, fun _ => rfl⟩, trivial⟩
    all_goals
      have hp : 0 < p := by rcases Nat.eq_zero_or_pos p with h | h <;> simp_all
      simp only [if_pos hk]
      rw [grad_bright h.border (Nat.div_lt_of_lt_mul hk) (Nat.mod_lt _ hp)]

end Patch

lemma ExtractedBy.bright {p : ℕ} {β : ℝ} {a b : Patch} (h : ExtractedBy p true β a b) : BrightPatch p β a b := by
  obtain ⟨h1, h2, h3, h4⟩ := h
  exact ⟨h1, h2 rfl, by rw [h3, h4], by simp [h3], by simp [h3], by simp [h3], by simp [h3], by simp [h3], by simp [h3]⟩

namespace MLP

lemma scoreLoop_bright {p L : ℕ} {β : ℝ} {v v' : ℕ → Bool} (hv : ∀ i ≤ L, v i = v' i) : ∀ (is : List ℕ) (ps ps' : ℕ → Patch) (H : M3) (k : ℕ),
    (∀ i ∈ is, i ≤ L) → (∀ i ≤ L, BrightPatch p β (ps i) (ps' i)) →
    (∀ i ≤ L, BrightPatch p β ((scoreLoop p v is (ps, H, k)).1 i) ((scoreLoop p v' is (ps', H, k)).1 i)) ∧
      (scoreLoop p v is (ps, H, k)).2 = (scoreLoop p v' is (ps', H, k)).2
  | [], _, _, _, _, _, h => ⟨h, rfl⟩
  | i :: is, ps, ps', H, k, hi, h => by
    have hiL := hi i (by simp)
    unfold scoreLoop
    rw [← hv i hiL]
    split_ifs
    · obtain ⟨h1, h2⟩ := Patch.compute_bright (h i hiL)
      simp only [Patch.getHessian]
      rw [← h1.H h2]
      refine scoreLoop_bright hv is _ _ _ _ (fun j hj => hi j (by simp [hj])) fun j hj => ?_
      by_cases hji : j = i
      · subst hji; simp only [Function.update_self]; exact h1
      · simp only [Function.update_of_ne hji]; exact h j hj
    · exact scoreLoop_bright hv is _ _ _ _ (fun j hj => hi j (by simp [hj])) h

lemma score_bright {p l1 l2 : ℕ} {β : ℝ} {m m' : MLP} (hv : ∀ i ≤ l2, m.isValidPatch i = m'.isValidPatch i)
    (h : ∀ i ≤ l2, BrightPatch p β (m.patches i) (m'.patches i)) :
    BrightMLP p l2 β (m.computeMultilevelShiTomasiScore p l1 l2) (m'.computeMultilevelShiTomasiScore p l1 l2) := by
  have hs := scoreLoop_bright hv (List.range' l1 (l2 + 1 - l1)) m.patches m'.patches 0 0 (fun i hi => by have := List.mem_range'.1 hi; omega) h
  unfold computeMultilevelShiTomasiScore
  generalize scoreLoop p m.isValidPatch (List.range' l1 (l2 + 1 - l1)) (m.patches, 0, 0) = u at *
  generalize scoreLoop p m'.isValidPatch (List.range' l1 (l2 + 1 - l1)) (m'.patches, 0, 0) = v at *
  obtain ⟨ps, u⟩ := u
  obtain ⟨ps', v⟩ := v
  obtain ⟨h1, h2⟩ := hs
  simp only at h1 h2
  subst h2
  simp only
  split_ifs
  · exact ⟨hv, h1, rfl, rfl, rfl, rfl⟩
  · exact ⟨hv, h1, rfl, rfl, rfl, rfl⟩

lemma UptoBy.score {p l1 l2 : ℕ} {β : ℝ} {m m' : MLP} (h : UptoBy p true (l2 + 1) β m m') :
    BrightMLP p l2 β (m.computeMultilevelShiTomasiScore p l1 l2) (m'.computeMultilevelShiTomasiScore p l1 l2) :=
  score_bright (fun i hi => by rw [(h i (by omega)).1, (h i (by omega)).2.1]) fun i hi => (h i (by omega)).2.2.bright

end MLP

/-! ### Alignment -/

namespace Align

/-- The image `γ` brighter. -/
def shiftY (γ : ℝ) (r : Raw) : Raw := { r with y := r.y + γ }

/-- The same regression for an image that is `γ` brighter. -/
def Reg.lift (γ : ℝ) (g : Reg) : Reg := { g with b := g.b + γ }

lemma regress_lift (cfg : AlignCfg) (ho : cfg.useOffset = true) (γ : ℝ) (raws : List Raw) :
    regress cfg (raws.map (shiftY γ)) = (regress cfg raws).map (Reg.lift γ) := by
  have hw : ∀ r, (shiftY γ r).w = r.w := fun _ => rfl
  have hS : S cfg (raws.map (shiftY γ)) (fun _ => 1) = S cfg raws (fun _ => 1) := S_map cfg raws _ hw _
  rw [regress_eq, regress_eq, hS]
  by_cases h0 : S cfg raws (fun _ => 1) = 0
  · simp [h0]
  have my : mean cfg (raws.map (shiftY γ)) (·.y) = mean cfg raws (·.y) + γ := by
    rw [mean_map cfg raws _ hw]
    show mean cfg raws (fun r => r.y + γ) = _
    rw [mean_add, mean_const cfg raws h0]
  have mx : mean cfg (raws.map (shiftY γ)) (·.x) = mean cfg raws (·.x) := mean_map cfg raws _ hw _
  have mdx : mean cfg (raws.map (shiftY γ)) (·.dx) = mean cfg raws (·.dx) := mean_map cfg raws _ hw _
  have mdy : mean cfg (raws.map (shiftY γ)) (·.dy) = mean cfg raws (·.dy) := mean_map cfg raws _ hw _
  have mxx : mean cfg (raws.map (shiftY γ)) (fun r => r.x * r.x) = mean cfg raws (fun r => r.x * r.x) := mean_map cfg raws _ hw _
  have mxdx : mean cfg (raws.map (shiftY γ)) (fun r => r.x * r.dx) = mean cfg raws (fun r => r.x * r.dx) := mean_map cfg raws _ hw _
  have mxdy : mean cfg (raws.map (shiftY γ)) (fun r => r.x * r.dy) = mean cfg raws (fun r => r.x * r.dy) := mean_map cfg raws _ hw _
  have mxy : mean cfg (raws.map (shiftY γ)) (fun r => r.x * r.y) = mean cfg raws (fun r => r.x * r.y) + γ * mean cfg raws (·.x) := by
    rw [mean_map cfg raws _ hw, ← mean_smul, ← mean_add]
    refine mean_congr cfg raws fun r _ => ?_
    show r.x * (r.y + γ) = _
    ring
  have hvar : var cfg (raws.map (shiftY γ)) = var cfg raws := by
    unfold var; rw [mxx, mx]
  have hgain : gain cfg (raws.map (shiftY γ)) = gain cfg raws := by
    unfold gain; rw [hvar, mxy, mx, my]; congr 1; ring
  rw [if_neg h0, if_neg h0, hvar]
  by_cases hv : cfg.useSqew = true ∧ var cfg raws = 0
  · simp [hv]
  rw [if_neg hv, if_neg hv, hgain, mxdx, mxdy, mx, my, mdx, mdy]
  simp only [ho, if_true, Option.map_some, Reg.lift]
  congr 2
  ring

lemma rowOf_lift (cfg : AlignCfg) (γ : ℝ) (g : Reg) (r : Raw) : rowOf cfg (some (g.lift γ)) (shiftY γ r) = rowOf cfg (some g) r := by
  have : fixed (some (g.lift γ)) (shiftY γ r) = fixed (some g) r := by
    unfold fixed Reg.lift shiftY
    simp only
    congr 1
    ring
  unfold rowOf
  rw [this]
  rfl

lemma assemble_lift (cfg : AlignCfg) (ho : cfg.useOffset = true) (γ : ℝ) (lvls : List (List Raw)) :
    assemble cfg (lvls.map (List.map (shiftY γ))) = assemble cfg lvls := by
  unfold assemble
  simp only [List.map_eq_nil_iff, ho, Bool.true_or, if_true]
  split_ifs with h
  · rfl
  · rw [← List.map_flatten, regress_lift cfg ho]
    cases hr : regress cfg lvls.flatten with
    | none => simp
    | some g =>
      simp only [Option.map_some, List.map_map]
      congr 1
      apply List.map_congr_left
      intro r _
      exact rowOf_lift cfg γ g r

variable {p L : ℕ} {β : ℝ} {γ : ℤ} {mp mp' : MLP} {pyr pyr' : List Level} {cfg : AlignCfg}

lemma rawLevel_bright (hp : Even p) (h : BrightMLP p L β mp mp') (hi : BrightPyr γ pyr pyr') (cfg : AlignCfg) (j : FC) (ex : ℕ → Patch) (c : FC)
    (A : M2) (near : Bool) {l : ℕ} (hl : l ≤ L) :
    rawLevel p cfg j pyr' mp' ex c A near l = (rawLevel p cfg j pyr mp ex c A near l).map (Option.map (List.map fun r => shiftY γ (shiftX β r))) := by
  unfold rawLevel
  simp only [Option.bind_eq_bind, Option.pure_def, ← hi.level]
  cases levelTransform j pyr c 0 l with
  | none => rfl
  | some cl =>
    simp only [Option.bind_some, ← h.valid l hl]
    obtain ⟨h6, h7⟩ := Patch.compute_bright (h.patches l hl)
    simp only [h7, h6.validGradient ▸ h7, if_true]
    split_ifs
    · have := hi.get l
      revert this
      generalize pyr[l]? = r
      generalize pyr'[l]? = r'
      intro this
      cases this with
      | none => rfl
      | @some x y hx =>
        simp only [Option.bind_some, ← hx.1.inFrame]
        cases Patch.isPatchInFrame p x.img cl.2 false with
        | none => rfl
        | some cb =>
          simp only [Option.bind_some]
          split_ifs
          · have := hx.1.extract hp (ex l) (ex l) cb.1 false
            revert this
            generalize Patch.extractPatchFromImage p (ex l) x.img cb.1 false = r
            generalize Patch.extractPatchFromImage p (ex l) y.img cb.1 false = r'
            intro this
            cases this with
            | none => rfl
            | @some E E' hE =>
              simp only [Option.bind_some, Option.map_some, List.map_map]
              congr 2
              refine List.map_congr_left fun k hk => ?_
              have hk : k < p * p := by simpa using hk
              simp only [Function.comp, rawPixel, shiftX, shiftY, h6.dx h7 k hk, h6.dy h7 k hk, h6.patch k hk, hE.2.1 k hk]
          · rfl
    · rfl

lemma mapM_map_eq {α β γ : Type} {f : α → Option β} {g : α → Option γ} (m : β → γ) : ∀ l : List α, (∀ a ∈ l, g a = (f a).map m) →
    l.mapM g = (l.mapM f).map (List.map m)
  | [], _ => rfl
  | a :: l, h => by
    rw [List.mapM_cons, List.mapM_cons, h a (by simp), mapM_map_eq m l fun b hb => h b (by simp [hb])]
    cases f a with
    | none => rfl
    | some x =>
      cases l.mapM f with
      | none => rfl
      | some y => rfl

lemma equations_bright (hp : Even p) (h : BrightMLP p L β mp mp') (hi : BrightPyr γ pyr pyr') (ho : cfg.useOffset = true) (j : FC) (ex : ℕ → Patch) (c : FC)
    (l1 : ℕ) : equations p cfg j ex pyr mp c l1 L = equations p cfg j ex pyr' mp' c l1 L := by
  have key : ∀ (c : FC) (A : M2) (near : Bool), (List.range' l1 (L + 1 - l1)).mapM (rawLevel p cfg j pyr' mp' ex c A near) =
      ((List.range' l1 (L + 1 - l1)).mapM (rawLevel p cfg j pyr mp ex c A near)).map (List.map (Option.map (List.map fun r => shiftY γ (shiftX β r)))) := by
    intro c A near
    refine mapM_map_eq _ _ fun l hl => ?_
    have := List.mem_range'.1 hl
    exact rawLevel_bright hp h hi cfg j ex c A near (by omega)
  have e : ∀ lvls : List (Option (List Raw)), (lvls.map (Option.map (List.map fun r => shiftY γ (shiftX β r)))).filterMap id =
      ((lvls.filterMap id).map (List.map (shiftX β))).map (List.map (shiftY γ)) := by
    intro lvls
    rw [List.filterMap_map, List.map_map, List.map_filterMap]
    congr 1
    funext o
    cases o with
    | none => rfl
    | some o => simp
  unfold equations
  simp only [key, Option.bind_eq_bind, Option.map_eq_bind, Option.bind_assoc, Function.comp_def, Option.bind_some, e, assemble_lift cfg ho, assemble_shift cfg ho,
    ne_eq, List.map_eq_nil_iff]

lemma align2D_bright (hp : Even p) (h : BrightMLP p L β mp mp') (hi : BrightPyr γ pyr pyr') (ho : cfg.useOffset = true) (j : FC) (ex : ℕ → Patch)
    (solve : Option (List Row) → SolveRes) (c : FC) (l1 : ℕ) : align2D p cfg j ex solve pyr mp c l1 L = align2D p cfg j ex solve pyr' mp' c l1 L := by
  unfold align2D
  simp only [equations_bright hp h hi ho j ex _ l1]

lemma evalAt_bright (hp : Even p) (h : BrightMLP p L β mp mp') (hi : BrightPyr γ pyr pyr') (j : FC) (tmp : MLP) (l1 : ℕ) (c : FC) :
    evalAt p j tmp pyr mp L l1 c = evalAt p j tmp pyr' mp' L l1 c := by
  unfold evalAt
  rw [hi.inFrame p j]
  simp only [Option.bind_eq_bind, Option.pure_def]
  cases MLP.isMultilevelPatchInFrame p j pyr' c L false with
  | none => rfl
  | some cb =>
    obtain ⟨c, b⟩ := cb
    simp only [Option.bind_some]
    split_ifs
    · refine Both.eq ((hi.extract hp j tmp tmp c L false).bind ?_)
      rintro ⟨c1, m⟩ ⟨c2, m'⟩ ⟨h1, h2⟩
      simp only at h1 h2
      subst h1
      refine .some ?_
      rw [MLP.diff_bright (fun i hi k hk => (h2 i (by omega)).2.2.1 k hk) fun i hi k hk => (h.patches i hi).patch k hk]
    · rfl

lemma adaptive_bright (hp : Even p) (h : BrightMLP p L β mp mp') (hi : BrightPyr γ pyr pyr') (ho : cfg.useOffset = true) (j : FC) (ex : ℕ → Patch) (tmp : MLP)
    (solve : Option (List Row) → SolveRes) (c : FC) (s1 : ℝ) (dir : V2) (l1 : ℕ) (range coverage : ℝ) (maxUni : ℤ) :
    align2DAdaptive p cfg j ex tmp solve pyr mp c s1 dir L l1 range coverage maxUni =
      align2DAdaptive p cfg j ex tmp solve pyr' mp' c s1 dir L l1 range coverage maxUni := by
  unfold align2DAdaptive
  simp only [align2D_bright hp h hi ho j ex solve _ l1, show evalAt p j tmp pyr mp L l1 = evalAt p j tmp pyr' mp' L l1 from
    funext fun c => evalAt_bright hp h hi j tmp l1 c]

end Align

/-! ### The image accesses of the update -/

namespace ImgPixel

variable {env : Env} {β : ℝ} {γ δ : ℤ} {mp mp' : MLP} {cur cur' prev prev' : List Level}

lemma inFrame_bright (hi : BrightPyr γ cur cur') (c : FC) (wb : Bool) : inFrame env cur c wb = inFrame env cur' c wb := hi.inFrame _ _ _ _ _

lemma extract_bright (hp : Even env.p) (hi : BrightPyr γ cur cur') (t t' : MLP) (c : FC) (wb : Bool) :
    Both (fun u v => u.1 = v.1 ∧ MLP.UptoBy env.p wb (env.start + 1) γ u.2 v.2) (extract env t cur c wb) (extract env t' cur' c wb) :=
  hi.extract hp _ _ _ _ _ _

lemma align_bright (hp : Even env.p) (ho : env.acfg.useOffset = true) (h : BrightMLP env.p env.start β mp mp') (hi : BrightPyr γ cur cur') (c : FC)
    (cov : FC.PixelCov) : align env cur mp c cov = align env cur' mp' c cov := Align.adaptive_bright hp h hi ho _ _ _ _ _ _ _ _ _ _ _

lemma innovation_bright (hp : Even env.p) (ho : env.acfg.useOffset = true) (h : BrightMLP env.p env.start β mp mp') (hi : BrightPyr γ cur cur') (c : FC) :
    innovation env cur mp c = innovation env cur' mp' c := Align.equations_bright hp h hi ho _ _ _ _

lemma upto_diff_bright {p l1 L : ℕ} {wb : Bool} {γ : ℝ} {a b : MLP} (h : BrightMLP p L β mp mp') (hab : MLP.UptoBy p wb (L + 1) γ a b) :
    MLP.computeAverageDifference p a mp l1 L = MLP.computeAverageDifference p b mp' l1 L :=
  MLP.diff_bright (fun i hi k hk => (hab i (by omega)).2.2.1 k hk) fun i hi k hk => (h.patches i hi).patch k hk

lemma moving_bright (hp : Even env.p) (hq : BrightPyr δ prev prev') (hi : BrightPyr γ cur cur') (c : FC) : moving env prev cur c = moving env prev' cur' c := by
  unfold moving
  simp only [inFrame_bright hq, Option.bind_eq_bind, Option.pure_def]
  cases inFrame env prev' c.setWarpIdentity true with
  | none => rfl
  | some cb =>
    obtain ⟨c, b⟩ := cb
    simp only [Option.bind_some]
    split_ifs
    · refine Both.eq ((extract_bright hp hq env.tmp1 env.tmp1 c true).bind ?_)
      rintro ⟨c1, a⟩ ⟨c2, b⟩ ⟨h1, h2⟩
      simp only at h1 h2
      subst h1
      refine (extract_bright hp hi env.tmp2 env.tmp2 c1 true).bind ?_
      rintro ⟨c3, a'⟩ ⟨c4, b'⟩ ⟨-, h3⟩
      simp only at h3
      have hs := h2.score (l1 := env.stop)
      have hd : MLP.computeAverageDifference env.p (a.computeMultilevelShiTomasiScore env.p env.stop env.start) a' env.stop env.start =
          MLP.computeAverageDifference env.p (b.computeMultilevelShiTomasiScore env.p env.stop env.start) b' env.stop env.start :=
        MLP.diff_bright (fun i hi k hk => (hs.patches i hi).patch k hk) fun i hi k hk => (h3 i (by omega)).2.2.1 k hk
      simp only [hd, hs.e1]
      exact .some rfl
    · rfl

lemma accept_bright (hp : Even env.p) (h : BrightMLP env.p env.start β mp mp') (hi : BrightPyr γ cur cur') (c : FC) :
    accept env cur mp c = accept env cur' mp' c := by
  unfold accept
  simp only [inFrame_bright hi, Option.bind_eq_bind, Option.pure_def]
  cases inFrame env cur' c false with
  | none => rfl
  | some cb =>
    obtain ⟨c, b⟩ := cb
    simp only [Option.bind_some]
    split_ifs
    · refine Both.eq ((extract_bright hp hi env.tmp1 env.tmp1 c false).bind ?_)
      rintro ⟨c1, a⟩ ⟨c2, b⟩ ⟨h1, h2⟩
      simp only at h1 h2
      subst h1
      simp only [upto_diff_bright h h2]
      exact .some rfl
    · rfl
    · rfl

lemma sample_bright (hp : Even env.p) (h : BrightMLP env.p env.start β mp mp') (hi : BrightPyr γ cur cur') (avg : ℝ) (c : FC) (d : V2) :
    sample env cur mp avg c d = sample env cur' mp' avg c d := by
  unfold sample
  simp only [inFrame_bright hi, Option.bind_eq_bind, Option.pure_def]
  cases c.boxPlus d with
  | none => rfl
  | some s =>
    simp only [Option.bind_some]
    cases inFrame env cur' s false with
    | none => rfl
    | some cb =>
      obtain ⟨c, b⟩ := cb
      simp only [Option.bind_some]
      split_ifs
      · refine Both.eq ((extract_bright hp hi env.tmp1 env.tmp1 c false).bind ?_)
        rintro ⟨c1, a⟩ ⟨c2, b⟩ ⟨h1, h2⟩
        simp only at h1 h2
        simp only [upto_diff_bright h h2]
        exact .some rfl
      · rfl

lemma outlierCheck_bright (hp : Even env.p) (h : BrightMLP env.p env.start β mp mp') (hi : BrightPyr γ cur cur') (c : FC) (conv : Bool) :
    outlierCheck env cur mp c conv = outlierCheck env cur' mp' c conv := by
  unfold outlierCheck
  rw [inFrame_bright hi]
  simp only [Option.bind_eq_bind, Option.pure_def]
  cases inFrame env cur' c false with
  | none => simp only [Option.bind_none]
  | some cb =>
    obtain ⟨c, b⟩ := cb
    simp only [Option.bind_some]
    cases conv
    · simp only [Bool.not_false, if_true]
    · simp only [Bool.not_true, Bool.false_eq_true, if_false]
      by_cases hr : env.rejectTh ≥ 0
      · rw [if_pos hr, if_pos hr]
        cases b
        · simp only [Bool.not_false, if_true]
        · simp only [Bool.not_true, Bool.false_eq_true, if_false]
          refine Both.eq ((extract_bright hp hi _ _ c false).bind ?_)
          rintro ⟨c1, a⟩ ⟨c2, b⟩ ⟨h1, h2⟩
          simp only at h1 h2
          subst h1
          have hd := upto_diff_bright (l1 := env.stop) h h2
          have hs : ∀ avg, sample env cur mp avg c1 = sample env cur' mp' avg c1 := fun avg => funext fun d => sample_bright hp h hi avg c1 d
          refine Both.refl' ?_
          simp only [hs, hd]
      · rw [if_neg hr, if_neg hr]

lemma repatch_bright (hp : Even env.p) (hi : BrightPyr γ cur cur') (c : FC) :
    Both (Both (BrightMLP env.p env.start γ)) (repatch env cur c) (repatch env cur' c) := by
  unfold repatch
  simp only [inFrame_bright hi, Option.bind_eq_bind, Option.pure_def]
  cases inFrame env cur' c.setWarpIdentity true with
  | none => exact .none
  | some cb =>
    obtain ⟨c, b⟩ := cb
    simp only [Option.bind_some]
    split_ifs
    · refine (extract_bright hp hi env.tmp1 env.tmp1 c true).bind ?_
      rintro ⟨c1, a⟩ ⟨c2, b⟩ ⟨h1, h2⟩
      exact .some (.some h2.score)
    · exact .some .none

lemma stereo_bright (hp : Even env.p) (ho : env.acfg.useOffset = true) (h : BrightMLP env.p env.start β mp mp') (hi : BrightPyr γ cur cur') (c : FC)
    (cov : FC.PixelCov) : stereo env cur mp c cov = stereo env cur' mp' c cov := by
  unfold stereo
  simp only [align_bright hp ho h hi, accept_bright hp h hi]

/-- The same candidate, its patch brighter if it lies in the image. -/
def BrightCand (p L : ℕ) (γ : ℝ) (a b : MLP × Bool) : Prop := a.2 = b.2 ∧ (a.2 = true → BrightMLP p L γ a.1 b.1)

lemma candidate_bright {p L : ℕ} (hp : Even p) (j : FC) (mj : MLP) (hi : BrightPyr γ cur cur') (c : FC) (l1 : ℕ) :
    Both (BrightCand p L γ) (MLP.candidate p j mj cur c l1 L) (MLP.candidate p j mj cur' c l1 L) := by
  unfold MLP.candidate
  simp only [Option.bind_eq_bind, Option.pure_def, hi.inFrame p j]
  cases MLP.isMultilevelPatchInFrame p j cur' c L true with
  | none => exact .none
  | some cb =>
    obtain ⟨c, b⟩ := cb
    simp only [Option.bind_some]
    split_ifs
    · refine (hi.extract hp j _ _ c L true).bind ?_
      rintro ⟨d1, m⟩ ⟨d2, m'⟩ h4
      exact .some ⟨rfl, fun _ => h4.2.score⟩
    · exact .some ⟨rfl, by simp⟩

lemma corners_bright (j : FC) (hi : BrightPyr γ cur cur') (cands : List FC) (l : ℕ) (pts : List V2) (r : ℝ) :
    detectFastCorners j cur cands l pts r = detectFastCorners j cur' cands l pts r := by
  unfold detectFastCorners
  simp only [Option.bind_eq_bind, hi.level j]
  refine Both.eq ((hi.get l).bind fun x y hx => ?_)
  unfold inValidRadius
  rw [hx.1.rows, hx.1.cols]
  exact Both.refl (fun _ => rfl) _

lemma detect_bright (hp : Even env.p) (mj : MLP) (hi : BrightPyr γ cur cur') (corners : ℕ → List V2) (radius : ℝ) :
    Both (fun u v => u.1 = v.1 ∧ List.Forall₂ (BrightCand env.p env.start γ) u.2 v.2) (detect env mj cur corners radius)
      (detect env mj cur' corners radius) := by
  unfold detect
  simp only [Option.bind_eq_bind, Option.pure_def, corners_bright env.junk hi]
  generalize List.foldlM (fun cands l => detectFastCorners env.junk cur' cands l (corners l) radius) [] (List.range' env.stop (env.start + 1 - env.stop)) = r
  cases r with
  | none => exact .none
  | some cands =>
    simp only [Option.bind_some]
    refine (mapM_rel (R := Eq) (S := BrightCand env.p env.start γ) ?_ (List.forall₂_refl cands)).bind fun x y hxy => .some ⟨rfl, hxy⟩
    rintro a _ rfl
    exact candidate_bright hp _ _ hi _ _

end ImgPixel

/-! ### The assembled image processing -/

namespace ImgFull

open Rovio.Img

variable {n nCam nPose : ℕ} {F : Full n nCam nPose}

/-- The same filter with other images. -/
def Full.withImgs (F : Full n nCam nPose) (imgs : ℝ → Fin nCam → List Level) : Full n nCam nPose := { F with imgs := imgs }

/-- The correspondence of filters that see the same up to brightness. -/
abbrev Full.bright (F : Full n nCam nPose) : Rels MLP (World n nCam nPose) (Cov n nCam nPose) nCam := brightRels n nCam nPose F.base.p F.base.start

section

variable {imgs : ℝ → Fin nCam → List Level} {live : Fin n → Bool} {a b : FSt n nCam nPose}

lemma here_bright (h : SimOn F.bright live a b) : here a = here b := by
  unfold here
  have := h.w.1
  rw [this]
  simp only [(h.fsm.slots _).coord]

lemma camID_bright (h : SimOn F.bright live a b) (i : Fin n) : a.camID i = b.camID i := by
  unfold St.camID
  rw [(h.fsm.slots i).coord]

lemma valid_bright (h : SimOn F.bright live a b) : a.valid = b.valid := by
  funext i
  exact (h.fsm.slots i).valid

lemma cov_bright (h : SimOn F.bright live a b) : a.cov = b.cov := h.cov

lemma t_bright (h : SimOn F.bright live a b) : a.t = b.t := h.t

lemma tested_bright (h : SimOn F.bright live a b) (m : Mem) (i : Fin n) (c : Fin nCam) : F.tested m a i c = (F.withImgs imgs).tested m b i c := by
  unfold Full.tested
  rw [here_bright h, camID_bright h]
  simp only [Option.bind_eq_bind]
  cases camIdx nCam (b.camID i) with
  | none => rfl
  | some k =>
    obtain ⟨δ, hδ⟩ := h.w.2.2 k
    simp only [Option.bind_some, ImgPixel.inFrame_bright hδ]
    rfl

lemma pixelCov_bright (h : SimOn F.bright live a b) (i : Fin n) (c : Fin nCam) (f : FC) : F.pixelCov a i c f = (F.withImgs imgs).pixelCov b i c f := by
  unfold Full.pixelCov
  rw [here_bright h, cov_bright h]
  rfl

variable (hp : Even F.base.p) (ho : F.base.acfg.useOffset = true) (hi : ∀ t c, ∃ γ, BrightPyr γ (F.imgs t c) (imgs t c))

include hp ho hi

lemma align_bright (h : SimOn F.bright live a b) (m : Mem) (i : Fin n) (c : Fin nCam) (hv : a.valid i = true) :
    F.align m a i c = (F.withImgs imgs).align m b i c := by
  obtain ⟨β, hβ⟩ := (h.fsm.slots i).patch hv
  obtain ⟨γ, hγ⟩ := hi b.t c
  unfold Full.align
  rw [tested_bright (imgs := imgs) h, t_bright h]
  simp only [pixelCov_bright (imgs := imgs) h, ImgPixel.align_bright (env := F.pix m) hp ho hβ hγ]
  rfl

omit ho in
lemma err_bright (h : SimOn F.bright live a b) (m : Mem) (i : Fin n) (c : Fin nCam) (x : FC) (hv : a.valid i = true) :
    F.err m a i c x = (F.withImgs imgs).err m b i c x := by
  obtain ⟨β, hβ⟩ := (h.fsm.slots i).patch hv
  obtain ⟨γ, hγ⟩ := hi b.t c
  unfold Full.err
  rw [t_bright h]
  have e : ImgPixel.inFrame ((F.withImgs imgs).pix m) ((F.withImgs imgs).imgs b.t c) x false = ImgPixel.inFrame (F.pix m) (F.imgs b.t c) x false :=
    (ImgPixel.inFrame_bright hγ x false).symm
  rw [e]
  simp only [Option.bind_eq_bind, Option.pure_def]
  cases ImgPixel.inFrame (F.pix m) (F.imgs b.t c) x false with
  | none => rfl
  | some xk =>
    obtain ⟨x, k⟩ := xk
    simp only [Option.bind_some]
    cases k
    · rfl
    · simp only [if_true]
      refine Both.eq ((ImgPixel.extract_bright (env := F.pix m) hp hγ m.tmp1 m.tmp1 x false).bind ?_)
      rintro ⟨u, q⟩ ⟨v, q'⟩ ⟨-, h2⟩
      exact .some (ImgPixel.upto_diff_bright hβ h2)

lemma callbacks_bright {mp mp' : MLP} {β : ℝ} (h : BrightMLP F.base.p F.base.start β mp mp') (m : Mem) (t : ℝ) (meas : Option FC) (i : Fin n)
    (counter : ℕ) : F.callbacks m (F.imgs t) mp meas i counter = (F.withImgs imgs).callbacks m (imgs t) mp' meas i counter := by
  have hin : ∀ b c, ImgPixel.innovation (F.pix m) (F.imgs t b) mp c = ImgPixel.innovation ((F.withImgs imgs).pix m) (imgs t b) mp' c := fun b c => by
    obtain ⟨γ, hγ⟩ := hi t b
    exact ImgPixel.innovation_bright (env := F.pix m) hp ho h hγ c
  have hou : ∀ b c k, ImgPixel.outlierCheck (F.pix m) (F.imgs t b) mp c k = ImgPixel.outlierCheck ((F.withImgs imgs).pix m) (imgs t b) mp' c k := fun b c k => by
    obtain ⟨γ, hγ⟩ := hi t b
    exact ImgPixel.outlierCheck_bright (env := F.pix m) hp h hγ c k
  have hfr : ∀ b c k, ImgPixel.inFrame (F.pix m) (F.imgs t b) c k = ImgPixel.inFrame ((F.withImgs imgs).pix m) (imgs t b) c k := fun b c k => by
    obtain ⟨γ, hγ⟩ := hi t b
    exact ImgPixel.inFrame_bright (env := F.pix m) hγ c k
  have e1 : F.innov m (F.imgs t) mp meas i counter = (F.withImgs imgs).innov m (imgs t) mp' meas i counter := by
    funext x v r
    unfold Full.innov
    simp only [hin]
    rfl
  have e2 : F.jac m (F.imgs t) mp i counter = (F.withImgs imgs).jac m (imgs t) mp' i counter := by
    funext x r
    unfold Full.jac
    simp only [hin]
    rfl
  have e3 : F.check m (F.imgs t) mp i counter = (F.withImgs imgs).check m (imgs t) mp' i counter := by
    funext x k r
    unfold Full.check
    simp only [hou, hfr]
    rfl
  unfold Full.callbacks
  rw [e1, e2, e3]
  rfl

lemma update_bright (h : SimOn F.bright live a b) (m : Mem) (i : Fin n) (c : Fin nCam) (hv : a.valid i = true) :
    F.bright.w (F.update m a i c).1 ((F.withImgs imgs).update m b i c).1 ∧ (F.update m a i c).2 = ((F.withImgs imgs).update m b i c).2 := by
  obtain ⟨β, hβ⟩ := (h.fsm.slots i).patch hv
  have hst : ∀ f, F.started a i c f = (F.withImgs imgs).started b i c f := fun f => by
    unfold Full.started
    rw [pixelCov_bright (imgs := imgs) h]
  have hcb := callbacks_bright hp ho hi hβ m b.t (b.meas i) i b.cam
  unfold Full.update
  simp only [hst]
  rw [tested_bright (imgs := imgs) h, t_bright h, h.meas, here_bright h, cov_bright h, h.cam, hcb, h.w.2.1]
  simp only [(h.fsm.slots _).coord]
  cases (F.withImgs imgs).tested m b i c with
  | none => exact ⟨h.w, rfl⟩
  | some u =>
    obtain ⟨u, k⟩ := u
    cases k
    · exact ⟨h.w, rfl⟩
    · exact ⟨⟨rfl, rfl, h.w.2.2⟩, rfl⟩

omit hp ho in
lemma inPost_bright (h : SimOn F.bright live a b) (m : Mem) (i : Fin n) (c : Fin nCam) : F.inPost m a i c = (F.withImgs imgs).inPost m b i c := by
  unfold Full.inPost
  rw [here_bright h, camID_bright h, t_bright h]
  simp only [Option.bind_eq_bind]
  cases camIdx nCam (b.camID i) with
  | none => rfl
  | some k =>
    obtain ⟨γ, hγ⟩ := hi b.t k
    simp only [Option.bind_some, ImgPixel.verdict, ImgPixel.inFrame_bright hγ]
    rfl

omit ho in
lemma moving_bright (h : SimOn F.bright live a b) (m : Mem) (i : Fin n) : F.moving m a i = (F.withImgs imgs).moving m b i := by
  unfold Full.moving
  rw [camID_bright h, t_bright h, (h.fsm.slots i).coord]
  simp only [Option.bind_eq_bind]
  cases camIdx nCam (b.camID i) with
  | none => rfl
  | some k =>
    obtain ⟨γ, hγ⟩ := hi b.t k
    obtain ⟨δ, hδ⟩ := h.w.2.2 k
    simp only [Option.bind_some, ImgPixel.moving_bright (env := F.pix m) hp hδ hγ]
    rfl

omit hp ho hi in
lemma view_bright (h : SimOn F.bright live a b) (m : Mem) (c : Fin nCam) {x y : Slot MLP} (hxy : SameSlotBy F.bright.patch x y) :
    F.view m a c x = (F.withImgs imgs).view m b c y := by
  unfold Full.view
  rw [here_bright h, h.w.1, hxy.coord, hxy.idx]
  simp only [(h.fsm.slots _).valid, (h.fsm.slots _).idx]
  rfl

omit ho in
lemma detect_bright (h : SimOn F.bright live a b) (m : Mem) (c : Fin nCam) : SameArgs F.bright.patch (F.detect m a c) ((F.withImgs imgs).detect m b c) := by
  obtain ⟨γ, hγ⟩ := hi b.t c
  have hh : ∃ u v, (ImgPixel.detect (F.pix m) m.mjunk (F.imgs a.t c) (F.corners a.t c) (F.radius c)).getD ([], []) = u ∧
      (ImgPixel.detect (F.pix m) m.mjunk (imgs b.t c) (F.corners b.t c) (F.radius c)).getD ([], []) = v ∧
      u.1 = v.1 ∧ List.Forall₂ (ImgPixel.BrightCand F.base.p F.base.start γ) u.2 v.2 := by
    refine ⟨_, _, rfl, rfl, ?_⟩
    rw [t_bright h]
    have key := ImgPixel.detect_bright (env := F.pix m) hp m.mjunk hγ (F.corners b.t c) (F.radius c)
    revert key
    generalize ImgPixel.detect (F.pix m) m.mjunk (F.imgs b.t c) (F.corners b.t c) (F.radius c) = r
    generalize ImgPixel.detect (F.pix m) m.mjunk (imgs b.t c) (F.corners b.t c) (F.radius c) = r'
    intro key
    cases key with
    | none => exact ⟨rfl, .nil⟩
    | some hh => exact hh
  obtain ⟨u, v, hu, hv, h1, h2⟩ := hh
  have hv' : (ImgPixel.detect ((F.withImgs imgs).pix m) m.mjunk ((F.withImgs imgs).imgs b.t c) ((F.withImgs imgs).corners b.t c) ((F.withImgs imgs).radius c)).getD
      ([], []) = v := hv
  unfold Full.detect
  rw [hu, hv']
  simp only [h1]
  have g2 : ∀ k : ℕ, (u.2[k]?).map Prod.snd = (v.2[k]?).map Prod.snd := by
    intro k
    rcases forall₂_at h2 k with ⟨e1, e2⟩ | ⟨x, y, e1, e2, h⟩
    · rw [e1, e2]
    · simp only [e1, e2, Option.map_some, h.1]
  have g3 : ∀ k : ℕ, ((u.2[k]?).map Prod.snd).getD false = true → ∃ x y, u.2[k]? = some x ∧ v.2[k]? = some y ∧ BrightMLP F.base.p F.base.start γ x.1 y.1 := by
    intro k hk
    rcases forall₂_at h2 k with ⟨e1, e2⟩ | ⟨x, y, e1, e2, h⟩
    · simp [e1] at hk
    · refine ⟨x, y, e1, e2, h.2 ?_⟩
      simpa [e1] using hk
  refine ⟨rfl, rfl, ?_, ?_, ?_, fun x y hxy _ => view_bright h m c hxy, rfl, rfl, rfl, rfl, rfl⟩
  · funext k
    simp only [g2]
  · intro k hk
    obtain ⟨x, y, hx, hy, hr⟩ := g3 k hk
    simp only [hx, hy, Option.map_some, Option.getD_some]
    exact hr.s
  · intro k hk
    obtain ⟨x, y, hx, hy, hr⟩ := g3 k hk
    simp only [hx, hy, Option.map_some, Option.getD_some]
    exact ⟨_, hr⟩

lemma found_bright (h : SimOn F.bright live a b) (m : Mem) (c : Fin nCam) (i : Fin n) (hv : a.valid i = true) (v : FCView) :
    (F.newCfg m a c).found i v = ((F.withImgs imgs).newCfg m b c).found i v := by
  obtain ⟨β, hβ⟩ := (h.fsm.slots i).patch hv
  obtain ⟨γ, hγ⟩ := hi b.t (otherCam c)
  unfold Full.newCfg
  simp only
  rw [t_bright h, ImgPixel.stereo_bright (env := F.pix m) hp ho hβ hγ]
  rfl

lemma initFeature_bright (h : SimOn F.bright live a b) (m : Mem) (med : ℝ) (i : Fin n) (c : Fin nCam) (hv : a.valid i = true) :
    F.bright.w (F.initFeature m med a i c).1 ((F.withImgs imgs).initFeature m med b i c).1 ∧
      (F.initFeature m med a i c).2 = ((F.withImgs imgs).initFeature m med b i c).2 := by
  have key : initNewFeature (F.newCfg m a c) F.mc F.sfv c med (F.outOf m.out, here a, a.cov) i =
      initNewFeature ((F.withImgs imgs).newCfg m b c) F.mc F.sfv c med (F.outOf m.out, here b, b.cov) i := by
    unfold initNewFeature
    rw [here_bright h, cov_bright h]
    have hC : (F.newCfg m a c).C = ((F.withImgs imgs).newCfg m b c).C := rfl
    have hS : (F.newCfg m a c).stereo = ((F.withImgs imgs).newCfg m b c).stereo := rfl
    simp only [hC, hS, found_bright hp ho hi h m c i hv]
  unfold Full.initFeature
  have e : initNewFeature ((F.withImgs imgs).newCfg m b c) (F.withImgs imgs).mc (F.withImgs imgs).sfv c med ((F.withImgs imgs).outOf m.out, here b, b.cov) i =
      initNewFeature ((F.withImgs imgs).newCfg m b c) F.mc F.sfv c med (F.outOf m.out, here b, b.cov) i := rfl
  rw [key, e]
  cases initNewFeature ((F.withImgs imgs).newCfg m b c) F.mc F.sfv c med (F.outOf m.out, here b, b.cov) i with
  | none => exact ⟨h.w, h.cov⟩
  | some r => exact ⟨⟨rfl, h.w.2.1, h.w.2.2⟩, rfl⟩

lemma env_bright (m : Mem) : Similar F.bright (F.env (fun _ => m) (fun _ _ => m)) ((F.withImgs imgs).env (fun _ => m) (fun _ _ => m)) where
  inPrev a b h i c _ := by simp only [Full.env, tested_bright (imgs := imgs) h m i c]
  align a b h i c hv := by simp only [Full.env, align_bright hp ho hi h m i c hv]
  inNew a b h c x := by
    obtain ⟨γ, hγ⟩ := hi b.t c
    simp only [Full.env, t_bright h, ImgPixel.inFrame_bright hγ]
    rfl
  err a b h i c x hv := by simp only [Full.env, err_bright hp hi h m i c x hv]
  updateW a b h i c hv := (update_bright hp ho hi h m i c hv).1
  updateK a b h i c hv := congrArg Prod.fst (update_bright hp ho hi h m i c hv).2
  update a b h i c hv := congrArg Prod.snd (update_bright hp ho hi h m i c hv).2
  dist w w' h := by
    simp only [Full.env]
    rw [h.1]
  resetCov k k' h i := by
    have : k = k' := h
    subst this
    rfl
  inPost a b h i c _ := by simp only [Full.env, inPost_bright hi h m i c]
  moving a b h i _ := by simp only [Full.env, moving_bright hp hi h m i]
  repatch t t' ht a b h _ := by
    have : t = t' := ht
    subst this
    simp only [Full.env, Full.repatch, h.coord]
    cases camIdx nCam b.coord.camID with
    | none => exact .none
    | some c =>
      obtain ⟨γ, hγ⟩ := hi t c
      have := ImgPixel.repatch_bright (env := F.pix m) hp hγ b.coord
      have e : ImgPixel.repatch ((F.withImgs imgs).pix m) ((F.withImgs imgs).imgs t c) b.coord = ImgPixel.repatch (F.pix m) (imgs t c) b.coord := rfl
      simp only [Option.bind_eq_bind, Option.bind_some, e]
      revert this
      generalize ImgPixel.repatch (F.pix m) (F.imgs t c) b.coord = r
      generalize ImgPixel.repatch (F.pix m) (imgs t c) b.coord = r'
      intro this
      cases this with
      | none => exact .none
      | some hh => exact hh.mono fun _ _ h => ⟨_, h⟩
  score p q h := by
    obtain ⟨β, h⟩ := h
    exact h.s
  detect a b h c := detect_bright hp hi h m c
  median a b h := by
    simp only [Full.env, Full.median, here_bright h, cov_bright h, valid_bright h]
    rfl
  initFeature med a b live h i c hv := initFeature_bright hp ho hi h m med i c hv
  finish t t' w w' ht hw := by
    have : t = t' := ht
    subst this
    exact ⟨hw.1, hw.2.1, fun c => hi t c⟩
  zvu w w' k k' co hw hk := by
    have : k = k' := hk
    subst this
    simp only [Full.env, hw.1]
    exact ⟨⟨rfl, hw.2.1, hw.2.2⟩, rfl, rfl⟩

end

lemma bright_ok : (F.bright).Ok where
  drop _ _ h := h
  fresh _ _ _ _ _ _ h ht := by simp only [Full.bright, brightRels] at h ht ⊢; rw [h, ht]
  increase _ _ _ _ h ht := by simp only [Full.bright, brightRels] at h ht ⊢; rw [h, ht]
  setStatus _ _ _ _ h := by simp only [Full.bright, brightRels] at h ⊢; rw [h]
  setPatch _ _ _ _ h ht := by simp only [Full.bright, brightRels] at h ht ⊢; rw [h, ht]
  status _ _ h := by simp only [Full.bright, brightRels] at h; rw [h]
  good _ _ h _ _ := by simp only [Full.bright, brightRels] at h; rw [h]
  age _ _ _ _ h ht := by simp only [Full.bright, brightRels] at h ht; rw [h, ht]

end ImgFull

end Rovio
