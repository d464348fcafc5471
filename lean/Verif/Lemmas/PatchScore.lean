import Verif.Lemmas.Pyramid
import Mathlib.Algebra.Order.Chebyshev
import Mathlib.Analysis.InnerProductSpace.Basic

/-! Helper lemmas for the corner score and the average patch difference. -/

namespace Rovio

open Finset

/-! ### Structure tensor -/

/-- Positive semi-definite 2x2 form. -/
def PSD (a b c : ℝ) : Prop := ∀ s t : ℝ, 0 ≤ a * s ^ 2 + 2 * c * s * t + b * t ^ 2

lemma PSD.add {a b c a' b' c' : ℝ} (h : PSD a b c) (h' : PSD a' b' c') : PSD (a + a') (b + b') (c + c') := by
  intro s t
  have := add_nonneg (h s t) (h' s t)
  linarith

lemma PSD.smul {a b c k : ℝ} (hk : 0 ≤ k) (h : PSD a b c) : PSD (k * a) (k * b) (k * c) := by
  intro s t
  have := mul_nonneg hk (h s t)
  linarith

lemma PSD.zero : PSD 0 0 0 := by intro s t; simp

lemma PSD.outer (x y : ℝ) : PSD (x * x) (y * y) (x * y) := by
  intro s t
  have : x * x * s ^ 2 + 2 * (x * y) * s * t + y * y * t ^ 2 = (x * s + y * t) ^ 2 := by ring
  rw [this]; positivity

lemma PSD.a_nonneg {a b c : ℝ} (h : PSD a b c) : 0 ≤ a := by simpa using h 1 0
lemma PSD.b_nonneg {a b c : ℝ} (h : PSD a b c) : 0 ≤ b := by simpa using h 0 1

lemma PSD.det_nonneg {a b c : ℝ} (h : PSD a b c) : 0 ≤ a * b - c * c := by
  rcases lt_or_eq_of_le h.b_nonneg with hb | hb
  · have := h b (-c)
    have e : a * b ^ 2 + 2 * c * b * -c + b * (-c) ^ 2 = b * (a * b - c * c) := by ring
    rw [e] at this
    exact nonneg_of_mul_nonneg_right this hb
  · have h1 := h c (-(a + 1))
    rw [← hb] at h1 ⊢
    have ha := h.a_nonneg
    have e : a * c ^ 2 + 2 * c * c * -(a + 1) + 0 * (-(a + 1)) ^ 2 = -(c * c * (a + 2)) := by ring
    rw [e] at h1
    have : c * c * (a + 2) ≤ 0 := by linarith
    have hc : c * c ≤ 0 := by
      by_contra hcon
      have := mul_pos (not_le.mp hcon) (by linarith : 0 < a + 2)
      linarith
    linarith

/-- The two formulas of the code give the eigenvalues. -/
lemma PSD.eigen {a b c : ℝ} (h : PSD a b c) : Spec.Eigenvalues a b c (Patch.eig0 a b c) (Patch.eig1 a b c) := by
  have ha := h.a_nonneg
  have hb := h.b_nonneg
  have hd := h.det_nonneg
  have hdisc : 0 ≤ (a + b) * (a + b) - 4 * (a * b - c * c) := by nlinarith [sq_nonneg (a - b), sq_nonneg c]
  have hs := Real.sqrt_nonneg ((a + b) * (a + b) - 4 * (a * b - c * c))
  have hss := Real.mul_self_sqrt hdisc
  have hle : Real.sqrt ((a + b) * (a + b) - 4 * (a * b - c * c)) ≤ a + b := by
    apply Real.sqrt_le_iff.mpr
    exact ⟨by linarith, by nlinarith⟩
  have h5 : (0.5 : ℝ) = 1 / 2 := by norm_num
  unfold Patch.eig0 Patch.eig1
  rw [h5]
  generalize Real.sqrt ((a + b) * (a + b) - 4 * (a * b - c * c)) = r at *
  exact ⟨by linarith, by linarith, by ring, by nlinarith⟩

namespace Patch

lemma foldl_outer (js : List V3) : ∀ H : M3,
    (js.foldl (fun H J => H + M3.outer J J) H).r1.x = H.r1.x + (js.map (fun J => J.x * J.x)).sum ∧
    (js.foldl (fun H J => H + M3.outer J J) H).r2.y = H.r2.y + (js.map (fun J => J.y * J.y)).sum ∧
    (js.foldl (fun H J => H + M3.outer J J) H).r1.y = H.r1.y + (js.map (fun J => J.x * J.y)).sum := by
  induction js with
  | nil => intro H; simp
  | cons J js ih =>
    intro H
    obtain ⟨h1, h2, h3⟩ := ih (H + M3.outer J J)
    simp only [List.foldl_cons, List.map_cons, List.sum_cons]
    rw [h1, h2, h3]
    simp only [M3.outer, HAdd.hAdd, Add.add, HSMul.hSMul, SMul.smul]
    refine ⟨?_, ?_, ?_⟩
    · show H.r1.x + J.x * J.x + _ = H.r1.x + (J.x * J.x + _); ring
    · show H.r2.y + J.y * J.y + _ = H.r2.y + (J.y * J.y + _); ring
    · show H.r1.y + J.x * J.y + _ = H.r1.y + (J.x * J.y + _); ring

lemma list_double_sum (p : ℕ) (f : ℕ → ℕ → V3) (g : V3 → ℝ) :
    (((List.range p).flatMap fun y => (List.range p).map fun x => f y x).map g).sum = Spec.patchSum p (fun y x => g (f y x)) := by
  unfold Spec.patchSum
  have key : ∀ (l : List ℕ), ((l.flatMap fun y => (List.range p).map fun x => f y x).map g).sum = (l.map fun y => ∑ x ∈ range p, g (f y x)).sum := by
    intro l
    induction l with
    | nil => simp
    | cons a l ih =>
      simp only [List.flatMap_cons, List.map_append, List.sum_append, ih, List.map_cons, List.sum_cons, List.map_map]
      congr 1
  rw [key]
  rfl

lemma gradAt_x (p : ℕ) (b : ℕ → ℝ) (y x : ℕ) : (gradAt p b y x).x = Spec.gx p b y x := by
  have h5 : (0.5 : ℝ) = 1 / 2 := by norm_num
  unfold gradAt Spec.gx Spec.cell
  have e1 : (y + 1) * (p + 2) + 1 + x + 1 = (y + 1) * (p + 2) + (x + 2) := by ring
  have e2 : (y + 1) * (p + 2) + 1 + x - 1 = (y + 1) * (p + 2) + x := by omega
  simp only [h5, e1, e2]
  ring

lemma gradAt_y (p : ℕ) (b : ℕ → ℝ) (y x : ℕ) : (gradAt p b y x).y = Spec.gy p b y x := by
  have h5 : (0.5 : ℝ) = 1 / 2 := by norm_num
  unfold gradAt Spec.gy Spec.cell
  have e1 : (y + 1) * (p + 2) + 1 + x + (p + 2) = (y + 2) * (p + 2) + (x + 1) := by ring
  have e2 : (y + 1) * (p + 2) + 1 + x - (p + 2) = y * (p + 2) + (x + 1) := by
    have : (y + 1) * (p + 2) + 1 + x = y * (p + 2) + (x + 1) + (p + 2) := by ring
    rw [this, Nat.add_sub_cancel]
  simp only [h5, e1, e2]
  ring

/-- The tensor sums of a patch. -/
lemma sumOuter_grad (p : ℕ) (b : ℕ → ℝ) :
    (sumOuter (gradList p b)).r1.x = Spec.patchSum p (fun y x => Spec.gx p b y x * Spec.gx p b y x) ∧
    (sumOuter (gradList p b)).r2.y = Spec.patchSum p (fun y x => Spec.gy p b y x * Spec.gy p b y x) ∧
    (sumOuter (gradList p b)).r1.y = Spec.patchSum p (fun y x => Spec.gx p b y x * Spec.gy p b y x) := by
  unfold sumOuter gradList
  obtain ⟨h1, h2, h3⟩ := foldl_outer ((List.range p).flatMap fun y => (List.range p).map fun x => gradAt p b y x) 0
  rw [h1, h2, h3, list_double_sum, list_double_sum, list_double_sum]
  have z1 : (0 : M3).r1.x = 0 := rfl
  have z2 : (0 : M3).r2.y = 0 := rfl
  have z3 : (0 : M3).r1.y = 0 := rfl
  simp only [gradAt_x, gradAt_y, z1, z2, z3, zero_add, and_self]

lemma psd_sum {ι : Type} (s : Finset ι) {a b c : ι → ℝ} (h : ∀ i ∈ s, PSD (a i) (b i) (c i)) :
    PSD (∑ i ∈ s, a i) (∑ i ∈ s, b i) (∑ i ∈ s, c i) := by
  induction s using Finset.cons_induction with
  | empty => simpa using PSD.zero
  | cons i s hi ih =>
    simp only [Finset.sum_cons]
    exact PSD.add (h i (Finset.mem_cons_self i s)) (ih fun j hj => h j (Finset.mem_cons_of_mem hj))

lemma psd_patch (p : ℕ) (b : ℕ → ℝ) :
    PSD (Spec.patchSum p (fun y x => Spec.gx p b y x * Spec.gx p b y x))
      (Spec.patchSum p (fun y x => Spec.gy p b y x * Spec.gy p b y x))
      (Spec.patchSum p (fun y x => Spec.gx p b y x * Spec.gy p b y x)) :=
  psd_sum _ fun _ _ => psd_sum _ fun _ _ => PSD.outer _ _

lemma patchSum_nonneg {p : ℕ} {f : ℕ → ℕ → ℝ} (h : ∀ y x, 0 ≤ f y x) : 0 ≤ Spec.patchSum p f :=
  Finset.sum_nonneg fun y _ => Finset.sum_nonneg fun x _ => h y x

lemma patchSum_sq_eq_zero {p : ℕ} {f : ℕ → ℕ → ℝ} :
    Spec.patchSum p (fun y x => f y x * f y x) = 0 ↔ ∀ y < p, ∀ x < p, f y x = 0 := by
  unfold Spec.patchSum
  rw [Finset.sum_eq_zero_iff_of_nonneg (fun y _ => Finset.sum_nonneg fun x _ => mul_self_nonneg _)]
  constructor
  · intro h y hy x hx
    have := h y (Finset.mem_range.mpr hy)
    rw [Finset.sum_eq_zero_iff_of_nonneg (fun x _ => mul_self_nonneg _)] at this
    exact mul_self_eq_zero.mp (this x (Finset.mem_range.mpr hx))
  · intro h y hy
    exact Finset.sum_eq_zero fun x hx => by rw [h y (Finset.mem_range.mp hy) x (Finset.mem_range.mp hx)]; ring

end Patch

/-! ### Multilevel score -/

namespace MLP

/-- Cached gradient parameters belong to the stored expanded patch. -/
def Coherent (p : ℕ) (ps : ℕ → Patch) : Prop :=
  ∀ i, (ps i).validGradient = true → (ps i).H = Patch.sumOuter (Patch.gradList p (ps i).border)

lemma getHessian_coherent {p : ℕ} {ps : ℕ → Patch} (h : Coherent p ps) (i : ℕ) :
    ((ps i).getHessian p).2 = Patch.sumOuter (Patch.gradList p (ps i).border) ∧
    ((ps i).getHessian p).1.border = (ps i).border ∧ ((ps i).getHessian p).1.patch = (ps i).patch ∧
    ((ps i).getHessian p).1.H = Patch.sumOuter (Patch.gradList p (ps i).border) := by
  unfold Patch.getHessian Patch.computeGradientParameters
  by_cases hv : (ps i).validGradient = true
  · simp [hv, h i hv]
  · simp [hv]

lemma scoreLoop_spec {p : ℕ} (valid : ℕ → Bool) : ∀ (is : List ℕ) (ps : ℕ → Patch) (H : M3) (n : ℕ), Coherent p ps →
    let r := scoreLoop p valid is (ps, H, n)
    Coherent p r.1 ∧ (∀ i, (r.1 i).border = (ps i).border ∧ (r.1 i).patch = (ps i).patch) ∧
    r.2.1.r1.x = H.r1.x + ((is.filter valid).map fun i => (1 / 4 : ℝ) ^ i * (Patch.sumOuter (Patch.gradList p (ps i).border)).r1.x).sum ∧
    r.2.1.r2.y = H.r2.y + ((is.filter valid).map fun i => (1 / 4 : ℝ) ^ i * (Patch.sumOuter (Patch.gradList p (ps i).border)).r2.y).sum ∧
    r.2.1.r1.y = H.r1.y + ((is.filter valid).map fun i => (1 / 4 : ℝ) ^ i * (Patch.sumOuter (Patch.gradList p (ps i).border)).r1.y).sum ∧
    r.2.2 = n + (is.filter valid).length := by
  intro is
  induction is with
  | nil => intro ps H n hc; simp [scoreLoop, hc]
  | cons i is ih =>
    intro ps H n hc
    have hq : (0.25 : ℝ) = 1 / 4 := by norm_num
    by_cases hv : valid i = true
    · obtain ⟨g1, g2, g3, g4⟩ := getHessian_coherent hc i
      have hb : ∀ j, (Function.update ps i ((ps i).getHessian p).1 j).border = (ps j).border := by
        intro j
        by_cases hj : j = i
        · subst hj; simp [g2]
        · simp [hj]
      have hp : ∀ j, (Function.update ps i ((ps i).getHessian p).1 j).patch = (ps j).patch := by
        intro j
        by_cases hj : j = i
        · subst hj; simp [g3]
        · simp [hj]
      have hc' : Coherent p (Function.update ps i ((ps i).getHessian p).1) := by
        intro j hj
        rw [hb j]
        by_cases hji : j = i
        · subst hji; simp [g4]
        · simp only [Function.update_of_ne hji] at hj ⊢
          exact hc j hj
      have := ih (Function.update ps i ((ps i).getHessian p).1) (H + ((0.25 : ℝ) ^ i) • ((ps i).getHessian p).2) (n + 1) hc'
      simp only [scoreLoop, hv, if_true, List.filter_cons_of_pos hv, List.map_cons, List.sum_cons, List.length_cons]
      obtain ⟨k1, k2, k3, k4, k5, k6⟩ := this
      refine ⟨k1, ?_, ?_, ?_, ?_, ?_⟩
      · intro j; rw [(k2 j).1, (k2 j).2, hb, hp]; exact ⟨rfl, rfl⟩
      · rw [k3]; simp only [hb, g1, hq]
        show H.r1.x + (1 / 4 : ℝ) ^ i * _ + _ = _; ring
      · rw [k4]; simp only [hb, g1, hq]
        show H.r2.y + (1 / 4 : ℝ) ^ i * _ + _ = _; ring
      · rw [k5]; simp only [hb, g1, hq]
        show H.r1.y + (1 / 4 : ℝ) ^ i * _ + _ = _; ring
      · rw [k6]; ring
    · have hv' : valid i = false := by simpa using hv
      have := ih ps H n hc
      simp only [scoreLoop, hv', Bool.false_eq_true, if_false, List.filter_cons_of_neg hv]
      exact this

end MLP

/-! ### Average difference -/

lemma foldl_add_eq (ds : List ℝ) (f : ℝ → ℝ) : ∀ a, ds.foldl (fun o d => o + f d) a = a + (ds.map f).sum := by
  induction ds with
  | nil => intro a; simp
  | cons d ds ih => intro a; simp only [List.foldl_cons, List.map_cons, List.sum_cons, ih]; ring

/-- Sum over all pixels of the levels `l1..l2`. -/
noncomputable def lsum (p l1 l2 : ℕ) (f : ℕ → ℕ → ℝ) : ℝ := ∑ i ∈ (Finset.Icc l1 l2) ×ˢ (range (p * p)), f i.1 i.2

lemma range'_sum (l1 l2 : ℕ) (f : ℕ → ℝ) : ((List.range' l1 (l2 + 1 - l1)).map f).sum = ∑ l ∈ Finset.Icc l1 l2, f l := rfl

lemma differences_sum (p : ℕ) (m n : MLP) (l1 l2 : ℕ) (f : ℝ → ℝ) :
    ((MLP.differences p m n l1 l2).map f).sum = lsum p l1 l2 (fun l k => f ((m.patches l).patch k - (n.patches l).patch k)) := by
  unfold lsum MLP.differences
  rw [Finset.sum_product]
  have key : ∀ ls : List ℕ, ((ls.flatMap fun l => (List.range (p * p)).map fun k => (m.patches l).patch k - (n.patches l).patch k).map f).sum
      = (ls.map fun l => ∑ k ∈ range (p * p), f ((m.patches l).patch k - (n.patches l).patch k)).sum := by
    intro ls
    induction ls with
    | nil => simp
    | cons a l ih =>
      simp only [List.flatMap_cons, List.map_append, List.sum_append, ih, List.map_cons, List.sum_cons, List.map_map]
      congr 1
  rw [key, range'_sum]

lemma avgDiff_eq (p : ℕ) (m n : MLP) (l1 l2 : ℕ) :
    MLP.computeAverageDifference p m n l1 l2 = Real.sqrt (lsum p l1 l2 (fun l k => ((m.patches l).patch k - (n.patches l).patch k
      - lsum p l1 l2 (fun l k => (m.patches l).patch k - (n.patches l).patch k) / ((p : ℝ) * p * ((l2 : ℝ) - l1 + 1))) ^ 2)
      / ((p : ℝ) * p * ((l2 : ℝ) - l1 + 1))) := by
  unfold MLP.computeAverageDifference
  have h1 := foldl_add_eq (MLP.differences p m n l1 l2) (fun d => d) 0
  rw [differences_sum, zero_add] at h1
  simp only [h1]
  rw [foldl_add_eq (MLP.differences p m n l1 l2) (fun d => (d - _) ^ 2) 0, differences_sum, zero_add]

lemma sqrt_sum_triangle {ι : Type} (s : Finset ι) (f g : ι → ℝ) :
    Real.sqrt (∑ i ∈ s, (f i + g i) ^ 2) ≤ Real.sqrt (∑ i ∈ s, f i ^ 2) + Real.sqrt (∑ i ∈ s, g i ^ 2) := by
  have hf : 0 ≤ ∑ i ∈ s, f i ^ 2 := Finset.sum_nonneg fun i _ => sq_nonneg _
  have hg : 0 ≤ ∑ i ∈ s, g i ^ 2 := Finset.sum_nonneg fun i _ => sq_nonneg _
  have hcs := Finset.sum_mul_sq_le_sq_mul_sq s f g
  have hc : ∑ i ∈ s, f i * g i ≤ Real.sqrt (∑ i ∈ s, f i ^ 2) * Real.sqrt (∑ i ∈ s, g i ^ 2) := by
    rw [← Real.sqrt_mul hf]
    exact Real.le_sqrt_of_sq_le hcs
  apply Real.sqrt_le_iff.mpr
  refine ⟨by positivity, ?_⟩
  have e : ∑ i ∈ s, (f i + g i) ^ 2 = ∑ i ∈ s, f i ^ 2 + 2 * ∑ i ∈ s, f i * g i + ∑ i ∈ s, g i ^ 2 := by
    rw [Finset.mul_sum, ← Finset.sum_add_distrib, ← Finset.sum_add_distrib]
    exact Finset.sum_congr rfl fun i _ => by ring
  rw [e, add_sq, Real.sq_sqrt hf, Real.sq_sqrt hg]
  linarith

end Rovio
