import Verif.Lemmas.Covariance
import Verif.Props.MultiCamera
import Mathlib.Data.List.Sort
import Mathlib.Algebra.Order.BigOperators.Group.Finset

/-! # C53: the depth parameter of new features is a median of the well estimated ones -/

namespace Rovio

open Distance

variable {n nCam nPose : ℕ}

namespace Spec

/-- `r` is the upper median of the values `p i`, `i ∈ G`: it is one of them, more than half of them are not larger (counting
itself) and at least half of them are not smaller. -/
structure IsUpperMedian {ι : Type*} (G : Finset ι) (p : ι → ℝ) (r : ℝ) : Prop where
  mem : ∃ i ∈ G, p i = r
  notLarger : G.card / 2 < (G.filter fun i => p i ≤ r).card
  notSmaller : G.card - G.card / 2 ≤ (G.filter fun i => r ≤ p i).card

/-- There is only one upper median. -/
lemma IsUpperMedian.unique {ι : Type*} [DecidableEq ι] {G : Finset ι} {p : ι → ℝ} {r r' : ℝ} (h : IsUpperMedian G p r) (h' : IsUpperMedian G p r') : r = r' := by
  have key : ∀ {a b : ℝ}, IsUpperMedian G p a → IsUpperMedian G p b → ¬ a < b := by
    intro a b ha hb hab
    have hd : Disjoint (G.filter fun i => p i ≤ a) (G.filter fun i => b ≤ p i) := by
      rw [Finset.disjoint_left]
      intro i h1 h2
      rw [Finset.mem_filter] at h1 h2
      linarith [h1.2, h2.2]
    have := Finset.card_le_card (Finset.union_subset (Finset.filter_subset (fun i => p i ≤ a) G) (Finset.filter_subset (fun i => b ≤ p i) G))
    rw [Finset.card_union_of_disjoint hd] at this
    have h1 := ha.notLarger
    have h2 := hb.notSmaller
    omega
  rcases lt_trichotomy r r' with h1 | h1 | h1
  · exact absurd h1 (key h h')
  · exact h1
  · exact absurd h1 (key h' h)

end Spec

namespace State

/-- Specification: feature `i` expressed in camera `b` by an output object of distance type `t`. -/
noncomputable def view (s : State n nCam nPose) (mc : MultiCamera nCam) (sfv : V3 → Nor) (t : DType) (i : Fin n) (b : Fin nCam) : Option Fea :=
  s.featureOut mc sfv i b { c := (s.fea i).c, d := ⟨t, 0⟩ }

/-- Specification: `f`, the feature `i` expressed in camera `b`, is in front of that camera and its distance is known up to the
given relative uncertainty (one standard deviation, by first order propagation). -/
def WellEstimated (s : State n nCam nPose) (P : Cov n nCam nPose) (sfv : V3 → Nor) (ratio : ℝ) (i : Fin n) (b : Fin nCam) (f : Fea) : Prop :=
  f.c.isInFront = true ∧ ∃ v, s.distVar P sfv i b = some v ∧ 0 ≤ v ∧ getDistance f.d ≠ 0 ∧
    |Real.sqrt v * getDistanceDerivative f.d| / getDistance f.d < ratio

/-- Specification: the valid features that are well estimated in camera `b`. -/
def IsGood (s : State n nCam nPose) (P : Cov n nCam nPose) (mc : MultiCamera nCam) (sfv : V3 → Nor) (valid : Fin n → Bool) (t : DType) (ratio : ℝ)
    (b : Fin nCam) (i : Fin n) : Prop :=
  valid i = true ∧ ∃ f, s.view mc sfv t i b = some f ∧ s.WellEstimated P sfv ratio i b f

/-- Specification: the depth parameter of feature `i` in camera `b`. -/
noncomputable def viewParam (s : State n nCam nPose) (mc : MultiCamera nCam) (sfv : V3 → Nor) (t : DType) (b : Fin nCam) (i : Fin n) : ℝ :=
  match s.view mc sfv t i b with
  | some f => f.d.p
  | none => 0

/-! ## The output object matters only through its distance type -/

lemma setParameter_type (d d' : FeatureDistance) (h : d.type = d'.type) (x : ℝ) : setParameter d x = setParameter d' x := by
  obtain ⟨t, p⟩ := d
  obtain ⟨t', p'⟩ := d'
  simp only at h
  subst h
  cases t <;> rfl

lemma setParameter_keeps {d d' : FeatureDistance} {x : ℝ} (h : setParameter d x = some d') : d'.type = d.type := by
  obtain ⟨t, p⟩ := d
  cases t <;> simp only [setParameter] at h
  · cases h; rfl
  · cases h; rfl
  · split at h <;> cases h; rfl
  · cases h; rfl

/-- Same view up to members that neither the front test nor the distance depend on. -/
def SameView (f g : Fea) : Prop := f.d = g.d ∧ f.c.validC = g.c.validC ∧ f.c.validNor = g.c.validNor ∧ f.c.nor = g.c.nor

lemma SameView.front {f g : Fea} (h : SameView f g) : f.c.isInFront = g.c.isInFront := by
  unfold FC.isInFront; rw [h.2.1, h.2.2.1, h.2.2.2]

lemma transformFeature_out (mc : MultiCamera nCam) (sfv : V3 → Nor) (b : Fin nCam) (c : FC) (d : FeatureDistance) (o o' : Fea)
    (h : o.d.type = o'.d.type) (ht : d.type = o.d.type) :
    (mc.transformFeature sfv b c d o.c o.d = none ∧ mc.transformFeature sfv b c d o'.c o'.d = none) ∨
    ∃ p p', mc.transformFeature sfv b c d o.c o.d = some p ∧ mc.transformFeature sfv b c d o'.c o'.d = some p' ∧ SameView ⟨p.1, p.2⟩ ⟨p'.1, p'.2⟩ ∧
      p.2.type = o.d.type := by
  unfold MultiCamera.transformFeature
  by_cases hne : c.camID ≠ b.val
  · simp only [hne, ne_eq, not_false_eq_true, if_true]
    cases ha : camIdx nCam c.camID with
    | none => left; simp
    | some a =>
      cases hn : c.getNor with
      | none => left; simp
      | some q =>
        obtain ⟨c₁, nor⟩ := q
        simp only [Option.bind_eq_bind, Option.bind_some, Option.pure_def]
        rw [setParameter_type o.d o'.d h]
        cases hd : setParameter o'.d (mc.moved a b (getDistance d • nor.vec)).norm with
        | none => left; simp
        | some d₁ =>
          right
          refine ⟨_, _, rfl, rfl, ?_, (setParameter_keeps hd).trans h.symm⟩
          by_cases htw : c₁.trackWarping = true
          · simp only [htw, if_true]; exact ⟨rfl, rfl, rfl, rfl⟩
          · simp only [htw, Bool.false_eq_true, if_false]; exact ⟨rfl, rfl, rfl, rfl⟩
  · simp only [hne, if_false]
    right
    exact ⟨_, _, rfl, rfl, ⟨rfl, rfl, rfl, rfl⟩, ht⟩

lemma featureOut_out (s : State n nCam nPose) (mc : MultiCamera nCam) (sfv : V3 → Nor) (i : Fin n) (b : Fin nCam) (o o' : Fea)
    (h : o.d.type = o'.d.type) (ht : (s.fea i).d.type = o.d.type) {f : Fea} (hf : s.featureOut mc sfv i b o = some f) :
    ∃ f', s.featureOut mc sfv i b o' = some f' ∧ SameView f f' ∧ f.d.type = o.d.type := by
  unfold featureOut at hf ⊢
  rcases transformFeature_out (s.updateMultiCamera mc) sfv b (s.fea i).c (s.fea i).d o o' h ht with ⟨e, e'⟩ | ⟨p, p', e, e', hv, hk⟩
  · simp only [e, Option.bind_eq_bind, Option.bind_none] at hf; exact absurd hf (by simp)
  · simp only [e, e', Option.bind_eq_bind, Option.bind_some, Option.pure_def] at hf ⊢
    by_cases htw : (s.fea i).c.trackWarping = true
    · simp only [htw, if_true] at hf ⊢
      cases hw : (s.fea i).c.comWarpNor with
      | none => simp [hw] at hf
      | some q =>
        obtain ⟨fc, ok⟩ := q
        simp only [hw, Option.bind_some] at hf ⊢
        cases ok
        · simp only [Bool.false_eq_true, if_false, Option.some.injEq] at hf ⊢
          exact ⟨_, rfl, by rw [← hf]; exact hv, by rw [← hf]; exact hk⟩
        · simp only [if_true] at hf ⊢
          cases ha : camIdx nCam fc.camID with
          | none => simp [ha] at hf
          | some a =>
            simp only [ha, Option.bind_some] at hf ⊢
            cases hn : fc.getNor with
            | none => simp [hn] at hf
            | some r =>
              simp only [hn, Option.bind_some] at hf ⊢
              cases hw2 : r.1.getWarpNor with
              | none => simp [hw2] at hf
              | some u =>
                simp only [hw2, Option.bind_some, Option.some.injEq] at hf ⊢
                refine ⟨_, rfl, ?_, by rw [← hf]; exact hk⟩
                rw [← hf]
                exact ⟨hv.1, hv.2.1, hv.2.2.1, hv.2.2.2⟩
    · simp only [htw, Bool.false_eq_true, if_false, Option.some.injEq] at hf ⊢
      exact ⟨_, rfl, by rw [← hf]; exact hv, by rw [← hf]; exact hk⟩

/-! ## The collection loop -/

open Classical in
/-- What one iteration appends to the collection of its camera. -/
noncomputable def entry (s : State n nCam nPose) (P : Cov n nCam nPose) (mc : MultiCamera nCam) (sfv : V3 → Nor) (t : DType) (ratio : ℝ)
    (i : Fin n) (b : Fin nCam) : List ℝ :=
  if ∃ f, s.view mc sfv t i b = some f ∧ s.WellEstimated P sfv ratio i b f then [s.viewParam mc sfv t b i] else []

lemma smallUncertainty_iff (v : ℝ) (d : FeatureDistance) (ratio : ℝ) :
    smallUncertainty v d ratio = true ↔ 0 ≤ v ∧ getDistance d ≠ 0 ∧ |Real.sqrt v * getDistanceDerivative d| / getDistance d < ratio := by
  simp [smallUncertainty, and_assoc]

lemma medianStep_spec (s : State n nCam nPose) (P : Cov n nCam nPose) (mc : MultiCamera nCam) (sfv : V3 → Nor) {t : DType} (ratio : ℝ) (i : Fin n)
    (hi : (s.fea i).d.type = t) (acc acc' : Fea × (Fin nCam → List ℝ)) (hacc : acc.1.d.type = t) (b : Fin nCam)
    (h : s.medianStep P mc sfv ratio i acc b = some acc') :
    acc'.1.d.type = t ∧ acc'.2 = Function.update acc.2 b (acc.2 b ++ s.entry P mc sfv t ratio i b) := by
  unfold medianStep at h
  cases hf : s.featureOut mc sfv i b acc.1 with
  | none => simp [hf] at h
  | some f =>
    obtain ⟨f', hf', hsame, hty⟩ := s.featureOut_out mc sfv i b acc.1 { c := (s.fea i).c, d := ⟨t, 0⟩ } hacc (hi.trans hacc.symm) hf
    have hview : s.view mc sfv t i b = some f' := hf'
    have hfront := hsame.front
    have hd : f.d = f'.d := hsame.1
    simp only [hf, Option.bind_eq_bind, Option.bind_some, Option.pure_def] at h
    have hnil : Function.update acc.2 b (acc.2 b ++ []) = acc.2 := by simp
    by_cases hin : f.c.isInFront = true
    · simp only [hin, if_true] at h
      cases hv : s.distVar P sfv i b with
      | none => simp [hv] at h
      | some v =>
        simp only [hv, Option.bind_some] at h
        by_cases hs : smallUncertainty v f.d ratio = true
        · simp only [hs, if_true, Option.some.injEq] at h
          subst h
          refine ⟨hty.trans hacc, ?_⟩
          have : ∃ f, s.view mc sfv t i b = some f ∧ s.WellEstimated P sfv ratio i b f :=
            ⟨f', hview, by rw [← hfront]; exact hin, v, hv, by rw [← hd]; exact (smallUncertainty_iff _ _ _).mp hs⟩
          simp only [entry, if_pos this, viewParam, hview, hd]
        · simp only [hs, Bool.false_eq_true, if_false, Option.some.injEq] at h
          subst h
          refine ⟨hty.trans hacc, ?_⟩
          have : ¬ ∃ f, s.view mc sfv t i b = some f ∧ s.WellEstimated P sfv ratio i b f := by
            rintro ⟨g, hg, hw⟩
            rw [hview] at hg; cases hg
            obtain ⟨_, v', hv', hw'⟩ := hw
            rw [hv] at hv'; cases hv'
            rw [← hd] at hw'
            exact hs ((smallUncertainty_iff _ _ _).mpr hw')
          simp only [entry, if_neg this, hnil]
    · simp only [hin, Bool.false_eq_true, if_false, Option.some.injEq] at h
      subst h
      refine ⟨hty.trans hacc, ?_⟩
      have : ¬ ∃ f, s.view mc sfv t i b = some f ∧ s.WellEstimated P sfv ratio i b f := by
        rintro ⟨g, hg, hw⟩
        rw [hview] at hg; cases hg
        exact hin (hfront.trans hw.1)
      simp only [entry, if_neg this, hnil]

lemma foldlM_cams (s : State n nCam nPose) (P : Cov n nCam nPose) (mc : MultiCamera nCam) (sfv : V3 → Nor) {t : DType} (ratio : ℝ) (i : Fin n)
    (hi : (s.fea i).d.type = t) : ∀ (l : List (Fin nCam)) (_ : l.Nodup) (acc acc' : Fea × (Fin nCam → List ℝ)), acc.1.d.type = t →
    l.foldlM (s.medianStep P mc sfv ratio i) acc = some acc' →
    acc'.1.d.type = t ∧ ∀ b, acc'.2 b = if b ∈ l then acc.2 b ++ s.entry P mc sfv t ratio i b else acc.2 b := by
  intro l
  induction l with
  | nil => intro _ acc acc' h0 h; simp only [List.foldlM_nil, Option.pure_def, Option.some.injEq] at h; subst h; simp [h0]
  | cons x l ih =>
    intro hl acc acc' h0 h
    rw [List.nodup_cons] at hl
    rw [List.foldlM_cons] at h
    cases hs : s.medianStep P mc sfv ratio i acc x with
    | none => simp [hs] at h
    | some a₁ =>
      simp only [hs, Option.bind_eq_bind, Option.bind_some] at h
      obtain ⟨t1, e1⟩ := s.medianStep_spec P mc sfv ratio i hi acc a₁ h0 x hs
      obtain ⟨t2, e2⟩ := ih hl.2 a₁ acc' t1 h
      refine ⟨t2, fun b => ?_⟩
      rw [e2 b, e1]
      by_cases hbx : b = x
      · subst hbx
        simp [hl.1]
      · simp [hbx]

lemma collect_spec (s : State n nCam nPose) (P : Cov n nCam nPose) (mc : MultiCamera nCam) (sfv : V3 → Nor) (valid : Fin n → Bool) {t : DType} (ratio : ℝ)
    (hi : ∀ i, valid i = true → (s.fea i).d.type = t) : ∀ (l : List (Fin n)) (acc acc' : Fea × (Fin nCam → List ℝ)), acc.1.d.type = t →
    l.foldlM (fun acc i => if valid i then (List.finRange nCam).foldlM (s.medianStep P mc sfv ratio i) acc else some acc) acc = some acc' →
    ∀ b, acc'.2 b = acc.2 b ++ (l.filter valid).flatMap fun i => s.entry P mc sfv t ratio i b := by
  intro l
  induction l with
  | nil => intro acc acc' h0 h; simp only [List.foldlM_nil, Option.pure_def, Option.some.injEq] at h; subst h; simp
  | cons x l ih =>
    intro acc acc' h0 h b
    rw [List.foldlM_cons] at h
    by_cases hv : valid x = true
    · simp only [hv, if_true] at h
      cases hs : (List.finRange nCam).foldlM (s.medianStep P mc sfv ratio x) acc with
      | none => simp [hs] at h
      | some a₁ =>
        simp only [hs, Option.bind_eq_bind, Option.bind_some] at h
        obtain ⟨t1, e1⟩ := s.foldlM_cams P mc sfv ratio x (hi x hv) _ (List.nodup_finRange nCam) acc a₁ h0 hs
        rw [ih a₁ acc' t1 h b, e1 b]
        simp [hv, List.mem_finRange]
    · simp only [hv, Bool.false_eq_true, if_false, Option.bind_eq_bind, Option.bind_some] at h
      rw [ih acc acc' h0 h b]
      simp [hv]

open Classical in
lemma flatMap_entry (s : State n nCam nPose) (P : Cov n nCam nPose) (mc : MultiCamera nCam) (sfv : V3 → Nor) (valid : Fin n → Bool) (t : DType) (ratio : ℝ)
    (b : Fin nCam) (l : List (Fin n)) :
    ((l.filter valid).flatMap fun i => s.entry P mc sfv t ratio i b) =
      (l.filter fun i => s.IsGood P mc sfv valid t ratio b i).map (s.viewParam mc sfv t b) := by
  induction l with
  | nil => rfl
  | cons x l ih =>
    by_cases hv : valid x = true
    · by_cases hg : ∃ f, s.view mc sfv t x b = some f ∧ s.WellEstimated P sfv ratio x b f
      · have : s.IsGood P mc sfv valid t ratio b x := ⟨hv, hg⟩
        have he : s.entry P mc sfv t ratio x b = [s.viewParam mc sfv t b x] := if_pos hg
        simp [hv, this, ih, he]
      · have : ¬ s.IsGood P mc sfv valid t ratio b x := fun h => hg h.2
        have he : s.entry P mc sfv t ratio x b = [] := if_neg hg
        simp [hv, this, ih, he]
    · have : ¬ s.IsGood P mc sfv valid t ratio b x := fun h => hv h.1
      simp [hv, this, ih]

/-! ## The selected element -/

lemma nthElement_median {ι : Type*} (l : List ι) (hl : l.Nodup) (p : ι → ℝ) (r : ℝ) [DecidableEq ι]
    (h : nthElement (l.map p) (l.length / 2) = some r) : Spec.IsUpperMedian l.toFinset p r := by
  unfold nthElement at h
  set L := (l.map p).insertionSort (· ≤ ·) with hL
  have hperm : L.Perm (l.map p) := List.perm_insertionSort _ _
  have hlen : L.length = l.length := by rw [hperm.length_eq, List.length_map]
  have hsort : L.Pairwise (· ≤ ·) := List.pairwise_insertionSort (· ≤ ·) _
  obtain ⟨hk, hr⟩ := List.getElem?_eq_some_iff.mp h
  have hcard : l.toFinset.card = l.length := List.toFinset_card_of_nodup hl
  have hcount : ∀ q : ℝ → Prop, [DecidablePred q] → (l.toFinset.filter fun i => q (p i)).card = L.countP (fun x => decide (q x)) := by
    intro q _
    rw [hperm.countP_eq, List.countP_map, List.countP_eq_length_filter, ← List.toFinset_card_of_nodup (hl.filter _)]
    congr 1
    ext i
    simp
  have hmem : r ∈ l.map p := hperm.mem_iff.mp (hr ▸ List.getElem_mem hk)
  refine ⟨?_, ?_, ?_⟩
  · obtain ⟨i, hi, e⟩ := List.mem_map.mp hmem
    exact ⟨i, List.mem_toFinset.mpr hi, e⟩
  · rw [hcard, hcount (fun x => x ≤ r)]
    have hsub : (L.take (l.length / 2 + 1)).Sublist L := List.take_sublist _ _
    have := hsub.countP_le (p := fun x => decide (x ≤ r))
    have hall : (L.take (l.length / 2 + 1)).countP (fun x => decide (x ≤ r)) = l.length / 2 + 1 := by
      have hlt : (L.take (l.length / 2 + 1)).length = l.length / 2 + 1 := by rw [List.length_take]; omega
      conv_rhs => rw [← hlt]
      rw [List.countP_eq_length]
      intro x hx
      obtain ⟨j, hj, e⟩ := List.mem_iff_getElem.mp hx
      rw [List.getElem_take] at e
      rw [hlt] at hj
      rw [decide_eq_true_eq, ← e, ← hr]
      rcases Nat.lt_or_ge j (l.length / 2) with hlt' | hge
      · exact List.pairwise_iff_getElem.mp hsort j _ (by omega) hk hlt'
      · have : j = l.length / 2 := by omega
        subst this; exact le_rfl
    omega
  · rw [hcard, hcount (fun x => r ≤ x)]
    have hsub : (L.drop (l.length / 2)).Sublist L := List.drop_sublist _ _
    have := hsub.countP_le (p := fun x => decide (r ≤ x))
    have hall : (L.drop (l.length / 2)).countP (fun x => decide (r ≤ x)) = l.length - l.length / 2 := by
      have hlt : (L.drop (l.length / 2)).length = l.length - l.length / 2 := by rw [List.length_drop]; omega
      conv_rhs => rw [← hlt]
      rw [List.countP_eq_length]
      intro x hx
      obtain ⟨j, hj, e⟩ := List.mem_iff_getElem.mp hx
      rw [List.getElem_drop] at e
      rw [hlt] at hj
      rw [decide_eq_true_eq, ← e, ← hr]
      rcases Nat.eq_zero_or_pos j with h0 | hpos
      · subst h0; exact le_rfl
      · exact List.pairwise_iff_getElem.mp hsort _ (l.length / 2 + j) hk (by omega) (by omega)
    omega

lemma optAll_spec {α : Type} {m : ℕ} {f : Fin m → Option α} {g : Fin m → α} (h : optAll f = some g) (i : Fin m) : f i = some (g i) := by
  unfold optAll at h
  split at h
  · rename_i hs
    cases h
    simp
  · cases h

open Classical in
/-- For every camera: with more than three valid features that are well estimated in that camera, the initial depth parameter of
new features is the upper median of their depth parameters in that camera, otherwise the configured value.  Assumes that the
features and the output object use the same parametrisation (see `C53_finding_type` for what happens otherwise). -/
theorem C53_median (s : State n nCam nPose) (P : Cov n nCam nPose) (mc : MultiCamera nCam) (sfv : V3 → Nor) (valid : Fin n → Bool) (init ratio : ℝ)
    (out : Fea) (hty : ∀ i, valid i = true → (s.fea i).d.type = out.d.type) (r : Fin nCam → ℝ)
    (h : s.medianDepth P mc sfv valid init ratio out = some r) (b : Fin nCam) :
    let G := Finset.univ.filter (s.IsGood P mc sfv valid out.d.type ratio b)
    (G.card ≤ 3 → r b = init) ∧ (3 < G.card → Spec.IsUpperMedian G (s.viewParam mc sfv out.d.type b) (r b)) := by
  intro G
  unfold medianDepth at h
  cases hc : s.medianCollect P mc sfv valid ratio out with
  | none => simp [hc] at h
  | some acc =>
    simp only [hc, Option.bind_eq_bind, Option.bind_some] at h
    have hb := optAll_spec h b
    have hcol := s.collect_spec P mc sfv valid ratio hty (List.finRange n) (out, fun _ => []) acc rfl hc b
    rw [List.nil_append, flatMap_entry] at hcol
    set l := (List.finRange n).filter fun i => s.IsGood P mc sfv valid out.d.type ratio b i with hl
    have hnd : l.Nodup := (List.nodup_finRange n).filter _
    have hG : l.toFinset = G := by ext i; simp [hl, G]
    have hcard : G.card = l.length := by rw [← hG]; exact List.toFinset_card_of_nodup hnd
    simp only [hcol] at hb
    unfold medianOf at hb
    rw [List.length_map] at hb
    constructor
    · intro hle
      rw [if_neg (by omega)] at hb
      exact (Option.some.inj hb).symm
    · intro hgt
      rw [if_pos (by omega)] at hb
      rw [← hG]
      exact nthElement_median l hnd _ _ hb

/-! ## What the parameter of a feature in a camera is -/

lemma distRow_own (s : State n nCam nPose) (sfv : V3 → Nor) (i : Fin n) (b : Fin nCam) (h : (s.fea i).c.camID = b.val) :
    s.distRow sfv i b = some (Pi.single (.dep i) 1) := by
  have e : ∀ a : Ix n nCam nPose, s.featureJac sfv false i b (DState.unit a) = some ((DState.unit a).nor i, (DState.unit a).dep i) := by
    intro a; unfold featureJac; rw [if_neg (not_not.mpr h)]
  unfold distRow
  rw [dif_pos (fun a => by rw [e a]; rfl)]
  congr 1
  funext a
  have hd : (DState.unit a : DState n nCam nPose).dep i = (Pi.single (.dep i) 1 : Ix n nCam nPose → ℝ) a := by
    simp only [DState.unit, DState.ofFn]
    by_cases ha : a = .dep i
    · subst ha; simp
    · rw [Pi.single_eq_of_ne ha, Pi.single_eq_of_ne (Ne.symm ha)]
  rw [← hd]
  exact congrArg Prod.snd (Option.get_of_eq_some _ (e a))

/-- In its own camera a feature counts with its own parameter, provided it is in front and the standard deviation of its
parameter, scaled to the distance, is below the given fraction of the distance. -/
theorem C53_own_camera (s : State n nCam nPose) (P : Cov n nCam nPose) (mc : MultiCamera nCam) (sfv : V3 → Nor) (t : DType) (ratio : ℝ)
    (i : Fin n) (b : Fin nCam) (h : (s.fea i).c.camID = b.val) (hw : (s.fea i).c.trackWarping = false) :
    s.view mc sfv t i b = some (s.fea i) ∧ s.viewParam mc sfv t b i = (s.fea i).d.p ∧
    (s.WellEstimated P sfv ratio i b (s.fea i) ↔ (s.fea i).c.isInFront = true ∧ 0 ≤ P (.dep i) (.dep i) ∧ getDistance (s.fea i).d ≠ 0 ∧
      Real.sqrt (P (.dep i) (.dep i)) * |getDistanceDerivative (s.fea i).d| / getDistance (s.fea i).d < ratio) := by
  have hv : s.view mc sfv t i b = some (s.fea i) := by
    unfold view featureOut MultiCamera.transformFeature
    simp [h, hw]
  have hd : s.distVar P sfv i b = some (P (.dep i) (.dep i)) := by
    unfold distVar
    rw [s.distRow_own sfv i b h]
    simp [Matrix.mulVec, dotProduct, Pi.single_apply]
  refine ⟨hv, by simp [viewParam, hv], ?_⟩
  unfold WellEstimated
  rw [hd]
  simp [abs_mul, abs_of_nonneg (Real.sqrt_nonneg _)]

/-- In another camera a feature counts with the parameter of the distance between that camera and the feature's 3D point. -/
theorem C53_other_camera (s : State n nCam nPose) (hq : ∀ c, (s.qCM c).IsUnit) (mc : MultiCamera nCam) (sfv : V3 → Nor) (hs : Spec.SetFromVector sfv)
    (t : DType) (i : Fin n) (b : Fin nCam) (L : V3) (hL : (s.updateMultiCamera mc).Describes (s.fea i).c (s.fea i).d L)
    (h : (s.fea i).c.camID ≠ b.val) (hw : (s.fea i).c.trackWarping = false) (hfar : 1e-6 < (L - s.MrMC b).norm) (hrep : Representable t (L - s.MrMC b).norm) :
    ∃ f, s.view mc sfv t i b = some f ∧ f.d.type = t ∧ getDistance f.d = (L - s.MrMC b).norm ∧ s.viewParam mc sfv t b i = f.d.p ∧
      (f.c.isInFront = true ↔ 0 < ((s.qCM b).rotate (L - s.MrMC b)).normalized.z) := by
  obtain ⟨c', d', e, h1, h2, h3, h4, h5, h6, h7, h8, h9, _⟩ :=
    (s.updateMultiCamera mc).transformFeature_other hq hs b hL h (s.fea i).c ⟨t, 0⟩ hfar hrep
  have hv : s.view mc sfv t i b = some { c := c', d := d' } := by
    unfold view featureOut
    simp only [e, Option.bind_eq_bind, Option.bind_some, hw, Bool.false_eq_true, if_false, Option.pure_def]
  refine ⟨_, hv, h6, h7, by simp [viewParam, hv], ?_⟩
  simp only [FC.isInFront, h4, h3, h9, Bool.false_or, Bool.true_and, decide_eq_true_eq]
  rfl

/-! ## Non-vacuity -/

/-- Coordinates in camera 0, straight ahead. -/
def aheadFC (cam : CamI) : FC :=
  { cam := some cam, c := ⟨0, 0⟩, validC := false, nor := ⟨Quat.one⟩, validNor := true, camID := 0, warpC := M2.one, validWarpC := false,
    warpNor := M2.one, validWarpNor := false, isWarpIdentity := false, trackWarping := false }

/-- Four features straight ahead at the distances 4, 1, 3, 2. -/
noncomputable def fourState (cam : CamI) : State 4 1 0 :=
  { pos := 0, vel := 0, acb := 0, gyb := 0, att := Quat.one, vep := fun _ => 0, vea := fun _ => Quat.one,
    fea := fun i => { c := aheadFC cam, d := ⟨.regular, ![4, 1, 3, 2] i⟩ }, pop := fun _ => 0, poa := fun _ => Quat.one,
    aux := { MwWMest := 0, MwWMmeas := 0, wMeasCov := M3.zero, doVE := false, qCM := fun _ => Quat.one, MrMC := fun _ => 0, tInertial := 0,
             tImage := 0, poseMeasRot := Quat.one, poseMeasLin := 0 } }

lemma medianStep_own (s : State n nCam nPose) (P : Cov n nCam nPose) (mc : MultiCamera nCam) (sfv : V3 → Nor) (ratio : ℝ) (i : Fin n) (b : Fin nCam)
    (h : (s.fea i).c.camID = b.val) (hw : (s.fea i).c.trackWarping = false) (hin : (s.fea i).c.isInFront = true)
    (hsm : smallUncertainty (P (.dep i) (.dep i)) (s.fea i).d ratio = true) (acc : Fea × (Fin nCam → List ℝ)) :
    s.medianStep P mc sfv ratio i acc b = some (s.fea i, Function.update acc.2 b (acc.2 b ++ [(s.fea i).d.p])) := by
  have hv : s.featureOut mc sfv i b acc.1 = some (s.fea i) := by
    unfold featureOut MultiCamera.transformFeature
    simp [h, hw]
  have hd : s.distVar P sfv i b = some (P (.dep i) (.dep i)) := by
    unfold distVar
    rw [s.distRow_own sfv i b h]
    simp [Matrix.mulVec, dotProduct, Pi.single_apply]
  unfold medianStep
  simp only [hv, hd, hin, hsm, Option.bind_eq_bind, Option.bind_some, if_true, Option.pure_def]

/-- Four well estimated features at the distances 4, 1, 3, 2: new features start at the distance 3 (and all types agree, so
`C53_median` applies). -/
example (cam : CamI) (mc : MultiCamera 1) (sfv : V3 → Nor) :
    ∃ r, (fourState cam).medianDepth ((0.01 : ℝ) • (1 : Cov 4 1 0)) mc sfv (fun _ => true) 7 0.3 ((fourState cam).fea 0) = some r ∧ r 0 = 3 := by
  have hin : ∀ i, ((fourState cam).fea i).c.isInFront = true := by
    intro i
    simp [fourState, aheadFC, FC.isInFront, Nor.vec, Quat.rotate_one, V3.ez]
  have hsm : ∀ i, smallUncertainty (((0.01 : ℝ) • (1 : Cov 4 1 0)) (.dep i) (.dep i)) ((fourState cam).fea i).d 0.3 = true := by
    intro i
    rw [smallUncertainty_iff]
    have hs : Real.sqrt (0.01 : ℝ) = 0.1 := by
      rw [show (0.01 : ℝ) = 0.1 ^ 2 by norm_num]; exact Real.sqrt_sq (by norm_num)
    have e : ((0.01 : ℝ) • (1 : Cov 4 1 0)) (.dep i) (.dep i) = 0.01 := by simp
    rw [e, hs]
    fin_cases i <;> simp [fourState, getDistance, getDistanceDerivative] <;> norm_num [abs_of_pos]
  have step := fun i acc => medianStep_own (fourState cam) ((0.01 : ℝ) • (1 : Cov 4 1 0)) mc sfv 0.3 i 0 rfl rfl (hin i) (hsm i) acc
  refine ⟨fun _ => 3, ?_, rfl⟩
  have h4 : List.finRange 4 = [0, 1, 2, 3] := by decide
  have h1 : List.finRange 1 = [0] := by decide
  have hp : ∀ i, ((fourState cam).fea i).d.p = ![4, 1, 3, 2] i := fun _ => rfl
  have hcol : ∃ o, (fourState cam).medianCollect ((0.01 : ℝ) • (1 : Cov 4 1 0)) mc sfv (fun _ => true) 0.3 ((fourState cam).fea 0) =
      some (o, fun _ => [4, 1, 3, 2]) := by
    refine ⟨(fourState cam).fea 3, ?_⟩
    unfold medianCollect
    simp only [h4, h1, List.foldlM_cons, List.foldlM_nil, if_true, step, Option.bind_eq_bind, Option.bind_some, Option.pure_def, hp]
    congr 2
    funext b
    have : b = 0 := Subsingleton.elim _ _
    subst this
    simp
  obtain ⟨o, ho⟩ := hcol
  unfold medianDepth
  simp only [ho, Option.bind_eq_bind, Option.bind_some]
  have hmed : medianOf 7 [4, 1, 3, 2] = some 3 := by
    simp only [medianOf, nthElement]
    have : [(4 : ℝ), 1, 3, 2].insertionSort (· ≤ ·) = [1, 2, 3, 4] := by
      norm_num [List.insertionSort, List.orderedInsert]
    rw [this]
    simp
  unfold optAll
  simp [hmed]

/-! ## Findings -/

/-- Finding: the output object of the collection is never given the parametrisation of the features.  As long as it still has
the default (regular) type, a feature seen from another camera is collected with its *distance*, whatever parametrisation the
features use, e.g. 10 instead of 0.1 for inverse distances. -/
theorem C53_finding_type (s : State n nCam nPose) (hq : ∀ c, (s.qCM c).IsUnit) (mc : MultiCamera nCam) (sfv : V3 → Nor) (hs : Spec.SetFromVector sfv)
    (P : Cov n nCam nPose) (ratio : ℝ) (i : Fin n) (b : Fin nCam) (L : V3) (hL : (s.updateMultiCamera mc).Describes (s.fea i).c (s.fea i).d L)
    (h : (s.fea i).c.camID ≠ b.val) (hw : (s.fea i).c.trackWarping = false) (hfar : 1e-6 < (L - s.MrMC b).norm)
    (acc acc' : Fea × (Fin nCam → List ℝ)) (hout : acc.1.d.type = .regular) (hstep : s.medianStep P mc sfv ratio i acc b = some acc')
    (hcol : acc'.2 b ≠ acc.2 b) : acc'.2 b = acc.2 b ++ [(L - s.MrMC b).norm] := by
  obtain ⟨c', d', e, h1, h2, h3, h4, h5, h6, h7, _⟩ :=
    (s.updateMultiCamera mc).transformFeature_other hq hs b hL h acc.1.c acc.1.d hfar (by rw [hout]; simp [Representable])
  have hv : s.featureOut mc sfv i b acc.1 = some { c := c', d := d' } := by
    unfold featureOut
    simp only [e, Option.bind_eq_bind, Option.bind_some, hw, Bool.false_eq_true, if_false, Option.pure_def]
  have hp : d'.p = (L - s.MrMC b).norm := by
    have : getDistance d' = d'.p := by unfold getDistance; rw [h6, hout]
    rw [← this]; exact h7
  unfold medianStep at hstep
  simp only [hv, Option.bind_eq_bind, Option.bind_some, Option.pure_def] at hstep
  by_cases hin : c'.isInFront = true
  · simp only [hin, if_true] at hstep
    cases hd : s.distVar P sfv i b with
    | none => simp [hd] at hstep
    | some v =>
      simp only [hd, Option.bind_some] at hstep
      by_cases hsm : smallUncertainty v d' ratio = true
      · simp only [hsm, if_true, Option.some.injEq] at hstep
        rw [← hstep]; simp [hp]
      · simp only [hsm, Bool.false_eq_true, if_false, Option.some.injEq] at hstep
        rw [← hstep] at hcol; exact absurd rfl hcol
  · simp only [hin, Bool.false_eq_true, if_false, Option.some.injEq] at hstep
    rw [← hstep] at hcol; exact absurd rfl hcol

/-- Finding: the quotient of the uncertainty and a negative distance is negative, so a feature whose regular distance has become
negative passes the test however uncertain it is. -/
theorem C53_finding_negative (v p ratio : ℝ) (hv : 0 ≤ v) (hp : p < 0) (hr : 0 < ratio) : smallUncertainty v ⟨.regular, p⟩ ratio = true := by
  rw [smallUncertainty_iff]
  refine ⟨hv, hp.ne, lt_of_le_of_lt ?_ hr⟩
  exact div_nonpos_of_nonneg_of_nonpos (abs_nonneg _) hp.le

end State

end Rovio
