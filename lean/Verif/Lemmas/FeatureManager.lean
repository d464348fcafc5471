import Verif.Model.FeatureManager
import Verif.Spec.FeatureManager
import Verif.Lemmas.Camera
import Mathlib.Tactic.Linarith
import Mathlib.Tactic.Positivity
import Mathlib.Tactic.Ring
import Mathlib.Tactic.FieldSimp

/-! # Helper lemmas: refinement of the bucket program to the greedy specification -/

namespace Rovio

lemma truncZ_intCast (z : ℤ) : truncZ (z : ℝ) = z := by
  unfold truncZ; split <;> simp

lemma cUInt_intCast {z : ℤ} (h0 : 0 ≤ z) (h1 : z ≤ 4294967295) : cUInt (z : ℝ) = some z.toNat := by
  unfold cUInt; rw [truncZ_intCast, if_pos ⟨h0, h1⟩]

lemma cInt_toNat {x : ℝ} (h0 : -2147483648 ≤ x) (h1 : x ≤ 2147483647) :
    (cInt x).map (fun z => (max z 0).toNat) = some ⌊x⌋₊ := by
  have hr : -2147483648 ≤ truncZ x ∧ truncZ x ≤ 2147483647 := by
    unfold truncZ
    split
    · constructor
      · apply Int.le_floor.mpr; push_cast; linarith
      · have : (⌊x⌋ : ℝ) ≤ 2147483647 := (Int.floor_le x).trans h1
        exact_mod_cast this
    · constructor
      · have : (-2147483648 : ℝ) ≤ (⌈x⌉ : ℝ) := h0.trans (Int.le_ceil x)
        exact_mod_cast this
      · apply Int.ceil_le.mpr; push_cast; linarith
  unfold cInt
  rw [if_pos hr]
  simp only [Option.map_some, Option.some.injEq]
  unfold truncZ
  split
  · rename_i h
    rw [max_eq_left (Int.floor_nonneg.mpr h), Int.floor_toNat]
  · rename_i h
    have : ⌈x⌉ ≤ 0 := Int.ceil_le.mpr (by push_cast; linarith)
    rw [max_eq_right this, Nat.floor_of_nonpos (by linarith)]; rfl

/-! ## Feature set basics -/

namespace FeatSet

variable {P : Type} {n : ℕ}

lemma getFreeIndex_some {s : FeatSet P n} {i : Fin n} (h : s.getFreeIndex = some i) :
    (s.slots i).valid = false ∧ ∀ j, j < i → (s.slots j).valid = true := by
  unfold getFreeIndex at h
  refine ⟨by simpa using List.find?_some h, ?_⟩
  intro j hj
  obtain ⟨_, as, bs, hl, hall⟩ := List.find?_eq_some_iff_append.mp h
  have hs : (List.finRange n).Pairwise (· < ·) := List.pairwise_lt_finRange n
  have hmem : j ∈ List.finRange n := List.mem_finRange j
  rw [hl] at hmem hs
  rcases List.mem_append.mp hmem with h1 | h1
  · have := hall j h1; simpa using this
  · exfalso
    rcases List.mem_cons.mp h1 with h2 | h2
    · exact absurd hj (by rw [h2]; exact lt_irrefl _)
    · have h3 := (List.pairwise_append.mp hs).2.1
      have h4 := (List.pairwise_cons.mp h3).1 j h2
      exact absurd hj (not_lt.mpr h4.le)

lemma getFreeIndex_none {s : FeatSet P n} : s.getFreeIndex = none ↔ ∀ i, (s.slots i).valid = true := by
  unfold getFreeIndex
  simp [List.find?_eq_none]

lemma foldl_count {α : Type} (p : α → Bool) (l : List α) (k : ℕ) :
    l.foldl (fun c i => if p i = true then c + 1 else c) k = k + l.countP p := by
  induction l generalizing k with
  | nil => simp
  | cons a l ih =>
    simp only [List.foldl_cons, ih, List.countP_cons]
    by_cases h : p a = true
    · simp only [h, if_true]; omega
    · simp only [h]; simp

lemma getValidCount_eq (s : FeatSet P n) :
    s.getValidCount = (Finset.univ.filter fun i => (s.slots i).valid = true).card := by
  unfold getValidCount
  rw [foldl_count (fun i => (s.slots i).valid)]
  rw [zero_add, List.countP_eq_length_filter]
  rw [Finset.card_def, Finset.filter_val]
  have : (Finset.univ : Finset (Fin n)).val = (List.finRange n : Multiset (Fin n)) := rfl
  rw [this, Multiset.filter_coe, Multiset.coe_card]
  congr 2; ext i; simp

lemma getValidCount_le (s : FeatSet P n) : s.getValidCount ≤ n := by
  rw [getValidCount_eq]; exact (Finset.card_le_univ _).trans (by simp)

lemma getValidCount_eq_n (s : FeatSet P n) : s.getValidCount = n ↔ s.getFreeIndex = none := by
  rw [getFreeIndex_none, getValidCount_eq]
  constructor
  · intro h i
    have : (Finset.univ.filter fun i => (s.slots i).valid = true) = Finset.univ :=
      Finset.eq_univ_of_card _ (by rw [h]; simp)
    have hi := Finset.mem_univ i
    rw [← this] at hi
    simpa using hi
  · intro h
    rw [Finset.filter_true_of_mem (fun i _ => h i)]; simp

/-- Occupying a free slot raises the count by one. -/
lemma getValidCount_update {s t : FeatSet P n} {i : Fin n} (hi : (s.slots i).valid = false)
    (ht : (t.slots i).valid = true) (hne : ∀ j, j ≠ i → t.slots j = s.slots j) :
    t.getValidCount = s.getValidCount + 1 := by
  rw [getValidCount_eq, getValidCount_eq]
  have : (Finset.univ.filter fun j => (t.slots j).valid = true)
      = insert i (Finset.univ.filter fun j => (s.slots j).valid = true) := by
    ext j
    by_cases hj : j = i
    · subst hj; simp [ht]
    · simp [hj, hne j hj]
  rw [this, Finset.card_insert_of_notMem]
  simp [hi]

end FeatSet

/-! ## Refinement of the buckets to ranks -/

namespace AddArgs

variable {P : Type} {n : ℕ} {A : AddArgs P} {I : USet}

open Spec (Ranks lower demote without Greedy Crit)

/-- Bucket contents and ranks describe the same candidates. -/
structure Rel (A : AddArgs P) (I : USet) (bk : Buckets I) (r : Ranks) : Prop where
  mem : ∀ b x, b < A.nb → (x ∈ I.elems (bk b) ↔ r x = some b)
  lt : ∀ x b, r x = some b → b < A.nb
  nodup : ∀ b, b < A.nb → (I.elems (bk b)).Nodup

lemma lower_le {D Z d2 : ℝ} (hZ : 0 ≤ Z) (b : ℕ) : lower D Z d2 b ≤ b := by
  unfold lower
  split
  · omega
  · split
    · rename_i hb hd
      by_cases hD : D = 0
      · subst hD
        simp only [ne_eq, OfNat.ofNat_ne_zero, not_false_eq_true, zero_pow, div_zero, sub_zero, one_mul]
        calc ⌊(b : ℝ) - Z⌋₊ ≤ ⌊(b : ℝ)⌋₊ := Nat.floor_le_floor (by linarith)
          _ = b := Nat.floor_natCast b
      · have h1 : d2 / D ^ 2 < 1 := (div_lt_one (by positivity)).mpr hd
        have : 0 ≤ (1 - d2 / D ^ 2) * Z := mul_nonneg (by linarith) hZ
        calc ⌊(b : ℝ) - (1 - d2 / D ^ 2) * Z⌋₊ ≤ ⌊(b : ℝ)⌋₊ := Nat.floor_le_floor (by linarith)
          _ = b := Nat.floor_natCast b
    · exact le_refl b

lemma sqDist_nonneg (p q : V2) : 0 ≤ sqDist p q := by unfold sqDist; positivity

lemma newBucket_eq (hA : A.Sane) {b : ℕ} {d2 : ℝ} (hb : 1 ≤ b) (hbn : b < A.nb) (hd0 : 0 ≤ d2) (hd : d2 < A.t2) :
    A.newBucket b d2 = some (lower A.penaltyDistance A.zeroPenalty d2 b) := by
  have ht : 0 < A.t2 := lt_of_le_of_lt hd0 hd
  have h1 : 0 ≤ (A.t2 - d2) / A.t2 := div_nonneg (by linarith) ht.le
  have h2 : (A.t2 - d2) / A.t2 ≤ 1 := (div_le_one ht).mpr (by linarith)
  have h3 : 0 ≤ (A.t2 - d2) / A.t2 * A.zeroPenalty := mul_nonneg h1 hA.z_nonneg
  have h4 : (A.t2 - d2) / A.t2 * A.zeroPenalty ≤ 2147483648 := by
    calc _ ≤ 1 * A.zeroPenalty := mul_le_mul_of_nonneg_right h2 hA.z_nonneg
      _ ≤ 2147483648 := by rw [one_mul]; exact hA.z_le
  have hbr : (b : ℝ) ≤ 2147483647 := by
    have : b ≤ 2147483647 := by have := hA.nb_le; omega
    exact_mod_cast this
  have hb1 : (1 : ℝ) ≤ b := by exact_mod_cast hb
  unfold newBucket
  rw [cInt_toNat (by linarith) (by linarith)]
  unfold lower
  rw [if_neg (by omega), if_pos (by exact hd)]
  congr 3
  have : A.penaltyDistance ^ 2 = A.t2 := rfl
  rw [this, sub_div, div_self ht.ne']

/-- Visiting one candidate of bucket `b` replaces its rank by the lowered one. -/
lemma visit_rel (hI : I.Lawful) (hA : A.Sane) {p : V2} {b : ℕ} (hb : 1 ≤ b) (hbn : b < A.nb)
    {bk : Buckets I} {r : Ranks} (hr : A.Rel I bk r) {x : ℕ} (hx : r x = some b) :
    ∃ bk', A.visit I p b bk x = some bk' ∧
      A.Rel I bk' (fun y => if y = x then some (lower A.penaltyDistance A.zeroPenalty (Spec.sqDist p (A.cand x)) b) else r y) ∧
      I.elems (bk' b) = if lower A.penaltyDistance A.zeroPenalty (Spec.sqDist p (A.cand x)) b = b
        then I.elems (bk b) else (I.elems (bk b)).erase x := by
  unfold visit
  have hsq : sqDist p (A.cand x) = Spec.sqDist p (A.cand x) := rfl
  simp only [hsq]
  set d2 := Spec.sqDist p (A.cand x) with hd2
  have hd0 : 0 ≤ d2 := sqDist_nonneg p (A.cand x)
  by_cases hd : d2 < A.t2
  · simp only [if_pos hd, newBucket_eq hA hb hbn hd0 hd]
    set b' := lower A.penaltyDistance A.zeroPenalty d2 b with hb'
    have hle : b' ≤ b := lower_le hA.z_nonneg b
    by_cases hbb : b = b'
    · simp only [ne_eq, ← hbb, not_true_eq_false, if_false]
      refine ⟨bk, rfl, ?_, by simp⟩
      convert hr using 1
      funext y; split
      · rename_i h; rw [h, hx]
      · rfl
    · have hb'n : b' < A.nb := by omega
      simp only [ne_eq, hbb, not_false_eq_true, if_true, if_pos hb'n]
      refine ⟨_, rfl, ?_, ?_⟩
      · have hxb : x ∉ I.elems (bk b') := by
          rw [hr.mem b' x hb'n, hx]; simp [hbb]
        have hperm := hI.insert_new (bk b') x hxb
        have hne : b' ≠ b := fun h => hbb h.symm
        refine ⟨?_, ?_, ?_⟩
        · intro c y hc
          by_cases hcb : c = b
          · subst hcb
            simp only [Function.update_self, Function.update_of_ne hbb, hI.erase]
            rw [(hr.nodup c hc).mem_erase_iff, hr.mem c y hc]
            by_cases hy : y = x
            · subst hy; simp [hne]
            · simp [hy]
          · rw [Function.update_of_ne hcb]
            by_cases hcb' : c = b'
            · rw [hcb']
              simp only [Function.update_self]
              rw [hperm.mem_iff, List.mem_cons, hr.mem b' y hb'n]
              by_cases hy : y = x
              · simp [hy]
              · simp [hy]
            · rw [Function.update_of_ne hcb', hr.mem c y hc]
              by_cases hy : y = x
              · subst hy
                simp only [hx, if_true, Option.some.injEq]
                constructor
                · intro h; exact absurd h.symm hcb
                · intro h; exact absurd h.symm hcb'
              · simp [hy]
        · intro y c hy
          by_cases hyx : y = x
          · simp only [hyx, if_true, Option.some.injEq] at hy; omega
          · simp only [hyx, if_false] at hy; exact hr.lt y c hy
        · intro c hc
          by_cases hcb : c = b
          · subst hcb
            simp only [Function.update_self, Function.update_of_ne hbb, hI.erase]
            exact (hr.nodup c hc).erase _
          · rw [Function.update_of_ne hcb]
            by_cases hcb' : c = b'
            · rw [hcb']
              simp only [Function.update_self]
              exact hperm.nodup_iff.mpr (List.nodup_cons.mpr ⟨hxb, hr.nodup b' hb'n⟩)
            · rw [Function.update_of_ne hcb']; exact hr.nodup c hc
      · have : ¬ b' = b := fun h => hbb h.symm
        simp only [Function.update_self, Function.update_of_ne hbb, hI.erase, if_neg this]
  · simp only [if_neg hd]
    have hlow : lower A.penaltyDistance A.zeroPenalty d2 b = b := by
      unfold lower; rw [if_neg (by omega), if_neg (by exact hd)]
    refine ⟨bk, rfl, ?_, by simp [hlow]⟩
    rw [hlow]
    convert hr using 1
    funext y; split
    · rename_i h; rw [h, hx]
    · rfl

lemma visits_rel (hI : I.Lawful) (hA : A.Sane) {p : V2} {b : ℕ} (hb : 1 ≤ b) (hbn : b < A.nb)
    (l : List ℕ) : ∀ {bk : Buckets I} {r : Ranks}, A.Rel I bk r → (∀ x ∈ l, r x = some b) → l.Nodup →
    ∃ bk', l.foldlM (A.visit I p b) bk = some bk' ∧
      A.Rel I bk' (fun y => if y ∈ l then some (lower A.penaltyDistance A.zeroPenalty (Spec.sqDist p (A.cand y)) b) else r y) := by
  induction l with
  | nil => intro bk r hr _ _; exact ⟨bk, rfl, by simpa using hr⟩
  | cons x l ih =>
    intro bk r hr hl hnd
    obtain ⟨bk1, h1, h2, _⟩ := visit_rel hI hA (p := p) hb hbn hr (hl x (by simp))
    obtain ⟨hxl, hnd'⟩ := List.nodup_cons.mp hnd
    obtain ⟨bk2, h3, h4⟩ := ih h2 (by
      intro y hy
      have : y ≠ x := fun h => hxl (h ▸ hy)
      simp only [this, if_false]
      exact hl y (by simp [hy])) hnd'
    refine ⟨bk2, ?_, ?_⟩
    · simp [List.foldlM_cons, h1, h3]
    · convert h4 using 1
      funext y
      by_cases hy : y ∈ l
      · simp [hy]
      · by_cases hyx : y = x
        · subst hyx; simp [hy]
        · simp [hy, hyx]

/-- Ranks after the buckets `1..k` have been penalised. -/
noncomputable def demoteUpTo (A : AddArgs P) (p : V2) (k : ℕ) (r : Ranks) : Ranks :=
  fun x => (r x).map fun b => if b ≤ k then lower A.penaltyDistance A.zeroPenalty (Spec.sqDist p (A.cand x)) b else b

lemma penalise_rel (hI : I.Lawful) (hA : A.Sane) {p : V2} {bk : Buckets I} {r : Ranks} (hr : A.Rel I bk r)
    (k : ℕ) (hk : k < A.nb) :
    ∃ bk', A.penalise I p k bk = some bk' ∧ A.Rel I bk' (A.demoteUpTo p k r) := by
  induction k with
  | zero =>
    refine ⟨bk, rfl, ?_⟩
    convert hr using 1
    funext x
    unfold demoteUpTo
    cases h : r x with
    | none => rfl
    | some b =>
      simp only [Option.map_some, Option.some.injEq]
      split
      · have : b = 0 := by omega
        subst this; simp [lower]
      · rfl
  | succ k ih =>
    obtain ⟨bk1, h1, h2⟩ := ih (by omega)
    have hmem : ∀ x, x ∈ I.elems (bk1 (k + 1)) ↔ A.demoteUpTo p k r x = some (k + 1) := fun x => h2.mem _ x hk
    have hiff : ∀ x, A.demoteUpTo p k r x = some (k + 1) ↔ r x = some (k + 1) := by
      intro x
      unfold demoteUpTo
      cases h : r x with
      | none => simp
      | some b =>
        simp only [Option.map_some, Option.some.injEq]
        split
        · have := lower_le (D := A.penaltyDistance) (d2 := Spec.sqDist p (A.cand x)) hA.z_nonneg b
          omega
        · rfl
    obtain ⟨bk2, h3, h4⟩ := visits_rel hI hA (p := p) (by omega : 1 ≤ k + 1) hk (I.elems (bk1 (k + 1))) h2
      (fun x hx => (hmem x).mp hx) (h2.nodup _ hk)
    refine ⟨bk2, ?_, ?_⟩
    · unfold penalise at h1 ⊢
      rw [List.range'_concat, List.foldlM_append, h1]
      simp only [Option.bind_eq_bind, Option.bind_some, one_mul, List.foldlM_cons, List.foldlM_nil]
      rw [show 1 + k = k + 1 by omega]
      simp [penaliseBucket, h3]
    · convert h4 using 1
      funext x
      by_cases hx : r x = some (k + 1)
      · have : x ∈ I.elems (bk1 (k + 1)) := (hmem x).mpr ((hiff x).mpr hx)
        simp [this, demoteUpTo, hx]
      · have : x ∉ I.elems (bk1 (k + 1)) := fun h => hx ((hiff x).mp ((hmem x).mp h))
        simp only [this, if_false]
        unfold demoteUpTo
        cases h : r x with
        | none => rfl
        | some b =>
          have hb : b ≠ k + 1 := by intro hb; apply hx; rw [h, hb]
          simp only [Option.map_some, Option.some.injEq]
          by_cases hbk : b ≤ k
          · rw [if_pos (by omega), if_pos hbk]
          · rw [if_neg (by omega), if_neg hbk]

lemma demoteUpTo_eq {p : V2} {k : ℕ} {r : Ranks} (h : ∀ x b, r x = some b → b ≤ k) :
    A.demoteUpTo p k r = demote A.penaltyDistance A.zeroPenalty A.cand p r := by
  funext x
  unfold demoteUpTo demote
  cases hx : r x with
  | none => rfl
  | some b => simp [h x b hx]

lemma penaliseExisting_rel (hI : I.Lawful) (hA : A.Sane) (s : FeatSet P n) {bk : Buckets I} {r : Ranks}
    (hr : A.Rel I bk r) : ∃ bk', A.penaliseExisting I s bk = some bk' ∧
      A.Rel I bk' (Spec.demoteAll A.penaltyDistance A.zeroPenalty A.cand
        ((List.finRange n).filterMap fun i => if (s.slots i).valid then A.view (s.slots i) else none) r) := by
  unfold penaliseExisting Spec.demoteAll
  generalize List.finRange n = l
  induction l generalizing bk r with
  | nil => exact ⟨bk, rfl, hr⟩
  | cons i l ih =>
    simp only [List.foldlM_cons, Option.bind_eq_bind]
    by_cases hv : (s.slots i).valid = true
    · cases hview : A.view (s.slots i) with
      | none =>
        rw [List.filterMap_cons_none (by simp [hv, hview])]
        simpa [hv, hview] using ih hr
      | some p =>
        obtain ⟨bk1, h1, h2⟩ := penalise_rel hI hA (p := p) hr (A.nb - 1) (by have := hA.nb_pos; omega)
        rw [demoteUpTo_eq (fun x b hx => by have := hr.lt x b hx; omega)] at h2
        rw [List.filterMap_cons_some (b := p) (by simp [hv, hview])]
        simpa [hv, hview, h1] using ih h2
    · rw [List.filterMap_cons_none (by simp [hv])]
      simpa [hv] using ih hr

lemma maxScore_fold (A : AddArgs P) (l : List ℕ) (m : ℝ) :
    let r := l.foldl (fun m i => if A.inFrame i then (if A.shi i > m then A.shi i else m) else m) m
    m ≤ r ∧ (∀ i ∈ l, A.inFrame i = true → A.shi i ≤ r) ∧ (r = m ∨ ∃ i ∈ l, A.inFrame i = true ∧ A.shi i = r) := by
  induction l generalizing m with
  | nil => simp
  | cons a l ih =>
    simp only [List.foldl_cons]
    obtain ⟨h1, h2, h3⟩ := ih (if A.inFrame a then (if A.shi a > m then A.shi a else m) else m)
    have hge : m ≤ (if A.inFrame a then (if A.shi a > m then A.shi a else m) else m) := by
      split
      · split
        · rename_i h; exact h.le
        · exact le_refl _
      · exact le_refl _
    have hga : A.inFrame a = true → A.shi a ≤ (if A.inFrame a then (if A.shi a > m then A.shi a else m) else m) := by
      intro h; rw [if_pos h]
      split
      · exact le_refl _
      · rename_i h; exact not_lt.mp h
    refine ⟨hge.trans h1, ?_, ?_⟩
    · intro i hi hf
      rcases List.mem_cons.mp hi with h | h
      · subst h; exact (hga hf).trans h1
      · exact h2 i h hf
    · rcases h3 with h | ⟨i, hi, hf, hs⟩
      · by_cases ha : A.inFrame a = true
        · by_cases hm : A.shi a > m
          · right
            refine ⟨a, by simp, ha, ?_⟩
            rw [h, if_pos ha, if_pos hm]
          · left; rw [h, if_pos ha, if_neg hm]
        · left; rw [h, if_neg ha]
      · right; exact ⟨i, by simp [hi], hf, hs⟩

lemma neg_one_le_maxScore (A : AddArgs P) : -1 ≤ A.maxScore := by
  have := (maxScore_fold A (List.range A.nc) (-1.0)).1
  unfold maxScore
  norm_num at this ⊢
  exact this

lemma score_le_maxScore {x : ℕ} (hx : x < A.nc) : A.score x ≤ A.maxScore := by
  unfold score
  split
  · rename_i h
    exact (maxScore_fold A (List.range A.nc) (-1.0)).2.1 x (by simpa using hx) h
  · exact neg_one_le_maxScore A

lemma fillOne_eq (hA : A.Sane) (hm : A.minScore < A.maxScore) {bk : Buckets I} {x : ℕ} (hx : x < A.nc) :
    A.fillOne I bk x = match Spec.scoreRank A.nb A.exponent A.minScore A.maxScore (A.score x) with
      | some b => some (Function.update bk b (I.insert (bk b) x))
      | none => some bk := by
  unfold fillOne Spec.scoreRank
  set rel := (A.score x - A.minScore) / (A.maxScore - A.minScore) with hrel
  have hz : (0.0 : ℝ) = 0 := by norm_num
  simp only [hz, gt_iff_lt]
  by_cases hpos : 0 < rel
  · simp only [if_pos hpos]
    have hle : rel ≤ 1 := by
      rw [hrel, div_le_one (by linarith)]
      linarith [score_le_maxScore (A := A) hx]
    have hpow : rel ^ A.exponent ≤ 1 := Real.rpow_le_one hpos.le hle hA.exp_nonneg
    have hpow0 : 0 ≤ rel ^ A.exponent := Real.rpow_nonneg hpos.le _
    have hnb : (0 : ℝ) ≤ (A.nb : ℝ) - 1 := by
      have : (1 : ℝ) ≤ A.nb := by exact_mod_cast hA.nb_pos
      linarith
    set y := ((A.nb : ℝ) - 1) * rel ^ A.exponent with hy
    have hy0 : 0 ≤ y := mul_nonneg hnb hpow0
    have hy1 : y ≤ (A.nb : ℝ) - 1 := by
      calc y ≤ ((A.nb : ℝ) - 1) * 1 := mul_le_mul_of_nonneg_left hpow hnb
        _ = _ := mul_one _
    have hc0 : 0 ≤ ⌈y⌉ := Int.ceil_nonneg hy0
    have hc1 : ⌈y⌉ ≤ (A.nb : ℤ) - 1 := Int.ceil_le.mpr (by push_cast; exact hy1)
    have hnbz : (A.nb : ℤ) ≤ 2147483648 := by exact_mod_cast hA.nb_le
    rw [cUInt_intCast hc0 (by linarith)]
    have hcn : ⌈y⌉.toNat = ⌈y⌉₊ := Int.ceil_toNat y
    have hlt : ⌈y⌉₊ ≤ A.nb - 1 := by
      rw [← hcn]; have := hA.nb_pos; omega
    rw [hcn]
    have : ¬ A.nb - 1 < ⌈y⌉₊ := not_lt.mpr hlt
    simp only [this, if_false]
    have hnbp := hA.nb_pos
    rw [if_pos (by omega), Nat.min_eq_left hlt]
  · simp only [if_neg hpos]

lemma scoreRank_lt {nb : ℕ} (hnb : 1 ≤ nb) {e mi ma s : ℝ} {b : ℕ} (h : Spec.scoreRank nb e mi ma s = some b) : b < nb := by
  unfold Spec.scoreRank at h
  simp only at h
  split at h
  · simp only [Option.some.injEq] at h
    have := Nat.min_le_right ⌈((nb : ℝ) - 1) * ((s - mi) / (ma - mi)) ^ e⌉₊ (nb - 1)
    omega
  · simp at h

lemma fill_rel (hI : I.Lawful) (hA : A.Sane) (hm : A.minScore < A.maxScore) :
    ∃ bk, A.fill I = some bk ∧ A.Rel I bk A.initRanks := by
  unfold fill
  suffices h : ∀ k, k ≤ A.nc → ∃ bk, (List.range k).foldlM (A.fillOne I) (fun _ => I.empty) = some bk ∧
      A.Rel I bk (fun x => if x < k then Spec.scoreRank A.nb A.exponent A.minScore A.maxScore (A.score x) else none) from
    h A.nc le_rfl
  intro k
  induction k with
  | zero =>
    intro _
    refine ⟨fun _ => I.empty, rfl, ⟨?_, ?_, ?_⟩⟩ <;> simp [hI.empty]
  | succ k ih =>
    intro hk
    obtain ⟨bk, h1, h2⟩ := ih (by omega)
    rw [List.range_succ, List.foldlM_append, h1]
    simp only [Option.bind_eq_bind, Option.bind_some, List.foldlM_cons, List.foldlM_nil]
    rw [fillOne_eq hA hm (by omega : k < A.nc)]
    cases hs : Spec.scoreRank A.nb A.exponent A.minScore A.maxScore (A.score k) with
    | none =>
      refine ⟨bk, by simp, ?_⟩
      convert h2 using 1
      funext x
      by_cases hx : x = k
      · subst hx; simp [hs]
      · have : x < k + 1 ↔ x < k := by omega
        simp [this]
    | some b =>
      have hb : b < A.nb := scoreRank_lt hA.nb_pos hs
      have hkb : ∀ c, c < A.nb → k ∉ I.elems (bk c) := by
        intro c hc; rw [h2.mem c k hc]; simp
      have hperm := hI.insert_new (bk b) k (hkb b hb)
      refine ⟨Function.update bk b (I.insert (bk b) k), by simp, ⟨?_, ?_, ?_⟩⟩
      · intro c x hc
        by_cases hcb : c = b
        · subst hcb
          simp only [Function.update_self]
          rw [hperm.mem_iff, List.mem_cons, h2.mem c x hc]
          by_cases hx : x = k
          · subst hx; simp [hs]
          · have : x < k + 1 ↔ x < k := by omega
            simp [hx, this]
        · rw [Function.update_of_ne hcb, h2.mem c x hc]
          by_cases hx : x = k
          · subst hx
            simp only [lt_irrefl, if_false, Nat.lt_succ_self, if_true, hs, Option.some.injEq]
            constructor
            · intro h; simp at h
            · intro h; exact absurd h.symm hcb
          · have : x < k + 1 ↔ x < k := by omega
            simp [this]
      · intro x c hx
        split at hx
        · exact scoreRank_lt hA.nb_pos hx
        · simp at hx
      · intro c hc
        by_cases hcb : c = b
        · subst hcb
          simp only [Function.update_self]
          exact hperm.nodup_iff.mpr (List.nodup_cons.mpr ⟨hkb c hc, h2.nodup c hc⟩)
        · rw [Function.update_of_ne hcb]; exact h2.nodup c hc

/-! ## Placement of picked candidates -/

/-- `picks` were placed one after the other into the lowest free slots `ss`. -/
inductive Placed (A : AddArgs P) : FeatSet P n → List ℕ → List (Fin n) → FeatSet P n → Prop
  | nil (s) : Placed A s [] [] s
  | cons (s t : FeatSet P n) (x : ℕ) (i : Fin n) (xs ss) (hfree : s.getFreeIndex = some i)
      (rest : Placed A { slots := Function.update s.slots i (A.writeFeature { s.slots i with idx := s.maxIdx, valid := true } x),
                         maxIdx := s.maxIdx + 1 } xs ss t) : Placed A s (x :: xs) (i :: ss) t

lemma Placed.append {s t u : FeatSet P n} {xs ys : List ℕ} {ss ts : List (Fin n)} (h1 : Placed A s xs ss t) (h2 : Placed A t ys ts u) :
    Placed A s (xs ++ ys) (ss ++ ts) u := by
  induction h1 with
  | nil => simpa using h2
  | cons s t x i xs ss hf _ ih => exact .cons s u x i _ _ hf (ih h2)

/-- Remaining budget of the loop. -/
def budget (A : AddArgs P) (st : St P n I) : ℕ := min (A.maxAdded - st.added).toNat (n - st.set.getValidCount)

lemma placeOne_count {s : FeatSet P n} {i : Fin n} (x : ℕ) (hf : s.getFreeIndex = some i) :
    FeatSet.getValidCount (⟨Function.update s.slots i (A.writeFeature { s.slots i with idx := s.maxIdx, valid := true } x),
      s.maxIdx + 1⟩ : FeatSet P n) = s.getValidCount + 1 := by
  apply FeatSet.getValidCount_update (FeatSet.getFreeIndex_some hf).1
  · simp [writeFeature]
  · intro j hj; simp [Function.update_of_ne hj]

lemma demote_le {D Z : ℝ} (hZ : 0 ≤ Z) {cand : ℕ → V2} {p : V2} {r : Ranks} {k : ℕ} (h : ∀ x b, r x = some b → b ≤ k) :
    ∀ x b, demote D Z cand p r x = some b → b ≤ k := by
  intro x b hb
  unfold demote at hb
  cases hx : r x with
  | none => rw [hx] at hb; simp at hb
  | some c =>
    rw [hx] at hb
    simp only [Option.map_some, Option.some.injEq] at hb
    have := lower_le (D := D) (d2 := Spec.sqDist p (cand x)) hZ c
    have := h x c hx
    omega

lemma without_le {r : Ranks} {k z : ℕ} (h : ∀ x b, r x = some b → b ≤ k) : ∀ x b, without r z x = some b → b ≤ k := by
  intro x b hb
  unfold without at hb
  split at hb
  · simp at hb
  · exact h x b hb

lemma erase_rel (hI : I.Lawful) {bk : Buckets I} {r : Ranks} (hr : A.Rel I bk r) {b x : ℕ} (hx : r x = some b) :
    A.Rel I (Function.update bk b (I.erase (bk b) x)) (without r x) := by
  refine ⟨?_, ?_, ?_⟩
  · intro c y hc
    by_cases hcb : c = b
    · subst hcb
      rw [Function.update_self, hI.erase, (hr.nodup c hc).mem_erase_iff, hr.mem c y hc]
      unfold without
      by_cases hy : y = x <;> simp [hy]
    · rw [Function.update_of_ne hcb, hr.mem c y hc]
      unfold without
      by_cases hy : y = x
      · subst hy
        simp only [hx, if_true, Option.some.injEq]
        constructor
        · intro h; exact absurd h.symm hcb
        · intro h; simp at h
      · simp [hy]
  · intro y c hy
    unfold without at hy
    split at hy
    · simp at hy
    · exact hr.lt y c hy
  · intro c hc
    by_cases hcb : c = b
    · subst hcb; rw [Function.update_self, hI.erase]; exact (hr.nodup c hc).erase _
    · rw [Function.update_of_ne hcb]; exact hr.nodup c hc

lemma whileBucket_spec (hI : I.Lawful) (hA : A.Sane) {lo b : ℕ} (hlo : lo ≤ b) (hb : b < A.nb) (fuel : ℕ) :
    ∀ (st : St P n I) (r : Ranks), A.Rel I st.bk r → (∀ x c, r x = some c → c ≤ b) →
      n - st.set.getValidCount < fuel →
    ∃ st' r' picks ss, A.whileBucket I b fuel st = some st' ∧ A.Rel I st'.bk r' ∧
      (∀ rest, Greedy A.penaltyDistance A.zeroPenalty A.cand lo r' (A.budget st') rest →
        Greedy A.penaltyDistance A.zeroPenalty A.cand lo r (A.budget st) (picks ++ rest)) ∧
      Placed A st.set picks ss st'.set ∧ st'.ids = st.ids ∪ ss.toFinset ∧
      (A.budget st' = 0 ∨ ∀ x c, r' x = some c → c < b) ∧ (∀ x c, r' x = some c → c ≤ b) := by
  induction fuel with
  | zero => intro st r _ _ h; omega
  | succ fuel ih =>
    intro st r hr hle hfuel
    unfold whileBucket
    cases hel : I.elems (st.bk b) with
    | nil =>
      refine ⟨st, r, [], [], rfl, hr, fun rest h => by simpa using h, .nil _, by simp, Or.inr ?_, hle⟩
      intro x c hx
      rcases (hle x c hx).lt_or_eq with h | h
      · exact h
      · subst h
        have := (hr.mem c x hb).mpr hx
        rw [hel] at this; simp at this
    | cons nf tl =>
      simp only
      by_cases hc : st.added < A.maxAdded ∧ st.set.getValidCount ≠ n
      · rw [if_pos hc]
        have hnf : r nf = some b := (hr.mem b nf hb).mp (by rw [hel]; simp)
        have hle' : st.set.getValidCount ≤ n := FeatSet.getValidCount_le _
        have hex : ∃ i, st.set.getFreeIndex = some i := by
          cases hf : st.set.getFreeIndex with
          | none => exact absurd ((FeatSet.getValidCount_eq_n _).mpr hf) hc.2
          | some i => exact ⟨i, rfl⟩
        obtain ⟨i, hi⟩ := hex
        have hr1 := erase_rel hI hr hnf
        obtain ⟨bk2, hp, hr2⟩ := penalise_rel hI hA (p := A.cand nf) hr1 b hb
        rw [demoteUpTo_eq (without_le hle)] at hr2
        simp only [FeatSet.makeNewFeature, hi, hp, Function.update_self, Function.update_idem]
        set st1 : St P n I := ⟨⟨Function.update st.set.slots i (A.writeFeature { st.set.slots i with idx := st.set.maxIdx, valid := true } nf),
          st.set.maxIdx + 1⟩, bk2, st.added + 1, insert i st.ids⟩ with hst1
        have hcnt : st1.set.getValidCount = st.set.getValidCount + 1 := placeOne_count nf hi
        have hbud : A.budget st = A.budget st1 + 1 := by
          have hn := hc.2
          have h1 := hc.1
          have e1 : st1.added = st.added + 1 := rfl
          unfold budget
          rw [hcnt, e1]
          omega
        obtain ⟨st', r', picks, ss, g1, g2, g3, g4, g5, g6, g7⟩ := ih st1 _ hr2 (demote_le hA.z_nonneg (without_le hle)) (by omega)
        refine ⟨st', r', nf :: picks, i :: ss, g1, g2, ?_, .cons _ _ _ _ _ _ hi g4, ?_, g6, g7⟩
        · intro rest hrest
          rw [hbud]
          exact Greedy.pick r _ nf b _ hnf hlo (fun y c hy => hle y c hy) (g3 rest hrest)
        · rw [g5]
          ext j
          simp only [hst1, Finset.mem_union, Finset.mem_insert, List.mem_toFinset, List.mem_cons]
          tauto
      · rw [if_neg hc]
        refine ⟨st, r, [], [], rfl, hr, fun rest h => by simpa using h, .nil _, by simp, Or.inl ?_, hle⟩
        unfold budget
        by_cases h1 : st.added < A.maxAdded
        · have : st.set.getValidCount = n := by
            by_contra h2; exact hc ⟨h1, h2⟩
          omega
        · omega

lemma addLoop_spec (hI : I.Lawful) (hA : A.Sane) {lo : ℕ} (k : ℕ) (hk : lo + k ≤ A.nb) :
    ∀ (st : St P n I) (r : Ranks), A.Rel I st.bk r → (A.budget st = 0 ∨ ∀ x c, r x = some c → c < lo + k) →
    ∃ st' picks ss, A.addLoop I lo k st = some st' ∧
      Greedy A.penaltyDistance A.zeroPenalty A.cand lo r (A.budget st) picks ∧
      Placed A st.set picks ss st'.set ∧ st'.ids = st.ids ∪ ss.toFinset := by
  induction k with
  | zero =>
    intro st r hr hb
    refine ⟨st, [], [], rfl, .stop _ _ (by simpa using hb), .nil _, by simp⟩
  | succ k ih =>
    intro st r hr hb
    unfold addLoop
    rcases hb with hb | hb
    · -- budget exhausted: nothing happens
      have hstop : ∀ c, A.whileBucket I c (n + 1) st = some st := by
        intro c
        unfold whileBucket
        cases I.elems (st.bk c) with
        | nil => rfl
        | cons nf tl =>
          simp only
          rw [if_neg]
          rintro ⟨h1, h2⟩
          have := FeatSet.getValidCount_le st.set
          unfold budget at hb
          omega
      rw [hstop]
      obtain ⟨st', picks, ss, g⟩ := ih (by omega) st r hr (Or.inl hb)
      exact ⟨st', picks, ss, g⟩
    · obtain ⟨st1, r1, p1, s1, h1, h2, h3, h4, h5, h6, h7⟩ := whileBucket_spec (lo := lo) hI hA (by omega : lo ≤ lo + k) (by omega)
        (n + 1) st r hr (fun x c hx => by have := hb x c hx; omega) (by omega)
      simp only [h1]
      obtain ⟨st', picks, ss, g1, g2, g3, g4⟩ := ih (by omega) st1 r1 h2 h6
      refine ⟨st', p1 ++ picks, s1 ++ ss, g1, h3 _ g2, h4.append g3, ?_⟩
      rw [g4, h5]; ext j; simp

/-- Main refinement: the bucket program is a greedy selection. -/
lemma addBestCandidates_spec (hI : I.Lawful) (hA : A.Sane) (s : FeatSet P n) (hm : A.minScore < A.maxScore) :
    ∃ picks ss t, A.addBestCandidates I s = some (t, ss.toFinset) ∧
      Greedy A.penaltyDistance A.zeroPenalty A.cand (if A.requireMax then 0 else 1) (Spec.demoteAll A.penaltyDistance A.zeroPenalty A.cand (A.seen s) A.initRanks)
        (min A.maxAdded.toNat (n - s.getValidCount)) picks ∧
      Placed A s picks ss t := by
  unfold addBestCandidates
  rw [if_neg (not_le.mpr hm)]
  obtain ⟨bk, h1, h2⟩ := fill_rel hI hA hm
  obtain ⟨bk2, h3, h4⟩ := penaliseExisting_rel hI hA s h2
  simp only [h1, h3]
  have hnb := hA.nb_pos
  have hlo : (if A.requireMax = true then 0 else 1) ≤ A.nb := by split <;> omega
  set lo := if A.requireMax = true then 0 else 1 with hlod
  obtain ⟨st', picks, ss, g1, g2, g3, g4⟩ := addLoop_spec (lo := lo) hI hA (A.nb - lo) (by omega) ⟨s, bk2, 0, ∅⟩ _ h4
    (Or.inr (fun x c hx => by have := h4.lt x c hx; omega))
  refine ⟨picks, ss, st'.set, ?_, ?_, g3⟩
  · rw [g1]; simp [g4]
  · simpa [budget, seen] using g2

/-! ## Consequences of a placement -/

lemma Placed.length {s t : FeatSet P n} {xs ss} (h : Placed A s xs ss t) : ss.length = xs.length := by
  induction h with
  | nil => rfl
  | cons _ _ _ _ _ _ _ _ ih => simp [ih]

lemma Placed.maxIdx {s t : FeatSet P n} {xs ss} (h : Placed A s xs ss t) : t.maxIdx = s.maxIdx + xs.length := by
  induction h with
  | nil => simp
  | cons _ _ _ _ _ _ _ _ ih => rw [ih]; simp; omega

lemma Placed.free {s t : FeatSet P n} {xs ss} (h : Placed A s xs ss t) :
    (∀ i ∈ ss, (s.slots i).valid = false) ∧ ss.Nodup ∧ (∀ i, i ∉ ss → t.slots i = s.slots i) := by
  induction h with
  | nil => simp
  | cons s t x i xs ss hf rest ih =>
    obtain ⟨h1, h2, h3⟩ := ih
    have hi : i ∉ ss := by
      intro hmem
      have := h1 i hmem
      simp [writeFeature] at this
    refine ⟨?_, List.nodup_cons.mpr ⟨hi, h2⟩, ?_⟩
    · intro j hj
      rcases List.mem_cons.mp hj with h | h
      · subst h; exact (FeatSet.getFreeIndex_some hf).1
      · have hji : j ≠ i := fun e => hi (e ▸ h)
        have := h1 j h
        simpa [Function.update_of_ne hji] using this
    · intro j hj
      simp only [List.mem_cons, not_or] at hj
      rw [h3 j hj.2]
      simp [Function.update_of_ne hj.1]

/-- The `k`-th pick sits in slot `ss[k]` with the `k`-th new identifier. -/
lemma Placed.slot {s t : FeatSet P n} {xs ss} (h : Placed A s xs ss t) :
    ∀ (k : ℕ) x i, xs[k]? = some x → ss[k]? = some i →
      t.slots i = A.writeFeature { s.slots i with idx := (s.maxIdx + k : ℕ), valid := true } x := by
  induction h with
  | nil => intro k x i h; simp at h
  | cons s t x i xs ss hf rest ih =>
    intro k y j hy hj
    obtain ⟨h1, h2, h3⟩ := rest.free
    have hi : i ∉ ss := by
      intro hmem
      have := h1 i hmem
      simp [writeFeature] at this
    cases k with
    | zero =>
      simp only [List.getElem?_cons_zero, Option.some.injEq] at hy hj
      subst hy; subst hj
      rw [h3 i hi]; simp
    | succ k =>
      simp only [List.getElem?_cons_succ] at hy hj
      have hji : j ≠ i := by
        intro e; exact hi (e ▸ List.mem_of_getElem? hj)
      rw [ih k y j hy hj]
      simp only [Function.update_of_ne hji]
      congr 3
      omega

lemma Placed.count {s t : FeatSet P n} {xs ss} (h : Placed A s xs ss t) :
    t.getValidCount = s.getValidCount + xs.length := by
  induction h with
  | nil => simp
  | cons s t x i xs ss hf rest ih =>
    rw [ih, placeOne_count x hf]; simp; omega

lemma Placed.index {s t : FeatSet P n} {xs ss} (h : Placed A s xs ss t) {i : Fin n} (hi : i ∈ ss) :
    ∃ (k : ℕ) (x : ℕ), xs[k]? = some x ∧ ss[k]? = some i := by
  obtain ⟨k, hk, hki⟩ := List.mem_iff_getElem.mp hi
  have hk' : k < xs.length := by rw [← h.length]; exact hk
  exact ⟨k, xs[k], List.getElem?_eq_getElem hk', by rw [List.getElem?_eq_getElem hk, hki]⟩

/-! ## Consequences of a greedy selection -/

section Greedy
variable {D Z : ℝ} {cand : ℕ → V2} {lo : ℕ}

lemma demote_isSome {p : V2} {r : Ranks} {x : ℕ} : (demote D Z cand p r x).isSome = (r x).isSome := by
  unfold demote; cases r x <;> rfl

lemma greedy_length {r : Ranks} {b : ℕ} {xs : List ℕ} (h : Greedy D Z cand lo r b xs) : xs.length ≤ b := by
  induction h with
  | stop => simp
  | pick r b x c xs _ _ _ _ ih => simp; exact ih

lemma greedy_mem {r : Ranks} {b : ℕ} {xs : List ℕ} (h : Greedy D Z cand lo r b xs) :
    xs.Nodup ∧ ∀ x ∈ xs, (r x).isSome := by
  induction h with
  | stop => simp
  | pick r b x c xs hx _ _ _ ih =>
    obtain ⟨h1, h2⟩ := ih
    have hn : x ∉ xs := by
      intro hm
      have := h2 x hm
      rw [demote_isSome] at this
      simp [without] at this
    refine ⟨List.nodup_cons.mpr ⟨hn, h1⟩, ?_⟩
    intro y hy
    rcases List.mem_cons.mp hy with e | e
    · subst e; simp [hx]
    · have := h2 y e
      rw [demote_isSome] at this
      unfold without at this
      split at this
      · simp at this
      · exact this

/-- A selection that accepts rank zero uses up the budget or all candidates. -/
lemma greedy_all {r : Ranks} {b : ℕ} {xs : List ℕ} (h : Greedy D Z cand 0 r b xs) (S : Finset ℕ)
    (hS : ∀ x, x ∈ S ↔ (r x).isSome) : xs.length = min b S.card := by
  induction h generalizing S with
  | stop r b hb =>
    rcases hb with hb | hb
    · simp [hb]
    · have : S = ∅ := by
        ext x
        simp only [Finset.notMem_empty, iff_false, hS]
        intro hx
        obtain ⟨c, hc⟩ := Option.isSome_iff_exists.mp hx
        have := hb x c hc
        omega
      simp [this]
  | pick r b x c xs hx _ _ _ ih =>
    have hxS : x ∈ S := (hS x).mpr (by simp [hx])
    rw [List.length_cons, ih (S.erase x) ?_]
    · rw [Finset.card_erase_of_mem hxS]
      have : 0 < S.card := Finset.card_pos.mpr ⟨x, hxS⟩
      omega
    · intro y
      rw [demote_isSome, Finset.mem_erase, hS]
      unfold without
      by_cases hy : y = x <;> simp [hy]

lemma lower_crit {d2 : ℝ} {nb b : ℕ} (hb : b < nb) (hc : Crit D Z nb d2) : lower D Z d2 b = 0 := by
  unfold lower
  split
  · rfl
  · rw [if_pos hc.1]
    rw [Nat.floor_eq_zero]
    have : (b : ℝ) ≤ nb - 1 := by
      have : b + 1 ≤ nb := hb
      have : ((b + 1 : ℕ) : ℝ) ≤ nb := by exact_mod_cast this
      push_cast at this; linarith
    linarith [hc.2]

lemma lower_zero {d2 : ℝ} : lower D Z d2 0 = 0 := by simp [lower]

/-- Rank zero is never picked when `lo = 1`, and stays zero. -/
lemma greedy_not_zero (hlo : 1 ≤ lo) {r : Ranks} {b : ℕ} {xs : List ℕ} (h : Greedy D Z cand lo r b xs) :
    ∀ x, r x = some 0 → x ∉ xs := by
  induction h with
  | stop => simp
  | pick r b x c xs hx hc _ _ ih =>
    intro y hy hm
    have hyx : y ≠ x := by
      intro e; subst e; rw [hy] at hx
      simp only [Option.some.injEq] at hx; omega
    rcases List.mem_cons.mp hm with e | e
    · exact hyx e
    · refine ih y ?_ e
      simp [demote, without, hyx, hy, lower_zero]

lemma greedy_apart (hZ : 0 ≤ Z) (hlo : 1 ≤ lo) {nb : ℕ} {r : Ranks} {b : ℕ} {xs : List ℕ} (h : Greedy D Z cand lo r b xs)
    (hr : ∀ x c, r x = some c → c < nb) :
    xs.Pairwise (fun x y => ¬ Crit D Z nb (Spec.sqDist (cand x) (cand y))) := by
  induction h with
  | stop => simp
  | pick r b x c xs hx hc _ hrest ih =>
    have hr' : ∀ y c, without r x y = some c → c ≤ nb - 1 := by
      intro y c hy
      unfold without at hy
      split at hy
      · simp at hy
      · have := hr y c hy; omega
    have hnb : 0 < nb := lt_of_le_of_lt (Nat.zero_le _) (hr x c hx)
    refine List.pairwise_cons.mpr ⟨?_, ih ?_⟩
    · intro y hy hcrit
      have hs := (greedy_mem hrest).2 y hy
      rw [demote_isSome] at hs
      obtain ⟨c', hc'⟩ := Option.isSome_iff_exists.mp hs
      have hlt := hr' y c' hc'
      refine greedy_not_zero hlo hrest y ?_ hy
      simp only [demote, hc', Option.map_some, Option.some.injEq]
      exact lower_crit (by omega) hcrit
    · intro y c' hy
      have := demote_le hZ hr' y c' hy
      omega

end Greedy

lemma demoteAll_isSome {D Z : ℝ} {cand : ℕ → V2} {ps : List V2} {r : Ranks} {x : ℕ} :
    (Spec.demoteAll D Z cand ps r x).isSome = (r x).isSome := by
  unfold Spec.demoteAll
  induction ps generalizing r with
  | nil => rfl
  | cons p ps ih => rw [List.foldl_cons, ih, demote_isSome]

lemma demoteAll_le {D Z : ℝ} (hZ : 0 ≤ Z) {cand : ℕ → V2} {ps : List V2} {r : Ranks} {k : ℕ} (h : ∀ x c, r x = some c → c ≤ k) :
    ∀ x c, Spec.demoteAll D Z cand ps r x = some c → c ≤ k := by
  unfold Spec.demoteAll
  induction ps generalizing r with
  | nil => exact h
  | cons p ps ih => rw [List.foldl_cons]; exact ih (demote_le hZ h)

/-- A visible existing feature pushes critical candidates to rank zero. -/
lemma demoteAll_crit {D Z : ℝ} (hZ : 0 ≤ Z) {cand : ℕ → V2} {ps : List V2} {r : Ranks} {nb : ℕ}
    (h : ∀ x c, r x = some c → c ≤ nb - 1) (hnb : 1 ≤ nb) {p : V2} (hp : p ∈ ps) {x : ℕ}
    (hx : (r x).isSome) (hc : Crit D Z nb (Spec.sqDist p (cand x))) :
    Spec.demoteAll D Z cand ps r x = some 0 := by
  have zero_stays : ∀ (l : List V2) (r : Ranks), r x = some 0 → Spec.demoteAll D Z cand l r x = some 0 := by
    intro l
    unfold Spec.demoteAll
    induction l with
    | nil => intro r h; exact h
    | cons j l ih =>
      intro r h
      rw [List.foldl_cons]
      apply ih
      simp [demote, h, lower_zero]
  induction ps generalizing r with
  | nil => simp at hp
  | cons q ps ih =>
    have hstep : Spec.demoteAll D Z cand (q :: ps) r = Spec.demoteAll D Z cand ps (demote D Z cand q r) := rfl
    rw [hstep]
    by_cases hq : q = p
    · subst hq
      apply zero_stays
      obtain ⟨c, hcx⟩ := Option.isSome_iff_exists.mp hx
      simp only [demote, hcx, Option.map_some, Option.some.injEq]
      exact lower_crit (by have := h x c hcx; omega) hc
    · refine ih (demote_le hZ h) ?_ ?_
      · rcases List.mem_cons.mp hp with e | e
        · exact absurd e.symm hq
        · exact e
      · rw [demote_isSome]; exact hx

lemma scoreRank_isSome {nb : ℕ} {e mi ma sc : ℝ} (h : mi < ma) : (Spec.scoreRank nb e mi ma sc).isSome ↔ mi < sc := by
  unfold Spec.scoreRank
  simp only
  have : 0 < (sc - mi) / (ma - mi) ↔ mi < sc := by
    rw [div_pos_iff_of_pos_right (by linarith)]
    constructor <;> intro h <;> linarith
  split
  · rename_i h; simp [this.mp h]
  · rename_i h; simp only [Option.isSome_none, Bool.false_eq_true, false_iff]; exact fun h' => h (this.mpr h')

lemma initRanks_isSome (h : A.minScore < A.maxScore) {x : ℕ} : (A.initRanks x).isSome ↔ x < A.nc ∧ A.minScore < A.score x := by
  unfold initRanks
  split
  · rename_i hx; rw [scoreRank_isSome h]; simp [hx]
  · rename_i hx; simp [hx]

lemma initRanks_lt (hA : A.Sane) {x c : ℕ} (h : A.initRanks x = some c) : c < A.nb := by
  unfold initRanks at h
  split at h
  · exact scoreRank_lt hA.nb_pos h
  · simp at h

end AddArgs

end Rovio
