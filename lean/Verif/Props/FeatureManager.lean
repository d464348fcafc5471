import Verif.Lemmas.FeatureManager
import Verif.Spec.FeatureManager

/-!
# Properties C16-C20 (and C63): the feature set and candidate insertion
-/

namespace Rovio

open Spec

/-! ## C16: identifiers -/

namespace FeatSet

variable {P : Type} {n : ℕ}

/-- C16: `makeNewFeature` fills the lowest free slot with the next identifier and touches nothing else
(in particular not the stored coordinates and patches); when the set is full it changes nothing and
reports failure. -/
theorem C16_make (s : FeatSet P n) :
    (∀ i, (∀ j < i, (s.slots j).valid = true) → (s.slots i).valid = false →
      s.makeNewFeature.2 = some i ∧
      s.makeNewFeature.1.slots i = { s.slots i with idx := s.maxIdx, valid := true } ∧
      (∀ j, j ≠ i → s.makeNewFeature.1.slots j = s.slots j) ∧ s.makeNewFeature.1.maxIdx = s.maxIdx + 1) ∧
    ((∀ i, (s.slots i).valid = true) → s.makeNewFeature = (s, none)) := by
  constructor
  · intro i hlt hi
    have hf : s.getFreeIndex = some i := by
      cases h : s.getFreeIndex with
      | none => rw [getFreeIndex_none.mp h i] at hi; simp at hi
      | some j =>
        obtain ⟨h1, h2⟩ := getFreeIndex_some h
        rcases lt_trichotomy i j with hij | hij | hij
        · rw [h2 i hij] at hi; simp at hi
        · rw [hij]
        · rw [hlt j hij] at h1; simp at h1
    unfold makeNewFeature
    rw [hf]
    refine ⟨rfl, by simp, fun j hj => by simp [Function.update_of_ne hj], rfl⟩
  · intro h
    unfold makeNewFeature
    rw [getFreeIndex_none.mpr h]

/-- Histories of a feature set between two resets. -/
inductive Op (P : Type) (n : ℕ) where
  | make
  | remove (i : Fin n)
  | add (A : AddArgs P) (I : USet) (hI : I.Lawful) (hA : A.Sane)

/-- One operation of a history. -/
noncomputable def step (s : FeatSet P n) : Op P n → Option (FeatSet P n)
  | .make => some s.makeNewFeature.1
  | .remove i => some (s.removeFeature i)
  | .add A I _ _ => (A.addBestCandidates I s).map Prod.fst

/-- States visited by a history, in order, the first one included. -/
inductive History : List (FeatSet P n) → Prop
  | single (s : FeatSet P n) : History [s.reset]
  | snoc (l : List (FeatSet P n)) (s t : FeatSet P n) (o : Op P n) (h : History (l ++ [s])) (hs : s.step o = some t) :
      History (l ++ [s] ++ [t])

/-- Identifier `a` belongs to a feature of the set. -/
def Used (s : FeatSet P n) (a : ℤ) : Prop := ∃ i, (s.slots i).valid = true ∧ (s.slots i).idx = a

/-- Invariant: identifiers in use are distinct and below the counter. -/
private structure Inv (s : FeatSet P n) : Prop where
  lt : ∀ i, (s.slots i).valid = true → (s.slots i).idx < s.maxIdx
  inj : ∀ i j, (s.slots i).valid = true → (s.slots j).valid = true → (s.slots i).idx = (s.slots j).idx → i = j

private lemma placed_inv {A : AddArgs P} {s t : FeatSet P n} {xs ss} (h : AddArgs.Placed A s xs ss t) :
    (s.Inv → t.Inv) ∧ s.maxIdx ≤ t.maxIdx ∧ (∀ a, t.Used a → s.Used a ∨ (s.maxIdx : ℤ) ≤ a) := by
  induction h with
  | nil s => exact ⟨id, le_refl _, fun a h => Or.inl h⟩
  | cons s t x i xs ss hf rest ih =>
    obtain ⟨h1, h2, h3⟩ := ih
    have hi := (getFreeIndex_some hf).1
    refine ⟨fun hinv => h1 ⟨?_, ?_⟩, by have := h2; simp at this; omega, ?_⟩
    · intro j hj
      by_cases hji : j = i
      · subst hji; simp [AddArgs.writeFeature]
      · simp only [Function.update_of_ne hji] at hj ⊢
        have := hinv.lt j hj
        push_cast; omega
    · intro j k hj hk hjk
      by_cases hji : j = i <;> by_cases hki : k = i
      · rw [hji, hki]
      · subst hji
        simp only [Function.update_of_ne hki, Function.update_self, AddArgs.writeFeature] at hj hk hjk
        have := hinv.lt k hk
        omega
      · subst hki
        simp only [Function.update_of_ne hji, Function.update_self, AddArgs.writeFeature] at hj hk hjk
        have := hinv.lt j hj
        omega
      · simp only [Function.update_of_ne hji, Function.update_of_ne hki] at hj hk hjk
        exact hinv.inj j k hj hk hjk
    · intro a ha
      rcases h3 a ha with ⟨j, hj, hja⟩ | hlt
      · by_cases hji : j = i
        · subst hji
          right
          simp only [Function.update_self, AddArgs.writeFeature] at hja
          omega
        · simp only [Function.update_of_ne hji] at hj hja
          exact Or.inl ⟨j, hj, hja⟩
      · right; push_cast at hlt; omega

private lemma add_placed (A : AddArgs P) (I : USet) (hI : I.Lawful) (hA : A.Sane) {s t : FeatSet P n} {ids}
    (h : A.addBestCandidates I s = some (t, ids)) : ∃ xs ss, AddArgs.Placed A s xs ss t := by
  by_cases hm : A.minScore < A.maxScore
  · obtain ⟨xs, ss, t', h1, _, h3⟩ := AddArgs.addBestCandidates_spec hI hA s hm
    rw [h1] at h
    simp only [Option.some.injEq, Prod.mk.injEq] at h
    exact ⟨xs, ss, h.1 ▸ h3⟩
  · unfold AddArgs.addBestCandidates at h
    rw [if_pos (not_lt.mp hm)] at h
    simp only [Option.some.injEq, Prod.mk.injEq] at h
    rw [← h.1]
    exact ⟨[], [], .nil s⟩

private lemma step_inv {s t : FeatSet P n} {o : Op P n} (h : s.step o = some t) :
    (s.Inv → t.Inv) ∧ s.maxIdx ≤ t.maxIdx ∧ (∀ a, t.Used a → s.Used a ∨ (s.maxIdx : ℤ) ≤ a) := by
  cases o with
  | make =>
    simp only [step, Option.some.injEq] at h
    subst h
    unfold makeNewFeature
    cases hf : s.getFreeIndex with
    | none => exact ⟨id, le_refl _, fun a h => Or.inl h⟩
    | some i =>
      refine ⟨fun hinv => ⟨?_, ?_⟩, by simp, ?_⟩
      · intro j hj
        by_cases hji : j = i
        · subst hji; simp
        · simp only [Function.update_of_ne hji] at hj ⊢
          have := hinv.lt j hj
          push_cast; omega
      · intro j k hj hk hjk
        by_cases hji : j = i <;> by_cases hki : k = i
        · rw [hji, hki]
        · subst hji
          simp only [Function.update_of_ne hki, Function.update_self] at hj hk hjk
          have := hinv.lt k hk
          omega
        · subst hki
          simp only [Function.update_of_ne hji, Function.update_self] at hj hk hjk
          have := hinv.lt j hj
          omega
        · simp only [Function.update_of_ne hji, Function.update_of_ne hki] at hj hk hjk
          exact hinv.inj j k hj hk hjk
      · rintro a ⟨j, hj, hja⟩
        by_cases hji : j = i
        · subst hji
          right
          simp only [Function.update_self] at hja
          omega
        · simp only [Function.update_of_ne hji] at hj hja
          exact Or.inl ⟨j, hj, hja⟩
  | remove i =>
    simp only [step, Option.some.injEq] at h
    subst h
    have key : ∀ j, ((s.removeFeature i).slots j).valid = true →
        (s.slots j).valid = true ∧ ((s.removeFeature i).slots j).idx = (s.slots j).idx := by
      intro j hj
      unfold removeFeature at hj ⊢
      by_cases hji : j = i
      · subst hji; simp at hj
      · simp only [Function.update_of_ne hji] at hj ⊢
        exact ⟨hj, trivial⟩
    refine ⟨fun hinv => ⟨?_, ?_⟩, le_refl _, ?_⟩
    · intro j hj
      rw [(key j hj).2]; exact hinv.lt j (key j hj).1
    · intro j k hj hk hjk
      rw [(key j hj).2, (key k hk).2] at hjk
      exact hinv.inj j k (key j hj).1 (key k hk).1 hjk
    · rintro a ⟨j, hj, hja⟩
      rw [(key j hj).2] at hja
      exact Or.inl ⟨j, (key j hj).1, hja⟩
  | add A I hI hA =>
    simp only [step, Option.map_eq_some_iff] at h
    obtain ⟨⟨t', ids⟩, h1, h2⟩ := h
    simp only at h2
    subst h2
    obtain ⟨xs, ss, hp⟩ := add_placed A I hI hA h1
    exact placed_inv hp

private lemma history_inv {l : List (FeatSet P n)} (h : History l) :
    ∀ (k : ℕ) (s : FeatSet P n), l[k]? = some s → s.Inv ∧
      ∀ (m : ℕ) (t : FeatSet P n), k ≤ m → l[m]? = some t → s.maxIdx ≤ t.maxIdx ∧ ∀ a, t.Used a → s.Used a ∨ (s.maxIdx : ℤ) ≤ a := by
  induction h with
  | single s =>
    intro k t ht
    have hk : k = 0 := by
      by_contra h0
      rw [List.getElem?_eq_none (by simp; omega)] at ht; simp at ht
    subst hk
    simp only [List.getElem?_cons_zero, Option.some.injEq] at ht
    subst ht
    refine ⟨⟨by simp [reset], by simp [reset]⟩, ?_⟩
    intro m t _ ht
    have hm : m = 0 := by
      by_contra h0
      rw [List.getElem?_eq_none (by simp; omega)] at ht; simp at ht
    subst hm
    simp only [List.getElem?_cons_zero, Option.some.injEq] at ht
    subst ht
    exact ⟨le_refl _, fun a h => Or.inl h⟩
  | snoc l s t o h hs ih =>
    obtain ⟨g1, g2, g3⟩ := step_inv hs
    have hlen : (l ++ [s]).length = l.length + 1 := by simp
    have hsl : (l ++ [s])[l.length]? = some s := by simp
    intro k u hu
    rcases Nat.lt_or_ge k (l ++ [s]).length with hk | hk
    · rw [List.getElem?_append_left hk] at hu
      obtain ⟨i1, i2⟩ := ih k u hu
      refine ⟨i1, ?_⟩
      intro m v hkm hv
      rcases Nat.lt_or_ge m (l ++ [s]).length with hm | hm
      · rw [List.getElem?_append_left hm] at hv
        exact i2 m v hkm hv
      · rw [List.getElem?_append_right hm] at hv
        have hm0 : m - (l ++ [s]).length = 0 := by
          by_contra h0
          rw [List.getElem?_eq_none (by simp at h0 ⊢; omega)] at hv; simp at hv
        rw [hm0] at hv
        simp only [List.getElem?_cons_zero, Option.some.injEq] at hv
        subst hv
        obtain ⟨j1, j2⟩ := i2 l.length s (by omega) hsl
        refine ⟨j1.trans g2, ?_⟩
        intro a ha
        rcases g3 a ha with h1 | h1
        · exact j2 a h1
        · right; have : (u.maxIdx : ℤ) ≤ s.maxIdx := by exact_mod_cast j1
          omega
    · rw [List.getElem?_append_right hk] at hu
      have hk0 : k - (l ++ [s]).length = 0 := by
        by_contra h0
        rw [List.getElem?_eq_none (by simp at h0 ⊢; omega)] at hu; simp at hu
      rw [hk0] at hu
      simp only [List.getElem?_cons_zero, Option.some.injEq] at hu
      subst hu
      refine ⟨g1 (ih l.length s hsl).1, ?_⟩
      intro m v hkm hv
      rw [List.getElem?_append_right (by omega)] at hv
      have hm0 : m - (l ++ [s]).length = 0 := by
        by_contra h0
        rw [List.getElem?_eq_none (by simp at h0 ⊢; omega)] at hv; simp at hv
      rw [hm0] at hv
      simp only [List.getElem?_cons_zero, Option.some.injEq] at hv
      subst hv
      exact ⟨le_refl _, fun a h => Or.inl h⟩

/-- C16: in every history after a reset, an identifier that was in use and was given up never comes
back. -/
theorem C16_never_reused {l : List (FeatSet P n)} (h : History l) {k1 k2 k3 : ℕ} {s1 s2 s3 : FeatSet P n}
    (h1 : l[k1]? = some s1) (h2 : l[k2]? = some s2) (h3 : l[k3]? = some s3) (h12 : k1 ≤ k2) (h23 : k2 ≤ k3) {a : ℤ}
    (hu : s1.Used a) (hn : ¬ s2.Used a) : ¬ s3.Used a := by
  intro hc
  obtain ⟨i, hv, ha⟩ := hu
  have hlt := (history_inv h k1 s1 h1).1.lt i hv
  have hle := ((history_inv h k1 s1 h1).2 k2 s2 h12 h2).1
  rcases ((history_inv h k2 s2 h2).2 k3 s3 h23 h3).2 a hc with h | h
  · exact hn h
  · have : (s1.maxIdx : ℤ) ≤ s2.maxIdx := by exact_mod_cast hle
    omega

/-- C16: in every state of such a history, distinct features have distinct identifiers, and the next
identifier handed out differs from all identifiers used so far in the history. -/
theorem C16_unique {l : List (FeatSet P n)} (h : History l) {k : ℕ} {s : FeatSet P n} (hs : l[k]? = some s) :
    (∀ i j, (s.slots i).valid = true → (s.slots j).valid = true → (s.slots i).idx = (s.slots j).idx → i = j) ∧
    (∀ (k' : ℕ) (s' : FeatSet P n), k' ≤ k → l[k']? = some s' → ¬ s'.Used s.maxIdx) := by
  refine ⟨(history_inv h k s hs).1.inj, ?_⟩
  rintro k' s' hk hs' ⟨i, hv, ha⟩
  have hlt := (history_inv h k' s' hs').1.lt i hv
  have : (s'.maxIdx : ℤ) ≤ s.maxIdx := by exact_mod_cast ((history_inv h k' s' hs').2 k s hk hs).1
  omega

/- Non-vacuity: a history that creates, removes and creates again, in a set with one slot: the slot is
reused, the identifier is not. -/
example (s : FeatSet P 1) : ∃ s1 s2 s3 : FeatSet P 1, History [s.reset, s1, s2, s3] ∧
    s1.Used 0 ∧ ¬ s2.Used 0 ∧ s3.Used 1 := by
  obtain ⟨_, a2, _, a4⟩ := (C16_make s.reset).1 0 (by simp) (by simp [reset])
  set s1 := s.reset.makeNewFeature.1 with hs1
  obtain ⟨_, b2, _, _⟩ := (C16_make (s1.removeFeature 0)).1 0 (by simp) (by simp [removeFeature])
  refine ⟨s1, s1.removeFeature 0, (s1.removeFeature 0).makeNewFeature.1,
    .snoc [_, _] _ _ .make (.snoc [_] _ _ (.remove 0) (.snoc [] _ _ .make (.single s) rfl) rfl) rfl, ?_, ?_, ?_⟩
  · exact ⟨0, by rw [a2], by rw [a2]; rfl⟩
  · rintro ⟨i, hi, _⟩
    have : i = 0 := Subsingleton.elim _ _
    subst this
    simp [removeFeature] at hi
  · refine ⟨0, by rw [b2], ?_⟩
    rw [b2]
    simp only [removeFeature, a4]
    rfl

/-! ## C63: average score -/

private lemma avg_fold (s : FeatSet P n) (score : P → ℝ) (l : List (Fin n)) (a : ℝ) (k : ℕ) :
    l.foldl (fun (acc : ℝ × ℕ) i => if (s.slots i).valid = true then
      (acc.1 + max (score (s.slots i).patch) 0.0, acc.2 + 1) else acc) (a, k)
    = (a + ((l.filter fun i => (s.slots i).valid).map fun i => max (score (s.slots i).patch) 0).sum,
       k + (l.filter fun i => (s.slots i).valid).length) := by
  have hz : (0.0 : ℝ) = 0 := by norm_num
  induction l generalizing a k with
  | nil => simp
  | cons i l ih =>
    rw [List.foldl_cons]
    by_cases hv : (s.slots i).valid = true
    · rw [if_pos hv, ih]
      simp only [List.filter_cons, hv, if_true, List.map_cons, List.sum_cons, List.length_cons, hz, Prod.mk.injEq]
      constructor
      · ring
      · omega
    · rw [if_neg hv, ih]
      simp [hv]

private lemma sum_bounds (f : Fin n → ℝ) (lo hi : ℝ) (l : List (Fin n)) (h : ∀ i ∈ l, lo ≤ f i ∧ f i ≤ hi) :
    lo * l.length ≤ (l.map f).sum ∧ (l.map f).sum ≤ hi * l.length := by
  induction l with
  | nil => simp
  | cons a l ih =>
    obtain ⟨h1, h2⟩ := ih (fun i hi => h i (by simp [hi]))
    obtain ⟨h3, h4⟩ := h a (by simp)
    simp only [List.map_cons, List.sum_cons, List.length_cons]
    push_cast
    constructor <;> nlinarith

/-- C63: the average score lies between the smallest and the largest (non-negative part of the) score
of the valid features; without valid features it is zero. -/
theorem C63_average (s : FeatSet P n) (score : P → ℝ) (lo hi : ℝ)
    (h : ∀ i, (s.slots i).valid = true → lo ≤ max (score (s.slots i).patch) 0 ∧ max (score (s.slots i).patch) 0 ≤ hi) :
    ((∃ i, (s.slots i).valid = true) → lo ≤ s.getAverageScore score ∧ s.getAverageScore score ≤ hi) ∧
    ((∀ i, (s.slots i).valid = false) → s.getAverageScore score = 0) := by
  unfold getAverageScore
  rw [avg_fold]
  set l := (List.finRange n).filter fun i => (s.slots i).valid with hl
  have hb := sum_bounds (fun i => max (score (s.slots i).patch) 0) lo hi l (by
    intro i hi
    rw [hl, List.mem_filter] at hi
    exact h i hi.2)
  simp only [zero_add]
  constructor
  · rintro ⟨i, hi⟩
    have hm : i ∈ l := by rw [hl, List.mem_filter]; exact ⟨List.mem_finRange i, hi⟩
    have hpos : 0 < l.length := List.length_pos_of_mem hm
    have hposr : (0 : ℝ) < l.length := by exact_mod_cast hpos
    rw [if_pos hpos]
    exact ⟨(le_div_iff₀ hposr).mpr hb.1, (div_le_iff₀ hposr).mpr hb.2⟩
  · intro hn
    have : l = [] := by
      rw [hl, List.filter_eq_nil_iff]; intro i _; simp [hn i]
    simp [this]

/- Non-vacuity: two slots, one occupied with score 3. -/
example (c : FC) : ∃ s : FeatSet ℝ 2, s.getAverageScore id = 3 := by
  refine ⟨⟨fun i => ⟨i = 0, 0, c, 3⟩, 1⟩, ?_⟩
  have := (C63_average (⟨fun i => ⟨i = 0, 0, c, 3⟩, 1⟩ : FeatSet ℝ 2) id 3 3 (by intro i _; norm_num)).1 ⟨0, by simp⟩
  exact le_antisymm this.2 this.1

end FeatSet

/-! ## C17-C20: addBestCandidates -/

namespace AddArgs

variable {P : Type} {n : ℕ}

/-- C19: for every hash order the call performs a greedy selection by rank: ranks come from the scores
and are lowered by the visible existing features; each newly added feature is the best ranked remaining
candidate, it is placed with the next identifier, and its neighbours are demoted before the next one is
taken.  Selection ends only when the requested number or the capacity is reached or no candidate of
sufficient rank is left. -/
theorem C19_greedy (A : AddArgs P) (I : USet) (hI : I.Lawful) (hA : A.Sane) (s : FeatSet P n) (hm : A.minScore < A.maxScore) :
    ∃ (picks : List ℕ) (t : FeatSet P n) (ids : Finset (Fin n)), A.addBestCandidates I s = some (t, ids) ∧
      Greedy A.penaltyDistance A.zeroPenalty A.cand (if A.requireMax then 0 else 1)
        (demoteAll A.penaltyDistance A.zeroPenalty A.cand (A.seen s) A.initRanks)
        (min A.maxAdded.toNat (n - s.getValidCount)) picks ∧
      ids.card = picks.length ∧
      ∀ k x, picks[k]? = some x → ∃ i ∈ ids, (t.slots i).idx = (s.maxIdx + k : ℕ) ∧
        (t.slots i).coord.c = A.cand x ∧ (t.slots i).patch = A.patch x := by
  obtain ⟨picks, ss, t, h1, h2, h3⟩ := addBestCandidates_spec hI hA s hm
  refine ⟨picks, t, ss.toFinset, h1, h2, ?_, ?_⟩
  · rw [List.toFinset_card_of_nodup h3.free.2.1, h3.length]
  · intro k x hx
    have hk : k < ss.length := by
      rw [h3.length]; exact (List.getElem?_eq_some_iff.mp hx).1
    refine ⟨ss[k], by simp, ?_⟩
    rw [h3.slot k x ss[k] hx (List.getElem?_eq_getElem hk)]
    simp [writeFeature, FC.setC, FC.setWarpIdentity]
    split <;> simp

/-- C17: what a call may change.  Exactly the returned slots are newly occupied, everything else keeps
its content; at most the requested number is added and the total never exceeds the capacity; every new
feature sits at the pixel of its own candidate (no candidate twice), with a valid pixel, an identity
warp and the requested camera, and that candidate scored above the minimum. -/
theorem C17_effect (A : AddArgs P) (I : USet) (hI : I.Lawful) (hA : A.Sane) (s t : FeatSet P n) (ids : Finset (Fin n))
    (h : A.addBestCandidates I s = some (t, ids)) :
    (∀ i, i ∈ ids ↔ (s.slots i).valid = false ∧ (t.slots i).valid = true) ∧
    (∀ i, i ∉ ids → t.slots i = s.slots i) ∧
    (ids.card : ℤ) ≤ max A.maxAdded 0 ∧ t.getValidCount = s.getValidCount + ids.card ∧
    ∃ pick : Fin n → ℕ, Set.InjOn pick ids ∧ ∀ i ∈ ids, pick i < A.nc ∧ A.minScore < A.score (pick i) ∧
      (t.slots i).coord.c = A.cand (pick i) ∧ (t.slots i).coord.validC = true ∧ (t.slots i).coord.camID = A.camID ∧
      (t.slots i).coord.validWarpC = true ∧ (t.slots i).coord.warpC = M2.one ∧ (t.slots i).patch = A.patch (pick i) := by
  by_cases hm : A.minScore < A.maxScore
  · obtain ⟨picks, ss, t', h1, h2, h3⟩ := addBestCandidates_spec hI hA s hm
    rw [h1] at h
    simp only [Option.some.injEq, Prod.mk.injEq] at h
    obtain ⟨rfl, rfl⟩ := h
    obtain ⟨f1, f2, f3⟩ := h3.free
    have hlen := h3.length
    obtain ⟨g1, g2⟩ := greedy_mem h2
    have hslot : ∀ i ∈ ss, ∃ k x, picks[k]? = some x ∧ ss[k]? = some i ∧
        t'.slots i = A.writeFeature { s.slots i with idx := (s.maxIdx + k : ℕ), valid := true } x := by
      intro i hi
      obtain ⟨k, x, hx, hk⟩ := h3.index hi
      exact ⟨k, x, hx, hk, h3.slot k x i hx hk⟩
    refine ⟨?_, fun i hi => f3 i (by simpa using hi), ?_, ?_, ?_⟩
    · intro i
      rw [List.mem_toFinset]
      constructor
      · intro hi
        obtain ⟨k, x, _, _, hs⟩ := hslot i hi
        exact ⟨f1 i hi, by rw [hs]; simp [writeFeature]⟩
      · rintro ⟨hi, hi'⟩
        by_contra hni
        rw [f3 i hni, hi] at hi'
        simp at hi'
    · rw [List.toFinset_card_of_nodup f2, hlen]
      have := greedy_length h2
      omega
    · rw [List.toFinset_card_of_nodup f2, hlen, h3.count]
    · classical
      refine ⟨fun i => if hi : i ∈ ss then (hslot i hi).choose_spec.choose else 0, ?_, ?_⟩
      · intro i hi j hj hij
        have hi' : i ∈ ss := by simpa using hi
        have hj' : j ∈ ss := by simpa using hj
        simp only [hi', hj', dif_pos] at hij
        obtain ⟨a1, a2, _⟩ := (hslot i hi').choose_spec.choose_spec
        obtain ⟨b1, b2, _⟩ := (hslot j hj').choose_spec.choose_spec
        rw [← hij] at b1
        obtain ⟨ka, ea⟩ := List.getElem?_eq_some_iff.mp a1
        obtain ⟨kb, eb⟩ := List.getElem?_eq_some_iff.mp b1
        have hk : (hslot i hi').choose = (hslot j hj').choose :=
          (List.Nodup.getElem_inj_iff g1).mp (ea.trans eb.symm)
        rw [hk, b2] at a2
        simpa using a2.symm
      · intro i hi
        have hi' : i ∈ ss := by simpa using hi
        simp only [hi', dif_pos]
        obtain ⟨a1, a2, a3⟩ := (hslot i hi').choose_spec.choose_spec
        set x := (hslot i hi').choose_spec.choose with hx
        have hs := g2 x (List.mem_of_getElem? a1)
        rw [demoteAll_isSome, initRanks_isSome hm] at hs
        refine ⟨hs.1, hs.2, ?_⟩
        rw [a3]
        simp [writeFeature, FC.setC, FC.setWarpIdentity]
        split <;> simp
  · unfold addBestCandidates at h
    rw [if_pos (not_lt.mp hm)] at h
    simp only [Option.some.injEq, Prod.mk.injEq] at h
    obtain ⟨rfl, rfl⟩ := h
    refine ⟨?_, fun i _ => rfl, by simp, by simp, fun _ => 0, by simp, by simp⟩
    intro i
    simp only [Finset.notMem_empty, false_iff, not_and]
    intro h1 h2
    rw [h1] at h2; simp at h2

/-- C17: nothing is added unless some candidate scores above the minimum; with a minimum of at least
-1 every added candidate has its whole patch inside the image. -/
theorem C17_threshold (A : AddArgs P) (I : USet) (hI : I.Lawful) (hA : A.Sane) (s t : FeatSet P n) (ids : Finset (Fin n))
    (h : A.addBestCandidates I s = some (t, ids)) (hmin : -1 ≤ A.minScore) :
    ((∀ x < A.nc, A.inFrame x = true → A.shi x ≤ A.minScore) → t = s ∧ ids = ∅) ∧
    (∀ i ∈ ids, ∃ x < A.nc, A.inFrame x = true ∧ A.minScore < A.shi x ∧ (t.slots i).coord.c = A.cand x) := by
  constructor
  · intro hall
    have hm : A.maxScore ≤ A.minScore := by
      rcases (maxScore_fold A (List.range A.nc) (-1.0)).2.2 with h | ⟨i, hi, hf, hs⟩
      · unfold maxScore; rw [h]; norm_num; exact hmin
      · unfold maxScore; rw [← hs]; exact hall i (by simpa using hi) hf
    unfold addBestCandidates at h
    rw [if_pos hm] at h
    simp only [Option.some.injEq, Prod.mk.injEq] at h
    exact ⟨h.1.symm, h.2.symm⟩
  · intro i hi
    obtain ⟨_, _, _, _, pick, _, hp⟩ := C17_effect A I hI hA s t ids h
    obtain ⟨h1, h2, h3, _⟩ := hp i hi
    refine ⟨pick i, h1, ?_⟩
    unfold score at h2
    split at h2
    · rename_i hf; exact ⟨hf, h2, h3⟩
    · linarith

/-- C17: when the maximum is required, the number of added features is exactly the smallest of the
requested number, the free capacity and the number of candidates scoring above the minimum. -/
theorem C17_requireMax (A : AddArgs P) (I : USet) (hI : I.Lawful) (hA : A.Sane) (s t : FeatSet P n) (ids : Finset (Fin n))
    (h : A.addBestCandidates I s = some (t, ids)) (hreq : A.requireMax = true) (hm : A.minScore < A.maxScore) :
    ids.card = min (min A.maxAdded.toNat (n - s.getValidCount))
      ((Finset.range A.nc).filter fun x => A.minScore < A.score x).card := by
  obtain ⟨picks, ss, t', h1, h2, h3⟩ := addBestCandidates_spec hI hA s hm
  rw [h1] at h
  simp only [Option.some.injEq, Prod.mk.injEq] at h
  obtain ⟨rfl, rfl⟩ := h
  rw [List.toFinset_card_of_nodup h3.free.2.1, h3.length]
  rw [hreq] at h2
  refine greedy_all h2 _ ?_
  intro x
  rw [demoteAll_isSome, initRanks_isSome hm]
  simp

/-- C18: unless the maximum is required, no new feature lies within the critical distance of a visible
existing feature, nor of another new one.  Critical means closer than the penalty distance `D` with
`(1 - d²/D²)·Z > buckets - 2`. -/
theorem C18_spacing (A : AddArgs P) (I : USet) (hI : I.Lawful) (hA : A.Sane) (s t : FeatSet P n) (ids : Finset (Fin n))
    (h : A.addBestCandidates I s = some (t, ids)) (hreq : A.requireMax = false) :
    (∀ i ∈ ids, ∀ j p, (s.slots j).valid = true → A.view (s.slots j) = some p →
      ¬ Crit A.penaltyDistance A.zeroPenalty A.nb (Spec.sqDist p (t.slots i).coord.c)) ∧
    (∀ i ∈ ids, ∀ j ∈ ids, i ≠ j →
      ¬ Crit A.penaltyDistance A.zeroPenalty A.nb (Spec.sqDist (t.slots i).coord.c (t.slots j).coord.c)) := by
  by_cases hm : A.minScore < A.maxScore
  · obtain ⟨picks, ss, t', h1, h2, h3⟩ := addBestCandidates_spec hI hA s hm
    rw [h1] at h
    simp only [Option.some.injEq, Prod.mk.injEq] at h
    obtain ⟨rfl, rfl⟩ := h
    rw [hreq] at h2
    simp only [Bool.false_eq_true, if_false] at h2
    have hnb := hA.nb_pos
    have hinit : ∀ x c, A.initRanks x = some c → c ≤ A.nb - 1 := fun x c hx => by
      have := initRanks_lt hA hx; omega
    have hc : ∀ i (k x : ℕ), picks[k]? = some x → ss[k]? = some i → (t'.slots i).coord.c = A.cand x := by
      intro i k x hx hk
      rw [h3.slot k x i hx hk]
      simp [writeFeature, FC.setC, FC.setWarpIdentity]
      split <;> simp
    constructor
    · intro i hi j p hv hp hcrit
      obtain ⟨k, x, hx, hk⟩ := h3.index (by simpa using hi)
      rw [hc i k x hx hk] at hcrit
      have hxm := List.mem_of_getElem? hx
      have hs := (greedy_mem h2).2 x hxm
      rw [demoteAll_isSome] at hs
      refine greedy_not_zero le_rfl h2 x ?_ hxm
      refine demoteAll_crit hA.z_nonneg hinit hnb ?_ hs hcrit
      unfold seen
      rw [List.mem_filterMap]
      exact ⟨j, List.mem_finRange j, by simp [hv, hp]⟩
    · have hap := greedy_apart hA.z_nonneg le_rfl (nb := A.nb) h2 (fun x c hx => by
        have := demoteAll_le hA.z_nonneg hinit x c hx; omega)
      intro i hi j hj hij
      obtain ⟨k, x, hx, hk⟩ := h3.index (by simpa using hi)
      obtain ⟨k', x', hx', hk'⟩ := h3.index (by simpa using hj)
      rw [hc i k x hx hk, hc j k' x' hx' hk']
      obtain ⟨l1, e1⟩ := List.getElem?_eq_some_iff.mp hx
      obtain ⟨l2, e2⟩ := List.getElem?_eq_some_iff.mp hx'
      have hkk : k ≠ k' := by
        intro e; subst e; rw [hk] at hk'; exact hij (by simpa using hk')
      rcases lt_or_gt_of_ne hkk with hlt | hlt
      · have := List.pairwise_iff_getElem.mp hap k k' l1 l2 hlt
        rwa [e1, e2] at this
      · have := List.pairwise_iff_getElem.mp hap k' k l2 l1 hlt
        rw [e1, e2] at this
        have hsym : Spec.sqDist (A.cand x) (A.cand x') = Spec.sqDist (A.cand x') (A.cand x) := by
          unfold Spec.sqDist; ring
        rwa [hsym]
  · unfold addBestCandidates at h
    rw [if_pos (not_lt.mp hm)] at h
    simp only [Option.some.injEq, Prod.mk.injEq] at h
    obtain ⟨rfl, rfl⟩ := h
    simp

/-- C20: with at least one bucket, a non-negative penalty and a non-negative exponent (all in `int`
range) no out-of-range access happens, for every input and hash order. -/
theorem C20_safe (A : AddArgs P) (I : USet) (hI : I.Lawful) (hA : A.Sane) (s : FeatSet P n) :
    A.addBestCandidates I s ≠ none := by
  by_cases hm : A.minScore < A.maxScore
  · obtain ⟨_, _, _, h1, _⟩ := addBestCandidates_spec hI hA s hm
    rw [h1]; simp
  · unfold addBestCandidates
    rw [if_pos (not_lt.mp hm)]; simp

/-- C20: whatever the exponent (even a negative one, for which the best candidate does not get the largest raw bucket number), filling the buckets
never leaves the bucket vector as long as the raw bucket numbers fit an `unsigned int`. -/
theorem C20_fill_in_bounds (A : AddArgs P) (I : USet) (hnb : 0 < A.nb)
    (hfit : ∀ x < A.nc, 0.0 < (A.score x - A.minScore) / (A.maxScore - A.minScore) →
      cUInt ⌈((A.nb : ℝ) - 1) * ((A.score x - A.minScore) / (A.maxScore - A.minScore)) ^ A.exponent⌉ ≠ none) :
    A.fill I ≠ none := by
  unfold fill
  have : ∀ (l : List ℕ) (bk : Buckets I), (∀ x ∈ l, x < A.nc) → l.foldlM (A.fillOne I) bk ≠ none := by
    intro l
    induction l with
    | nil => intro bk _; simp
    | cons x l ih =>
      intro bk hl
      rw [List.foldlM_cons]
      have h1 : ∃ bk', A.fillOne I bk x = some bk' := by
        unfold fillOne
        by_cases h : (A.score x - A.minScore) / (A.maxScore - A.minScore) > 0.0
        · have hne := hfit x (hl x (by simp)) h
          simp only [if_pos h]
          cases hc : cUInt ⌈((A.nb : ℝ) - 1) * ((A.score x - A.minScore) / (A.maxScore - A.minScore)) ^ A.exponent⌉ with
          | none => exact absurd hc hne
          | some b =>
            simp only
            have hb : (if b > A.nb - 1 then A.nb - 1 else b) < A.nb := by split_ifs <;> omega
            rw [if_pos hb]
            exact ⟨_, rfl⟩
        · simp only [if_neg h]
          exact ⟨_, rfl⟩
      obtain ⟨bk', hbk⟩ := h1
      rw [hbk]
      exact ih bk' fun y hy => hl y (by simp [hy])
  exact this _ _ fun x hx => by simpa using hx

/-! ### Concrete instances -/

/-- A simple lawful container: a list, new elements in front. -/
def listUSet : USet where
  σ := List ℕ
  empty := []
  insert s x := if x ∈ s then s else x :: s
  erase s x := s.erase x
  elems s := s

lemma listUSet_lawful : listUSet.Lawful where
  empty := rfl
  insert_new s x h := by simp [listUSet] at h ⊢; simp [h]
  insert_old s x h := by
    have h' : listUSet.insert s x = s := if_pos h
    rw [h']
  erase _ _ := rfl

/-- Two candidates at the same pixel, feature tracker settings (100 buckets, penalty distance 20,
zero-distance penalty 10000). -/
noncomputable def twinArgs (cam : CamI) (req : Bool) : AddArgs ℕ where
  nc := 2
  cand := fun _ => ⟨50, 50⟩
  inFrame := fun _ => true
  shi := fun _ => 1
  patch := id
  view := fun _ => none
  cam := cam
  camID := 0
  maxAdded := 20
  nb := 100
  exponent := 0.25
  penaltyDistance := 20
  zeroPenalty := 10000
  requireMax := req
  minScore := 0

lemma twin_sane (cam : CamI) (req : Bool) : (twinArgs cam req).Sane where
  nb_pos := by simp [twinArgs]
  nb_le := by simp [twinArgs]
  z_nonneg := by simp [twinArgs]
  z_le := by simp [twinArgs]; norm_num
  exp_nonneg := by simp [twinArgs]; norm_num

lemma twin_max (cam : CamI) (req : Bool) : (twinArgs cam req).minScore < (twinArgs cam req).maxScore := by
  have := score_le_maxScore (A := twinArgs cam req) (x := 0) (by simp [twinArgs])
  simp only [score, twinArgs, if_true] at this ⊢
  linarith

/-- C18 finding: the feature tracker passes `requireMax = true` and documents its penalty as "features
with a distance of less penaltyDistance_ will not be added" (include/rovio/featureTracker.hpp:65,
242-244).  With exactly these settings two candidates at the same pixel are both added. -/
theorem C18_finding_requireMax_ignores_penalty (cam : CamI) (s : FeatSet ℕ 25) :
    ∃ t ids, (twinArgs cam true).addBestCandidates listUSet s.reset = some (t, ids) ∧
      ∃ i ∈ ids, ∃ j ∈ ids, i ≠ j ∧ (t.slots i).coord.c = (t.slots j).coord.c := by
  obtain ⟨_, _, t, h1, _⟩ := addBestCandidates_spec listUSet_lawful (twin_sane cam true) s.reset (twin_max cam true)
  refine ⟨t, _, h1, ?_⟩
  have hcard := C17_requireMax _ _ listUSet_lawful (twin_sane cam true) _ _ _ h1 rfl (twin_max cam true)
  have hv : s.reset.getValidCount = 0 := by
    rw [FeatSet.getValidCount_eq]; simp [FeatSet.reset]
  have h2 : ((Finset.range (twinArgs cam true).nc).filter fun x => (twinArgs cam true).minScore < (twinArgs cam true).score x).card = 2 := by
    rw [Finset.filter_true_of_mem]
    · simp [twinArgs]
    · intro x _; simp [twinArgs, score]
  rw [h2, hv] at hcard
  simp only [twinArgs] at hcard
  obtain ⟨i, hi, j, hj, hij⟩ := Finset.one_lt_card.mp (by rw [hcard]; decide)
  obtain ⟨_, _, _, _, pick, _, hp⟩ := C17_effect _ _ listUSet_lawful (twin_sane cam true) _ _ _ h1
  exact ⟨i, hi, j, hj, hij, by rw [(hp i hi).2.2.1, (hp j hj).2.2.1]; rfl⟩

/-- The hypotheses of `C20_fill_in_bounds` are met with a negative exponent. -/
example (cam : CamI) : ({ twinArgs cam false with exponent := -1 } : AddArgs ℕ).fill listUSet ≠ none := by
  apply C20_fill_in_bounds _ _ (by simp [twinArgs])
  intro x _ _
  set A : AddArgs ℕ := { twinArgs cam false with exponent := -1 } with hA
  have hmax : A.maxScore = 1 := by simp [maxScore, hA, twinArgs, List.range_succ]; norm_num
  have h1 : (⌈((A.nb : ℝ) - 1) * ((A.score x - A.minScore) / (A.maxScore - A.minScore)) ^ A.exponent⌉ : ℤ) = 99 := by
    rw [hmax]; simp [hA, twinArgs, score]
  rw [h1]
  have h2 : truncZ ((99 : ℤ) : ℝ) = 99 := by unfold truncZ; norm_num
  unfold cUInt
  rw [h2]
  simp

/- Non-vacuity of C17-C20: without `requireMax` the same call succeeds and adds exactly one of the two
(the first pick exists because the best rank is 99, the second is excluded by C18). -/
example (cam : CamI) (s : FeatSet ℕ 25) :
    ∃ t ids, (twinArgs cam false).addBestCandidates listUSet s.reset = some (t, ids) ∧ ids.card = 1 := by
  obtain ⟨picks, t, ids, h1, h2, h3, _⟩ := C19_greedy _ _ listUSet_lawful (twin_sane cam false) s.reset (twin_max cam false)
  refine ⟨t, ids, h1, ?_⟩
  have hle : ids.card ≤ 1 := by
    by_contra hc
    obtain ⟨i, hi, j, hj, hij⟩ := Finset.one_lt_card.mp (not_le.mp hc)
    refine (C18_spacing _ _ listUSet_lawful (twin_sane cam false) _ _ _ h1 rfl).2 i hi j hj hij ?_
    obtain ⟨_, _, _, _, pick, _, hp⟩ := C17_effect _ _ listUSet_lawful (twin_sane cam false) _ _ _ h1
    rw [(hp i hi).2.2.1, (hp j hj).2.2.1]
    simp only [Crit, Spec.sqDist, twinArgs]
    norm_num
  have hpos : picks ≠ [] := by
    intro e
    rw [e] at h2
    have hv : s.reset.getValidCount = 0 := by
      rw [FeatSet.getValidCount_eq]; simp [FeatSet.reset]
    have hseen : (twinArgs cam false).seen s.reset = [] := by
      simp [seen, twinArgs]
    have hmax : (twinArgs cam false).maxScore = 1 := by
      simp [maxScore, twinArgs, List.range_succ]; norm_num
    have hr : (twinArgs cam false).initRanks 0 = some 99 := by
      simp only [initRanks, hmax]
      simp [twinArgs, Spec.scoreRank, score]
    rw [hv, hseen] at h2
    cases h2 with
    | stop _ _ hb =>
      rcases hb with hb | hb
      · simp [twinArgs] at hb
      · have := hb 0 99 hr
        simp [twinArgs] at this
  have : 0 < picks.length := List.length_pos_iff.mpr hpos
  omega

/-- C20 finding: a negative penalty moves a candidate up, beyond the last bucket. -/
theorem C20_finding_negative_penalty (cam : CamI) (c : FC) :
    ∃ (A : AddArgs ℕ) (s : FeatSet ℕ 1), A.nb = 2 ∧ A.zeroPenalty < 0 ∧ A.addBestCandidates listUSet s = none := by
  refine ⟨{ twinArgs cam false with nc := 1, nb := 2, zeroPenalty := -5, view := fun _ => some ⟨50, 50⟩ },
    ⟨fun _ => ⟨true, 0, c, 0⟩, 1⟩, rfl, by simp, ?_⟩
  set A : AddArgs ℕ := { twinArgs cam false with nc := 1, nb := 2, zeroPenalty := -5, view := fun _ => some ⟨50, 50⟩ } with hA
  have hmax : A.maxScore = 1 := by
    simp [maxScore, hA, twinArgs, List.range_succ]; norm_num
  obtain ⟨bk0, hbk0⟩ : ∃ b : Buckets listUSet, b = (Function.update (fun _ => ([] : List ℕ)) 1 [0] : ℕ → List ℕ) := ⟨_, rfl⟩
  have hfill : A.fill listUSet = some bk0 := by
    rw [hbk0]
    have h1 : (⌈((A.nb : ℝ) - 1) * ((A.score 0 - A.minScore) / (A.maxScore - A.minScore)) ^ A.exponent⌉ : ℤ) = 1 := by
      rw [hmax]; simp [hA, twinArgs, score]
    have h2 : (A.score 0 - A.minScore) / (A.maxScore - A.minScore) > 0.0 := by
      rw [hmax]; simp [hA, twinArgs, score]; norm_num
    have hnc : A.nc = 1 := rfl
    have hnb : A.nb = 2 := rfl
    simp only [fill, hnc, List.range_one, List.foldlM_cons, List.foldlM_nil, fillOne, if_pos h2, h1]
    rw [cUInt_intCast (by norm_num) (by norm_num)]
    simp [hnb, listUSet]
  have hnew : A.newBucket 1 0 = some 6 := by
    unfold newBucket
    have : ((1 : ℕ) : ℝ) - (A.t2 - 0) / A.t2 * A.zeroPenalty = 6 := by
      simp [t2, hA, twinArgs]; norm_num
    rw [this, cInt_toNat (by norm_num) (by norm_num)]
    simp
  have hview : A.view (⟨true, 0, c, 0⟩ : Slot ℕ) = some ⟨50, 50⟩ := rfl
  have hpen : A.penalise listUSet ⟨50, 50⟩ (A.nb - 1) bk0 = none := by
    rw [hbk0]
    have hnb : A.nb = 2 := rfl
    have hd : sqDist ⟨50, 50⟩ (A.cand 0) = 0 := by simp [sqDist, hA, twinArgs]
    have ht : (0 : ℝ) < A.t2 := by simp [t2, hA, twinArgs]
    simp [penalise, hnb, penaliseBucket, listUSet, visit, hd, ht, hnew]
  unfold addBestCandidates
  have hmin : A.minScore = 0 := rfl
  rw [hmax, hmin, if_neg (by norm_num), hfill]
  have hex : A.penaliseExisting listUSet (⟨fun _ => ⟨true, 0, c, 0⟩, 1⟩ : FeatSet ℕ 1) bk0 = none := by
    simp [penaliseExisting, hview, hpen, List.finRange_succ]
  simp only [hex]

/-- C20 finding: `addBestCandidatesNew` never checks for a free slot, so on a full set whose features
are not in front of the camera it writes to `features_[-1]` as soon as one candidate is acceptable. -/
theorem C20_finding_new_full (A : AddArgs P) (cols rows : ℕ) (s : FeatSet P n) (hfull : ∀ i, (s.slots i).valid = true)
    (hview : ∀ i, A.view (s.slots i) = none) (hmax : 1 ≤ A.maxAdded) (cells : List (ℕ × ℤ))
    (hc : A.cellList rows = some cells) (hne : cells ≠ []) : A.addBestCandidatesNew cols rows s = none := by
  unfold addBestCandidatesNew
  cases hr : A.nRange with
  | none => simp
  | some range =>
    have hw : A.existingWeights cols rows range s = some (fun _ => 0) := by
      unfold existingWeights
      generalize List.finRange n = l
      induction l with
      | nil => rfl
      | cons i l ih => simpa [List.foldlM_cons, hfull i, hview i] using ih
    simp only [hc, if_neg hne, hw]
    cases hs : cells.mergeSort (fun a b => decide (A.shi b.1 ≤ A.shi a.1)) with
    | nil =>
      have := (List.mergeSort_perm cells (fun a b => decide (A.shi b.1 ≤ A.shi a.1))).length_eq
      rw [hs] at this
      exact absurd (List.length_eq_zero_iff.mp this.symm) hne
    | cons a l =>
      obtain ⟨nf, cell⟩ := a
      unfold newLoop
      rw [if_pos (by omega)]
      split
      · have hf : s.makeNewFeature = (s, none) := (FeatSet.C16_make s).2 hfull
        rw [if_pos (by norm_num), hf]
      · rfl

/- Non-vacuity: a full set of one feature behind the camera and two acceptable candidates. -/
example (cam : CamI) (c : FC) : (twinArgs cam false).addBestCandidatesNew 100 100
    (⟨fun _ => ⟨true, 0, c, 0⟩, 1⟩ : FeatSet ℕ 1) = none := by
  refine C20_finding_new_full _ _ _ _ (fun _ => rfl) (fun _ => rfl) (by simp [twinArgs]) [(0, 55), (1, 55)] ?_ (by simp)
  have hcell : cellOf ⟨50, 50⟩ = some (5, 5) := by
    have : cInt (50 / 10) = some 5 := by
      rw [show (50 / 10 : ℝ) = ((5 : ℤ) : ℝ) by norm_num]
      unfold cInt; rw [truncZ_intCast]; simp
    simp [cellOf, this]
  simp [cellList, twinArgs, List.range_succ, hcell, nCells]

private lemma cInt_ok {x : ℝ} (h0 : -2147483648 ≤ x) (h1 : x ≤ 2147483647) : ∃ z, cInt x = some z := by
  have := cInt_toNat h0 h1
  cases h : cInt x with
  | none => rw [h] at this; simp at this
  | some z => exact ⟨z, rfl⟩

private lemma cell_ok {c : V2} {cols rows : ℕ} (hc32 : cols ≤ 2147483647) (hr32 : rows ≤ 2147483647)
    (h : 0 ≤ c.x ∧ c.x < cols ∧ 0 ≤ c.y ∧ c.y < rows) :
    ∃ xc yc : ℤ, cellOf c = some (xc, yc) ∧ 0 ≤ xc * nCells rows + yc ∧ xc * nCells rows + yc < nCells cols * nCells rows := by
  obtain ⟨h1, h2, h3, h4⟩ := h
  have key : ∀ (x : ℝ) (m : ℕ), m ≤ 2147483647 → 0 ≤ x → x < m → ∃ z : ℤ, cInt (x / 10) = some z ∧ 0 ≤ z ∧ z ≤ nCells m - 1 := by
    intro x m hm hx0 hx1
    have hmr : (m : ℝ) ≤ 2147483647 := by exact_mod_cast hm
    have ht : truncZ (x / 10) = ⌊x / 10⌋ := by unfold truncZ; rw [if_pos (by positivity)]
    have hf0 : 0 ≤ ⌊x / 10⌋ := Int.floor_nonneg.mpr (by positivity)
    have hfx : ⌊x / 10⌋ * 10 < m := by
      have : (⌊x / 10⌋ : ℝ) ≤ x / 10 := Int.floor_le _
      have : ((⌊x / 10⌋ * 10 : ℤ) : ℝ) < m := by push_cast; linarith
      exact_mod_cast this
    refine ⟨⌊x / 10⌋, ?_, hf0, ?_⟩
    · unfold cInt; rw [ht, if_pos (by omega)]
    · unfold nCells; push_cast; omega
  obtain ⟨xc, e1, a1, a2⟩ := key c.x cols hc32 h1 h2
  obtain ⟨yc, e2, b1, b2⟩ := key c.y rows hr32 h3 h4
  refine ⟨xc, yc, by simp [cellOf, e1, e2], by positivity, ?_⟩
  have hn : (0 : ℤ) ≤ nCells rows := by positivity
  have : xc * nCells rows ≤ (nCells cols - 1) * nCells rows := mul_le_mul_of_nonneg_right a2 hn
  nlinarith

/-- C20: with enough free slots, candidates inside the image and pixels in `int` range the alternative
insertion is safe. -/
theorem C20_new_safe (A : AddArgs P) (cols rows : ℕ) (s : FeatSet P n)
    (hpd : |A.penaltyDistance| ≤ 10000000000)
    (hcand : ∀ x < A.nc, A.inFrame x = true → 0 ≤ (A.cand x).x ∧ (A.cand x).x < cols ∧ 0 ≤ (A.cand x).y ∧ (A.cand x).y < rows)
    (hc32 : cols ≤ 2147483647) (hr32 : rows ≤ 2147483647)
    (hview : ∀ i p, A.view (s.slots i) = some p → |p.x| ≤ 10000000000 ∧ |p.y| ≤ 10000000000)
    (hfree : A.maxAdded ≤ (n - s.getValidCount : ℕ)) : A.addBestCandidatesNew cols rows s ≠ none := by
  have hten : ∀ x : ℝ, |x| ≤ 10000000000 → ∃ z, cInt (x / 10) = some z := by
    intro x hx
    have := abs_le.mp hx
    exact cInt_ok (by linarith [this.1]) (by linarith [this.2])
  obtain ⟨range, hrange⟩ : ∃ range, A.nRange = some range := hten _ hpd
  -- the candidate cells
  have hcells : ∀ k, k ≤ A.nc → ∃ l : List (ℕ × ℤ), (List.range k).foldlM (fun acc i =>
      if A.inFrame i ∧ ¬ A.shi i < A.minScore then
        match cellOf (A.cand i) with
        | some (xc, yc) => some (acc ++ [(i, xc * nCells rows + yc)])
        | none => none
      else some acc) [] = some l ∧ ∀ p ∈ l, 0 ≤ p.2 ∧ p.2 < nCells cols * nCells rows := by
    intro k
    induction k with
    | zero => intro _; exact ⟨[], rfl, by simp⟩
    | succ k ih =>
      intro hk
      obtain ⟨l, h1, h2⟩ := ih (by omega)
      rw [List.range_succ, List.foldlM_append, h1]
      simp only [Option.bind_eq_bind, Option.bind_some, List.foldlM_cons, List.foldlM_nil]
      by_cases hin : A.inFrame k = true ∧ ¬ A.shi k < A.minScore
      · obtain ⟨xc, yc, e, r1, r2⟩ := cell_ok hc32 hr32 (hcand k (by omega) hin.1)
        refine ⟨l ++ [(k, xc * nCells rows + yc)], by rw [if_pos hin]; simp [e], ?_⟩
        intro p hp
        rcases List.mem_append.mp hp with hp | hp
        · exact h2 p hp
        · simp only [List.mem_singleton] at hp; rw [hp]; exact ⟨r1, r2⟩
      · exact ⟨l, by rw [if_neg hin]; simp, h2⟩
  obtain ⟨cells, hcl, hin⟩ := hcells A.nc le_rfl
  have hcl' : A.cellList rows = some cells := hcl
  unfold addBestCandidatesNew
  simp only [hrange, hcl']
  split
  · simp
  -- weights of the existing features
  have hw : ∃ w, A.existingWeights cols rows range s = some w := by
    unfold existingWeights
    generalize (fun _ => 0 : ℕ → ℝ) = w
    generalize List.finRange n = l
    induction l generalizing w with
    | nil => exact ⟨w, rfl⟩
    | cons i l ih =>
      simp only [List.foldlM_cons, Option.bind_eq_bind]
      by_cases hv : (s.slots i).valid = true
      · cases hp : A.view (s.slots i) with
        | none => simpa [hv] using ih w
        | some p =>
          obtain ⟨b1, b2⟩ := hview i p hp
          obtain ⟨xc, e1⟩ := hten _ b1
          obtain ⟨yc, e2⟩ := hten _ b2
          simpa [hv, cellOf, e1, e2] using ih _
      · simpa [hv] using ih w
  obtain ⟨w, hw⟩ := hw
  simp only [hw]
  have hsorted : ∀ p ∈ cells.mergeSort (fun a b => decide (A.shi b.1 ≤ A.shi a.1)), 0 ≤ p.2 ∧ p.2 < nCells cols * nCells rows :=
    fun p hp => hin p (List.mem_mergeSort.mp hp)
  clear hcl hcl' hin hw
  generalize cells.mergeSort (fun a b => decide (A.shi b.1 ≤ A.shi a.1)) = l at hsorted
  have hstart : A.maxAdded ≤ (0 : ℤ) + (n - s.getValidCount : ℕ) := by simpa using hfree
  generalize (0 : ℤ) = added at hstart
  generalize (∅ : Finset (Fin n)) = ids
  clear hfree hview
  induction l generalizing w added s ids with
  | nil => simp [newLoop]
  | cons a l ih =>
    obtain ⟨nf, cell⟩ := a
    unfold newLoop
    split
    · rename_i hlt
      rw [if_pos (hsorted (nf, cell) (by simp))]
      have hrest : ∀ p ∈ l, 0 ≤ p.2 ∧ p.2 < nCells cols * nCells rows := fun p hp => hsorted p (by simp [hp])
      split
      · cases hf : s.getFreeIndex with
        | none =>
          have := (FeatSet.getValidCount_eq_n s).mpr hf
          omega
        | some i =>
          simp only [FeatSet.makeNewFeature, hf, Function.update_self, Function.update_idem]
          apply ih _ _ hrest
          rw [placeOne_count nf hf]
          have := FeatSet.getValidCount_le s
          omega
      · exact ih s w hrest _ hstart _
    · simp

end AddArgs

end Rovio
