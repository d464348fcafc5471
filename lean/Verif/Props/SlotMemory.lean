import Verif.Spec.SlotMemory
import Mathlib.Tactic.Set
import Mathlib.Tactic.Cases
import Mathlib.Tactic.Push
import Mathlib.Order.Basic

/-!
# C113: feature slots delete what they have allocated, once
-/

namespace Rovio.SlotMemory

open Spec

/-! ### Lemmas -/

/-- Owned objects are alive and have one owner, everything alive is owned, and a null pointer has no object behind it. -/
structure Inv (w : World) : Prop where
  own_live : ∀ i s f a, w.slot i = some s → s.own f = some a → w.live a = true
  below : ∀ a, w.live a = true → a < w.next
  owner : ∀ a, w.live a = true → ∃ i s f, w.slot i = some s ∧ s.own f = some a
  unique : ∀ i j s t f g a, w.slot i = some s → w.slot j = some t → s.own f = some a → t.own g = some a → i = j ∧ f = g
  mp_own : ∀ i s f a, w.slot i = some s → s.mp f = some (.allocated a) → s.own f = some a
  null : ∀ i s f, w.slot i = some s → s.mp f = none → s.own f = none

lemma inv_start : Inv start := by
  constructor <;> simp [start]

lemma inv_construct {w : World} (h : Inv w) {i : ℕ} (hi : w.slot i = none) : Inv (w.set i (some ⟨fun _ => none, fun _ => none⟩)) := by
  have key : ∀ j s, (w.set i (some ⟨fun _ => none, fun _ => none⟩)).slot j = some s → (j = i ∧ s = ⟨fun _ => none, fun _ => none⟩) ∨ w.slot j = some s := by
    intro j s hs
    by_cases hj : j = i
    · subst hj; simp only [World.set, Function.update_self, Option.some.injEq] at hs; exact Or.inl ⟨rfl, hs.symm⟩
    · simp only [World.set, Function.update_of_ne hj] at hs; exact Or.inr hs
  constructor
  · intro j s f a hs ha
    rcases key j s hs with ⟨-, rfl⟩ | hs
    · simp at ha
    · exact h.own_live j s f a hs ha
  · exact h.below
  · intro a ha
    obtain ⟨j, s, f, hs, hf⟩ := h.owner a ha
    refine ⟨j, s, f, ?_, hf⟩
    have hj : j ≠ i := by rintro rfl; rw [hi] at hs; cases hs
    simpa [World.set, Function.update_of_ne hj] using hs
  · intro j k s t f g a hs ht hf hg
    rcases key j s hs with ⟨-, rfl⟩ | hs
    · simp at hf
    · rcases key k t ht with ⟨-, rfl⟩ | ht
      · simp at hg
      · exact h.unique j k s t f g a hs ht hf hg
  · intro j s f a hs ha
    rcases key j s hs with ⟨-, rfl⟩ | hs
    · simp at ha
    · exact h.mp_own j s f a hs ha
  · intro j s f hs ha
    rcases key j s hs with ⟨-, rfl⟩ | hs
    · rfl
    · exact h.null j s f hs ha

/-- Changing pointers in use only, none to null. -/
lemma inv_mp {w : World} (h : Inv w) {i : ℕ} {s : Slot} (hi : w.slot i = some s) {mp : Field → Option Addr}
    (h1 : ∀ f a, mp f = some (.allocated a) → s.mp f = some (.allocated a)) (h2 : ∀ f, mp f = none → s.mp f = none) :
    Inv (w.set i (some { s with mp := mp })) := by
  have key : ∀ j t, (w.set i (some { s with mp := mp })).slot j = some t → (j = i ∧ t = { s with mp := mp }) ∨ (j ≠ i ∧ w.slot j = some t) := by
    intro j t hs
    by_cases hj : j = i
    · subst hj; simp only [World.set, Function.update_self, Option.some.injEq] at hs; exact Or.inl ⟨rfl, hs.symm⟩
    · simp only [World.set, Function.update_of_ne hj] at hs; exact Or.inr ⟨hj, hs⟩
  -- the owner of an object is as before
  have own : ∀ j t f a, (w.set i (some { s with mp := mp })).slot j = some t → t.own f = some a → ∃ t', w.slot j = some t' ∧ t'.own f = some a := by
    intro j t f a hs ha
    rcases key j t hs with ⟨rfl, rfl⟩ | ⟨-, hs⟩
    · exact ⟨s, hi, ha⟩
    · exact ⟨t, hs, ha⟩
  constructor
  · intro j t f a hs ha
    obtain ⟨t', k1, k2⟩ := own j t f a hs ha
    exact h.own_live j t' f a k1 k2
  · exact h.below
  · intro a ha
    obtain ⟨j, t, f, hs, hf⟩ := h.owner a ha
    by_cases hj : j = i
    · subst hj
      rw [hi] at hs; cases hs
      exact ⟨j, { s with mp := mp }, f, by simp [World.set], hf⟩
    · exact ⟨j, t, f, by simpa [World.set, Function.update_of_ne hj] using hs, hf⟩
  · intro j k t u f g a hs ht hf hg
    obtain ⟨t', k1, k2⟩ := own j t f a hs hf
    obtain ⟨u', l1, l2⟩ := own k u g a ht hg
    exact h.unique j k t' u' f g a k1 l1 k2 l2
  · intro j t f a hs ha
    rcases key j t hs with ⟨rfl, rfl⟩ | ⟨-, hs⟩
    · exact h.mp_own j s f a hi (h1 f a ha)
    · exact h.mp_own j t f a hs ha
  · intro j t f hs ha
    rcases key j t hs with ⟨rfl, rfl⟩ | ⟨-, hs⟩
    · exact h.null j s f hi (h2 f ha)
    · exact h.null j t f hs ha

lemma inv_allocateOne {w : World} (h : Inv w) (i : ℕ) (f : Field) : Inv (allocateOne i w f) := by
  unfold allocateOne
  cases hi : w.slot i with
  | none => exact h
  | some s =>
    dsimp only
    split
    · rename_i hn
      have hown := h.null i s f hi hn
      have fresh : ∀ j t g a, w.slot j = some t → t.own g = some a → a ≠ w.next := by
        intro j t g a hj ha e
        have := h.below a (h.own_live j t g a hj ha)
        omega
      set s' : Slot := ⟨Function.update s.mp f (some (.allocated w.next)), Function.update s.own f (some w.next)⟩ with hs'
      have key : ∀ j t, Function.update w.slot i (some s') j = some t → (j = i ∧ t = s') ∨ (j ≠ i ∧ w.slot j = some t) := by
        intro j t hs
        by_cases hj : j = i
        · subst hj; simp only [Function.update_self, Option.some.injEq] at hs; exact Or.inl ⟨rfl, hs.symm⟩
        · simp only [Function.update_of_ne hj] at hs; exact Or.inr ⟨hj, hs⟩
      have own : ∀ j t g a, Function.update w.slot i (some s') j = some t → t.own g = some a →
          (j = i ∧ g = f ∧ a = w.next) ∨ ∃ t', w.slot j = some t' ∧ t'.own g = some a := by
        intro j t g a hs ha
        rcases key j t hs with ⟨rfl, rfl⟩ | ⟨-, hs⟩
        · by_cases hg : g = f
          · subst hg
            simp only [hs', Function.update_self, Option.some.injEq] at ha
            exact Or.inl ⟨rfl, rfl, ha.symm⟩
          · simp only [hs', Function.update_of_ne hg] at ha
            exact Or.inr ⟨s, hi, ha⟩
        · exact Or.inr ⟨t, hs, ha⟩
      constructor
      · intro j t g a hs ha
        rcases own j t g a hs ha with ⟨-, -, rfl⟩ | ⟨t', k1, k2⟩
        · simp
        · simpa [Function.update_of_ne (fresh j t' g a k1 k2)] using h.own_live j t' g a k1 k2
      · intro a ha
        by_cases e : a = w.next
        · subst e; exact Nat.lt_succ_self _
        · simp only [Function.update_of_ne e] at ha
          exact Nat.lt_succ_of_lt (h.below a ha)
      · intro a ha
        by_cases e : a = w.next
        · subst e
          exact ⟨i, s', f, by simp, by simp [hs']⟩
        · simp only [Function.update_of_ne e] at ha
          obtain ⟨j, t, g, hj, hg⟩ := h.owner a ha
          by_cases hj' : j = i
          · subst hj'
            rw [hi] at hj; cases hj
            have hgf : g ≠ f := by rintro rfl; rw [hown] at hg; cases hg
            exact ⟨j, s', g, by simp, by simpa [hs', Function.update_of_ne hgf] using hg⟩
          · exact ⟨j, t, g, by simpa [Function.update_of_ne hj'] using hj, hg⟩
      · intro j k t u g g' a hs ht hg hg'
        rcases own j t g a hs hg with ⟨rfl, rfl, rfl⟩ | ⟨t', k1, k2⟩
        · rcases own k u g' w.next ht hg' with ⟨rfl, rfl, -⟩ | ⟨u', l1, l2⟩
          · exact ⟨rfl, rfl⟩
          · exact absurd rfl (fresh k u' g' w.next l1 l2)
        · rcases own k u g' a ht hg' with ⟨rfl, rfl, rfl⟩ | ⟨u', l1, l2⟩
          · exact absurd rfl (fresh j t' g w.next k1 k2)
          · exact h.unique j k t' u' g g' a k1 l1 k2 l2
      · intro j t g a hs ha
        rcases key j t hs with ⟨rfl, rfl⟩ | ⟨-, hs⟩
        · by_cases hg : g = f
          · subst hg
            simp only [hs', Function.update_self, Option.some.injEq, Addr.allocated.injEq] at ha ⊢
            exact ha
          · simp only [hs', Function.update_of_ne hg] at ha ⊢
            exact h.mp_own j s g a hi ha
        · exact h.mp_own j t g a hs ha
      · intro j t g hs ha
        rcases key j t hs with ⟨rfl, rfl⟩ | ⟨-, hs⟩
        · by_cases hg : g = f
          · subst hg; simp [hs'] at ha
          · simp only [hs', Function.update_of_ne hg] at ha ⊢
            exact h.null j s g hi ha
        · exact h.null j t g hs ha
    · exact h

lemma deleteOne_spec {live : ℕ → Bool} {o : Option ℕ} (h : ∀ a, o = some a → live a = true) :
    ∃ l, deleteOne live o = some l ∧ (∀ a, l a = true ↔ live a = true ∧ o ≠ some a) := by
  cases o with
  | none => exact ⟨live, rfl, by simp⟩
  | some b =>
    refine ⟨Function.update live b false, by simp [deleteOne, h b rfl], fun a => ?_⟩
    by_cases e : a = b
    · subst e; simp
    · simp [Function.update_of_ne e, Ne.symm e]

lemma destroy_spec {w : World} (h : Inv w) {i : ℕ} {s : Slot} (hi : w.slot i = some s) :
    ∃ w', step w (.destroy i) = some w' ∧ Inv w' := by
  have dist : ∀ f g a, f ≠ g → s.own f = some a → s.own g ≠ some a := by
    intro f g a hfg h1 h2
    exact hfg (h.unique i i s s f g a hi hi h1 h2).2
  obtain ⟨l1, e1, p1⟩ := deleteOne_spec (live := w.live) (o := s.own .coordinates) fun a ha => h.own_live i s _ a hi ha
  obtain ⟨l2, e2, p2⟩ := deleteOne_spec (live := l1) (o := s.own .distance) fun a ha =>
    (p1 a).2 ⟨h.own_live i s _ a hi ha, dist _ _ a (by decide) ha⟩
  obtain ⟨l3, e3, p3⟩ := deleteOne_spec (live := l2) (o := s.own .statistics) fun a ha =>
    (p2 a).2 ⟨(p1 a).2 ⟨h.own_live i s _ a hi ha, dist _ _ a (by decide) ha⟩, dist _ _ a (by decide) ha⟩
  obtain ⟨l4, e4, p4⟩ := deleteOne_spec (live := l3) (o := s.own .patch) fun a ha =>
    (p3 a).2 ⟨(p2 a).2 ⟨(p1 a).2 ⟨h.own_live i s _ a hi ha, dist _ _ a (by decide) ha⟩, dist _ _ a (by decide) ha⟩, dist _ _ a (by decide) ha⟩
  have p : ∀ a, l4 a = true ↔ w.live a = true ∧ ∀ f, s.own f ≠ some a := by
    intro a
    rw [p4, p3, p2, p1]
    constructor
    · rintro ⟨⟨⟨⟨a1, a2⟩, a3⟩, a4⟩, a5⟩
      exact ⟨a1, fun f => by cases f <;> assumption⟩
    · rintro ⟨a1, a2⟩
      exact ⟨⟨⟨⟨a1, a2 _⟩, a2 _⟩, a2 _⟩, a2 _⟩
  refine ⟨{ w.set i none with live := l4 }, ?_, ?_⟩
  · simp only [step, hi, Option.bind_eq_bind, Option.bind_some, e1, e2, e3, e4, Option.pure_def]
  · have key : ∀ j t, Function.update w.slot i none j = some t → j ≠ i ∧ w.slot j = some t := by
      intro j t hs
      by_cases hj : j = i
      · subst hj; simp at hs
      · simp only [Function.update_of_ne hj] at hs; exact ⟨hj, hs⟩
    constructor
    · intro j t f a hs ha
      obtain ⟨hj, hs⟩ := key j t hs
      refine (p a).2 ⟨h.own_live j t f a hs ha, fun g hg => hj ?_⟩
      exact (h.unique j i t s f g a hs hi ha hg).1
    · intro a ha
      exact h.below a ((p a).1 ha).1
    · intro a ha
      obtain ⟨k1, k2⟩ := (p a).1 ha
      obtain ⟨j, t, f, hj, hf⟩ := h.owner a k1
      have hne : j ≠ i := by
        rintro rfl
        rw [hi] at hj; cases hj
        exact k2 f hf
      exact ⟨j, t, f, by simpa [World.set, Function.update_of_ne hne] using hj, hf⟩
    · intro j k t u f g a hs ht hf hg
      exact h.unique j k t u f g a (key j t hs).2 (key k u ht).2 hf hg
    · intro j t f a hs ha
      exact h.mp_own j t f a (key j t hs).2 ha
    · intro j t f hs ha
      exact h.null j t f (key j t hs).2 ha

lemma inv_foldl {w : World} (i : ℕ) (fs : List Field) (h : Inv w) : Inv (fs.foldl (allocateOne i) w) := by
  induction fs generalizing w with
  | nil => exact h
  | cons f fs ih => exact ih (inv_allocateOne h i f)

lemma statsAlive_iff {w : World} (h : Inv w) {i : ℕ} {s : Slot} (hi : w.slot i = some s) :
    statsAlive w s = true ↔ s.mp .statistics ≠ none := by
  unfold statsAlive
  cases hm : s.mp .statistics with
  | none => simp
  | some a =>
    cases a with
    | foreign a => simp [Addr.alive]
    | allocated a => simp [Addr.alive, h.own_live i s _ a hi (h.mp_own i s _ a hi hm)]

lemma step_inv {w w' : World} (h : Inv w) {o : Op} (ho : ¬IsCopyConstruction o) (hs : step w o = some w') : Inv w' := by
  cases o with
  | construct i =>
    simp only [step] at hs
    split at hs
    · cases hs
    · rename_i hn
      cases hs
      exact inv_construct h (by simpa using hn)
  | link i f a =>
    simp only [step, Option.bind_eq_bind] at hs
    obtain ⟨s, hi, hs⟩ := Option.bind_eq_some_iff.mp hs
    simp only [Option.pure_def, Option.some.injEq] at hs
    subst hs
    refine inv_mp h hi ?_ ?_
    · intro g b hg
      by_cases e : g = f
      · subst e; simp at hg
      · simpa [Function.update_of_ne e] using hg
    · intro g hg
      by_cases e : g = f
      · subst e; simp at hg
      · simpa [Function.update_of_ne e] using hg
  | allocateMissing i =>
    simp only [step, Option.bind_eq_bind] at hs
    obtain ⟨s, hi, hs⟩ := Option.bind_eq_some_iff.mp hs
    simp only [Option.pure_def, Option.some.injEq] at hs
    subst hs
    exact inv_foldl i _ h
  | assign i j =>
    simp only [step, Option.bind_eq_bind] at hs
    obtain ⟨s, hi, hs⟩ := Option.bind_eq_some_iff.mp hs
    obtain ⟨t, hj, hs⟩ := Option.bind_eq_some_iff.mp hs
    split at hs
    · simp only [Option.pure_def, Option.some.injEq] at hs
      exact hs ▸ h
    · cases hs
  | destroy i =>
    cases hi : w.slot i with
    | none => simp [step, hi] at hs
    | some s =>
      obtain ⟨w'', e, hw⟩ := destroy_spec h hi
      rw [e] at hs
      cases hs
      exact hw
  | copyConstruct i j => exact absurd trivial ho

lemma run_inv {ops : List Op} : ∀ {w w' : World}, Inv w → (∀ o ∈ ops, ¬IsCopyConstruction o) → run w ops = some w' → Inv w' := by
  induction ops with
  | nil => intro w w' h _ e; cases e; exact h
  | cons o os ih =>
    intro w w' h ho e
    obtain ⟨w1, e1, e2⟩ := Option.bind_eq_some_iff.mp e
    exact ih (step_inv h (ho o (by simp)) e1) (fun o' h' => ho o' (by simp [h'])) e2

lemma _root_.Rovio.SlotMemory.Spec.Reachable.inv {w : World} (h : Reachable w) : Inv w := by
  obtain ⟨ops, h1, h2⟩ := h
  exact run_inv inv_start h1 h2

/-! ### The properties -/

/-- C113: after any history without copy construction the only operations that are undefined are the evident misuses.  In particular destroying a slot that
exists always works: it never deletes anything twice, whatever was linked, allocated or assigned before. -/
theorem C113_undefined_iff (w : World) (hw : Reachable w) (o : Op) (ho : ¬IsCopyConstruction o) : step w o = none ↔ Misuse w o := by
  have h := hw.inv
  cases o with
  | construct i =>
    simp only [step, Misuse]
    cases w.slot i <;> simp
  | link i f a =>
    simp only [step, Misuse]
    cases w.slot i <;> simp
  | allocateMissing i =>
    simp only [step, Misuse]
    cases w.slot i <;> simp
  | assign i j =>
    simp only [step, Misuse, NoStatistics]
    cases hi : w.slot i with
    | none => simp
    | some s =>
      cases hj : w.slot j with
      | none => simp
      | some t =>
        have k1 := statsAlive_iff h hi
        have k2 := statsAlive_iff h hj
        cases h1 : s.mp .statistics <;> cases h2 : t.mp .statistics <;> simp_all
  | destroy i =>
    simp only [Misuse]
    cases hi : w.slot i with
    | none => simp [step, hi]
    | some s =>
      obtain ⟨w', e, -⟩ := destroy_spec h hi
      simp [e]
  | copyConstruct i j => exact absurd trivial ho

/-- C113: every object a slot refers to can be accessed: it belongs to somebody else, or it was allocated by this very slot and is alive. -/
theorem C113_pointers_live (w : World) (hw : Reachable w) (i : ℕ) (s : Slot) (hi : w.slot i = some s) (f : Field) (a : ℕ)
    (ha : s.mp f = some (.allocated a)) : s.own f = some a ∧ w.live a = true :=
  ⟨hw.inv.mp_own i s f a hi ha, hw.inv.own_live i s f a hi (hw.inv.mp_own i s f a hi ha)⟩

/-- C113: nothing leaks and nothing has two owners: an allocated object is alive exactly as long as a slot owns it, and that slot is unique.  When all slots
are destroyed nothing is left. -/
theorem C113_no_leak (w : World) (hw : Reachable w) :
    (∀ a, w.live a = true ↔ ∃ i s f, w.slot i = some s ∧ s.own f = some a) ∧
    (∀ i j s t f g a, w.slot i = some s → w.slot j = some t → s.own f = some a → t.own g = some a → i = j ∧ f = g) ∧
    ((∀ i, w.slot i = none) → ∀ a, w.live a = false) := by
  have h := hw.inv
  refine ⟨fun a => ⟨h.owner a, ?_⟩, h.unique, fun hn a => ?_⟩
  · rintro ⟨i, s, f, hi, hf⟩
    exact h.own_live i s f a hi hf
  · by_contra hl
    obtain ⟨i, s, f, hi, -⟩ := h.owner a (by simpa using hl)
    rw [hn i] at hi
    cases hi

/-- C113: what the constructor of a filter state does with a slot always works where there is none yet, and leaves a slot that has all its objects:
coordinates and distance are those of the state, statistics and patch are allocated. -/
theorem C113_ready (w : World) (i c d : ℕ) (hi : w.slot i = none) :
    ∃ w' s a b, run w (setUp i c d) = some w' ∧ w'.slot i = some s ∧ (∀ j, j ≠ i → w'.slot j = w.slot j) ∧
      s.mp .coordinates = some (.foreign c) ∧ s.mp .distance = some (.foreign d) ∧
      s.mp .statistics = some (.allocated a) ∧ s.mp .patch = some (.allocated b) ∧ a ≠ b ∧ w'.live a = true ∧ w'.live b = true ∧
      s.own .coordinates = none ∧ s.own .distance = none ∧ s.own .statistics = some a ∧ s.own .patch = some b := by
  simp only [setUp, run, step, hi, World.set, Option.isSome_none, Option.bind_eq_bind, Option.bind_some, Option.pure_def, Function.update_self,
    List.foldl_cons, List.foldl_nil, allocateOne, Bool.false_eq_true, if_false]
  simp only [Function.update_self, ne_eq, reduceCtorEq, not_false_eq_true, Function.update_of_ne, if_false, if_true, Function.update_idem]
  refine ⟨_, _, w.next, w.next + 1, rfl, by simp; rfl, ?_, by simp, by simp, by simp, by simp, by omega, by simp, by simp, by simp, by simp, by simp, by simp⟩
  intro j hj
  simp [Function.update_of_ne hj]

/- Non-vacuity: two slots are set up, one is assigned to the other, linked anew, and both are destroyed. -/
example : ∃ w, run start (setUp 0 10 11 ++ setUp 1 20 21 ++ [.assign 0 1, .link 1 .patch 30, .allocateMissing 1, .destroy 0, .destroy 1]) = some w ∧ Reachable w := by
  have : (run start (setUp 0 10 11 ++ setUp 1 20 21 ++ [.assign 0 1, .link 1 .patch 30, .allocateMissing 1, .destroy 0, .destroy 1])).isSome := by
    decide
  obtain ⟨w, hw⟩ := Option.isSome_iff_exists.1 this
  exact ⟨w, hw, _, by simp [setUp, IsCopyConstruction], hw⟩

/-- C113 (finding): a copy constructed slot takes the same objects for its own; destroying both deletes them twice. -/
theorem C113_finding_copy_constructed (c d : ℕ) : run start (setUp 0 c d ++ [.copyConstruct 1 0, .destroy 0]) ≠ none ∧
    run start (setUp 0 c d ++ [.copyConstruct 1 0, .destroy 0, .destroy 1]) = none := by
  constructor
  · simp [setUp, run, step, start, World.set, allocateOne, deleteOne]
  · simp [setUp, run, step, start, World.set, allocateOne, deleteOne]

/-- C113 (finding): assignment between slots that have no statistics yet follows a null pointer. -/
theorem C113_finding_assign_unallocated : run start [.construct 0, .construct 1, .assign 0 1] = none := by
  simp [run, step, start, World.set, statsAlive]

end Rovio.SlotMemory
