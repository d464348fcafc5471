import Verif.Spec.SharedImages

/-!
# C112: image pyramids do not share pixels, unless they are copy constructed
-/

namespace Rovio.SharedImages

/-! ### Lemmas -/

/-- The buffers of a pyramid. -/
def ids (p : Pyr) : List ℕ := p.filterMap fun l => l.1.map Header.id

@[simp] lemma ids_nil : ids [] = [] := rfl

@[simp] lemma ids_none (c : V2) (p : Pyr) : ids ((none, c) :: p) = ids p := rfl

@[simp] lemma ids_some (h : Header) (c : V2) (p : Pyr) : ids ((some h, c) :: p) = h.id :: ids p := rfl

lemma ids_replicate (L : ℕ) : ids (List.replicate L (none, 0)) = [] := by
  induction L with
  | zero => rfl
  | succ L ih => rw [List.replicate_succ, ids_none, ih]

lemma view_congr {m m' : Mem} {p : Pyr} (h : ∀ b ∈ ids p, m'.buf b = m.buf b) : view m' p = view m p := by
  induction p with
  | nil => rfl
  | cons a p ih =>
    obtain ⟨a, c⟩ := a
    cases a with
    | none => simp only [view, List.map_cons, Option.map_none, List.cons.injEq, true_and]; exact ih h
    | some k =>
      have h0 := h k.id (by simp)
      have h1 := ih fun b hb => h b (by simp [hb])
      simp only [view, List.map_cons, Option.map_some, Mem.img, h0, List.cons.injEq, true_and]
      exact h1

/-- What a write to the pyramid `old`, that becomes `new`, does to the buffers. -/
structure Eff (m m' : Mem) (old new : Pyr) : Prop where
  next_le : m.next ≤ m'.next
  frame : ∀ b < m.next, b ∉ ids old → m'.buf b = m.buf b
  src : ∀ b ∈ ids new, (b ∈ ids old ∨ m.next ≤ b) ∧ b < m'.next
  nodup : (ids new).Nodup

lemma create_spec (m : Mem) (d : Option Header) (r c : ℕ) (hd : ∀ h, d = some h → h.id < m.next) :
    (m.create d r c).1.buf = m.buf ∧ m.next ≤ (m.create d r c).1.next ∧ (m.create d r c).2.rows = r ∧ (m.create d r c).2.cols = c ∧
      (m.create d r c).2.id < (m.create d r c).1.next ∧ (d.map Header.id = some (m.create d r c).2.id ∨ (m.create d r c).2.id = m.next) := by
  unfold Mem.create
  cases d with
  | none => exact ⟨rfl, Nat.le_succ _, rfl, rfl, Nat.lt_succ_self _, Or.inr rfl⟩
  | some h =>
    dsimp only
    split
    · rename_i e
      exact ⟨rfl, le_refl _, e.1, e.2, hd h rfl, Or.inl rfl⟩
    · exact ⟨rfl, Nat.le_succ _, rfl, rfl, Nat.lt_succ_self _, Or.inr rfl⟩

lemma mem_ids_cons {d : Option Header} {c : V2} {p : Pyr} {b : ℕ} : b ∈ ids ((d, c) :: p) ↔ d.map Header.id = some b ∨ b ∈ ids p := by
  cases d with
  | none => simp
  | some h => simp [eq_comm]

lemma nodup_ids_cons {d : Option Header} {c : V2} {p : Pyr} (h : (ids ((d, c) :: p)).Nodup) :
    (ids p).Nodup ∧ ∀ b, d.map Header.id = some b → b ∉ ids p := by
  cases d with
  | none => exact ⟨h, by simp⟩
  | some k =>
    rw [ids_some, List.nodup_cons] at h
    exact ⟨h.2, by rintro b hb; simp only [Option.map_some, Option.some.injEq] at hb; exact hb ▸ h.1⟩

/-- Prepending one level to the effect on the remaining ones. -/
lemma Eff.cons {m m' : Mem} {d : Option Header} {c c' : V2} {ds rest : Pyr} {r k : ℕ} {px : ℕ → ℕ → ℕ}
    (hb : ∀ b ∈ ids ((d, c) :: ds), b < m.next)
    (hn : (ids ((d, c) :: ds)).Nodup)
    (h : Eff ((m.create d r k).1.write (m.create d r k).2.id px) m' ds rest) :
    Eff m m' ((d, c) :: ds) ((some (m.create d r k).2, c') :: rest) ∧ m'.buf (m.create d r k).2.id = px ∧ (m.create d r k).2.id ∉ ids ds := by
  have hd : ∀ h, d = some h → h.id < m.next := fun h e => hb h.id (by rw [e]; simp)
  obtain ⟨e1, e2, -, -, e5, e6⟩ := create_spec m d r k hd
  obtain ⟨n1, n2⟩ := nodup_ids_cons hn
  have hnot : (m.create d r k).2.id ∉ ids ds := by
    rcases e6 with e6 | e6
    · exact n2 _ e6
    · intro hm
      have := hb _ (mem_ids_cons.2 (Or.inr hm))
      omega
  have hnext : ((m.create d r k).1.write (m.create d r k).2.id px).next = (m.create d r k).1.next := rfl
  refine ⟨⟨?_, ?_, ?_, ?_⟩, ?_, hnot⟩
  · exact e2.trans h.next_le
  · intro b hlt hnb
    rw [mem_ids_cons, not_or] at hnb
    rw [h.frame b (by rw [hnext]; omega) hnb.2]
    have hne : b ≠ (m.create d r k).2.id := by
      rcases e6 with e6 | e6
      · intro e; exact hnb.1 (e ▸ e6)
      · omega
    simp only [Mem.write, Function.update_of_ne hne, e1]
  · intro b hm
    rw [ids_some, List.mem_cons] at hm
    rcases hm with rfl | hm
    · refine ⟨?_, lt_of_lt_of_le e5 h.next_le⟩
      rcases e6 with e6 | e6
      · exact Or.inl (mem_ids_cons.2 (Or.inl e6))
      · exact Or.inr e6.ge
    · obtain ⟨s1, s2⟩ := h.src b hm
      refine ⟨?_, s2⟩
      rcases s1 with s1 | s1
      · exact Or.inl (mem_ids_cons.2 (Or.inr s1))
      · exact Or.inr (e2.trans s1)
  · rw [ids_some, List.nodup_cons]
    refine ⟨fun hm => ?_, h.nodup⟩
    rcases (h.src _ hm).1 with s1 | s1
    · exact hnot s1
    · rw [hnext] at s1; omega
  · rw [h.frame _ (by rw [hnext]; exact e5) hnot]
    simp [Mem.write]

/-- A level of a pyramid as it can be read. -/
def seen (l : Level) : Option Img × V2 := (some l.img, l.center)

lemma computeFrom_spec (useCv : Option (Img → ℕ → ℕ → ℕ)) (ds : Pyr) : ∀ (i : ℕ) (prev : Header × V2) (m : Mem),
    (∀ b ∈ ids ds, b < m.next) → (ids ds).Nodup →
    match levelsFrom useCv (ds.length + 1) i ⟨m.img prev.1, prev.2⟩ with
    | none => computeFrom useCv i prev ds m = none
    | some ls => ∃ m' rest, computeFrom useCv i prev ds m = some (m', rest) ∧ Eff m m' ds rest ∧ rest.length = ds.length ∧
        (some (m.img prev.1), prev.2) :: view m' rest = ls.map seen := by
  induction ds with
  | nil =>
    intro i prev m _ _
    exact ⟨m, [], rfl, ⟨le_refl _, fun _ _ _ => rfl, by simp, by simp⟩, rfl, rfl⟩
  | cons d ds ih =>
    intro i prev m hb hn
    obtain ⟨d, c⟩ := d
    simp only [List.length_cons, levelsFrom]
    cases hnx : nextLevel useCv i ⟨m.img prev.1, prev.2⟩ with
    | none => simp [computeFrom, hnx]
    | some nxt =>
      simp only [Option.bind_eq_bind, Option.bind_some, Option.pure_def]
      have hd : ∀ h, d = some h → h.id < m.next := fun h e => hb h.id (by rw [e]; simp)
      obtain ⟨e1, e2, e3, e4, e5, e6⟩ := create_spec m d nxt.img.rows nxt.img.cols hd
      set r := m.create d nxt.img.rows nxt.img.cols with hr
      have hb' : ∀ b ∈ ids ds, b < (r.1.write r.2.id nxt.img.px).next := fun b h =>
        lt_of_lt_of_le (hb b (mem_ids_cons.2 (Or.inr h))) e2
      have himg : (r.1.write r.2.id nxt.img.px).img r.2 = nxt.img := by
        simp [Mem.img, Mem.write, e3, e4]
      have := ih (i + 1) (r.2, nxt.center) (r.1.write r.2.id nxt.img.px) hb' (nodup_ids_cons hn).1
      rw [himg] at this
      cases hls : levelsFrom useCv (ds.length + 1) (i + 1) nxt with
      | none =>
        rw [hls] at this
        simp only [Option.bind_none]
        simp only [computeFrom, hnx, Option.bind_eq_bind, Option.bind_some, ← hr, this, Option.bind_none]
      | some ls =>
        rw [hls] at this
        obtain ⟨m', rest, h1, h2, h3, h4⟩ := this
        obtain ⟨k1, k2, k3⟩ := Eff.cons (c := c) (c' := nxt.center) hb hn h2
        simp only [Option.bind_some]
        refine ⟨m', (some r.2, nxt.center) :: rest, ?_, k1, by simp [h3], ?_⟩
        · simp only [computeFrom, hnx, Option.bind_eq_bind, Option.bind_some, ← hr, h1, Option.pure_def]
        · have hv : m'.img r.2 = nxt.img := by
            simp only [Mem.img, e3, e4]
            rw [k2]
          simp only [view, List.map_cons, Option.map_some, hv] at h4 ⊢
          rw [h4]
          rfl

lemma compute_spec (useCv : Option (Img → ℕ → ℕ → ℕ)) (img : Img) (p : Pyr) (m : Mem) (hb : ∀ b ∈ ids p, b < m.next) (hn : (ids p).Nodup) :
    match computeFromImage p.length img useCv with
    | none => compute useCv img p m = none
    | some ls => ∃ m' q, compute useCv img p m = some (m', q) ∧ Eff m m' p q ∧ q.length = p.length ∧ view m' q = ls.map seen := by
  cases p with
  | nil => exact ⟨m, [], rfl, ⟨le_refl _, fun _ _ _ => rfl, by simp, by simp⟩, rfl, rfl⟩
  | cons d ds =>
    obtain ⟨d, c⟩ := d
    have hd : ∀ h, d = some h → h.id < m.next := fun h e => hb h.id (by rw [e]; simp)
    obtain ⟨e1, e2, e3, e4, e5, e6⟩ := create_spec m d img.rows img.cols hd
    set r := m.create d img.rows img.cols with hr
    have himg : (r.1.write r.2.id img.px).img r.2 = img := by simp [Mem.img, Mem.write, e3, e4]
    have := computeFrom_spec useCv ds 1 (r.2, 0) (r.1.write r.2.id img.px)
      (fun b h => lt_of_lt_of_le (hb b (mem_ids_cons.2 (Or.inr h))) e2) (nodup_ids_cons hn).1
    rw [himg] at this
    simp only [computeFromImage, List.length_cons]
    cases hls : levelsFrom useCv (ds.length + 1) 1 ⟨img, 0⟩ with
    | none =>
      rw [hls] at this
      simp only [compute, Option.bind_eq_bind, ← hr, this, Option.bind_none]
    | some ls =>
      rw [hls] at this
      obtain ⟨m', rest, h1, h2, h3, h4⟩ := this
      obtain ⟨k1, k2, k3⟩ := Eff.cons (c := c) (c' := 0) hb hn h2
      refine ⟨m', (some r.2, 0) :: rest, ?_, k1, by simp [h3], ?_⟩
      · simp only [compute, Option.bind_eq_bind, ← hr, h1, Option.bind_some, Option.pure_def]
      · have hv : m'.img r.2 = img := by
          simp only [Mem.img, e3, e4]
          rw [k2]
        simp only [view, List.map_cons, Option.map_some, hv] at h4 ⊢
        exact h4

lemma assign_spec (ds : Pyr) : ∀ (ss : Pyr) (m : Mem), ds.length = ss.length → (∀ b ∈ ids ds, b < m.next) → (ids ds).Nodup →
    (∀ b ∈ ids ss, b < m.next ∧ b ∉ ids ds) →
    Eff m (assign ds ss m).1 ds (assign ds ss m).2 ∧ (assign ds ss m).2.length = ds.length ∧ view (assign ds ss m).1 (assign ds ss m).2 = view m ss := by
  induction ds with
  | nil =>
    intro ss m hl _ _ _
    have : ss = [] := List.length_eq_zero_iff.1 hl.symm
    subst this
    exact ⟨⟨le_refl _, fun _ _ _ => rfl, by simp [assign], by simp [assign]⟩, rfl, rfl⟩
  | cons d ds ih =>
    intro ss m hl hb hn hs
    obtain ⟨d, c⟩ := d
    cases ss with
    | nil => simp at hl
    | cons s ss =>
      obtain ⟨s, c'⟩ := s
      have hl' : ds.length = ss.length := by simpa using hl
      cases s with
      | none =>
        obtain ⟨i1, i2, i3⟩ := ih ss m hl' (fun b h => hb b (mem_ids_cons.2 (Or.inr h))) (nodup_ids_cons hn).1
          (fun b h => ⟨(hs b (by simpa using h)).1, fun k => (hs b (by simpa using h)).2 (mem_ids_cons.2 (Or.inr k))⟩)
        simp only [assign, Mem.copyTo]
        refine ⟨⟨i1.next_le, fun b h k => i1.frame b h fun k' => k (mem_ids_cons.2 (Or.inr k')), ?_, ?_⟩, by simp [i2], ?_⟩
        · intro b h
          obtain ⟨s1, s2⟩ := i1.src b h
          exact ⟨s1.imp (fun k => mem_ids_cons.2 (Or.inr k)) id, s2⟩
        · exact i1.nodup
        · simp only [view, List.map_cons, Option.map_none, List.cons.injEq, true_and]
          exact i3
      | some h =>
        have hd : ∀ h, d = some h → h.id < m.next := fun h e => hb h.id (by rw [e]; simp)
        obtain ⟨e1, e2, e3, e4, e5, e6⟩ := create_spec m d h.rows h.cols hd
        set r := m.create d h.rows h.cols with hr
        have hne : ∀ b ∈ ids ((some h, c') :: ss), b ≠ r.2.id := by
          intro b hm e
          obtain ⟨q1, q2⟩ := hs b hm
          rcases e6 with e6 | e6
          · exact q2 (mem_ids_cons.2 (Or.inl (e ▸ e6)))
          · omega
        obtain ⟨i1, i2, i3⟩ := ih ss (r.1.write r.2.id (r.1.buf h.id)) hl'
          (fun b k => lt_of_lt_of_le (hb b (mem_ids_cons.2 (Or.inr k))) e2) (nodup_ids_cons hn).1
          (fun b k => ⟨lt_of_lt_of_le (hs b (by simp [k])).1 e2, fun k' => (hs b (by simp [k])).2 (mem_ids_cons.2 (Or.inr k'))⟩)
        obtain ⟨k1, k2, k3⟩ := Eff.cons (c := c) (c' := c') hb hn i1
        simp only [assign, Mem.copyTo, ← hr]
        refine ⟨k1, by simp [i2], ?_⟩
        have hv : view (r.1.write r.2.id (r.1.buf h.id)) ss = view m ss := by
          apply view_congr
          intro b hm
          simp only [Mem.write, Function.update_of_ne (hne b (by simp [hm])), e1]
        simp only [view, List.map_cons, Option.map_some] at i3 hv ⊢
        rw [i3, hv]
        congr 2
        simp only [Mem.img, e3, e4, Option.some.injEq]
        rw [k2, e1]

lemma assign_self (p : Pyr) (m : Mem) : assign p p m = (m, p) := by
  induction p with
  | nil => rfl
  | cons d ds ih =>
    obtain ⟨d, c⟩ := d
    have hc : m.copyTo d d = (m, d) := by
      cases d with
      | none => rfl
      | some h => simp [Mem.copyTo, Mem.create, Mem.write]
    simp only [assign, hc, ih]

/-- No two levels of pyramids use the same buffer. -/
structure Fine (L : ℕ) (w : World) : Prop where
  len : ∀ i, (w.pyr i).length = L
  below : ∀ i, ∀ b ∈ ids (w.pyr i), b < w.mem.next
  nodup : ∀ i, (ids (w.pyr i)).Nodup
  apart : ∀ i j, i ≠ j → ∀ b ∈ ids (w.pyr i), b ∉ ids (w.pyr j)

/-- The values of all pyramids. -/
def World.values (w : World) : Spec.Values := fun i => view w.mem (w.pyr i)

lemma Fine.after {L : ℕ} {w : World} (hw : Fine L w) {i : ℕ} {m' : Mem} {q : Pyr} (h : Eff w.mem m' (w.pyr i) q) (hl : q.length = L) :
    Fine L ⟨m', Function.update w.pyr i q⟩ ∧
      World.values ⟨m', Function.update w.pyr i q⟩ = Function.update w.values i (view m' q) := by
  constructor
  · constructor
    · intro j
      by_cases hj : j = i
      · subst hj; simpa using hl
      · simpa [Function.update_of_ne hj] using hw.len j
    · intro j b hb
      by_cases hj : j = i
      · subst hj; simp only [Function.update_self] at hb; exact (h.src b hb).2
      · simp only [Function.update_of_ne hj] at hb; exact lt_of_lt_of_le (hw.below j b hb) h.next_le
    · intro j
      by_cases hj : j = i
      · subst hj; simpa using h.nodup
      · simpa [Function.update_of_ne hj] using hw.nodup j
    · intro j k hjk b hb
      by_cases hj : j = i
      · subst hj
        simp only [Function.update_self] at hb
        simp only [Function.update_of_ne (Ne.symm hjk)]
        intro hk
        rcases (h.src b hb).1 with s | s
        · exact hw.apart j k hjk b s hk
        · have := hw.below k b hk; omega
      · simp only [Function.update_of_ne hj] at hb
        by_cases hk : k = i
        · subst hk
          simp only [Function.update_self]
          intro hk
          rcases (h.src b hk).1 with s | s
          · exact hw.apart j k hjk b hb s
          · have := hw.below j b hb; omega
        · simp only [Function.update_of_ne hk]
          exact hw.apart j k hjk b hb
  · funext j
    by_cases hj : j = i
    · subst hj; simp [World.values]
    · simp only [World.values, Function.update_of_ne hj]
      apply view_congr
      intro b hb
      exact h.frame b (hw.below j b hb) (hw.apart j i hj b hb)

lemma step_sim {L : ℕ} {w : World} (hw : Fine L w) (o : Op) (ho : ¬Spec.IsCopyConstruction o) :
    (step L w o).map World.values = Spec.step L w.values o ∧ ∀ w', step L w o = some w' → Fine L w' := by
  cases o with
  | construct i =>
    have he : Eff w.mem w.mem (w.pyr i) (List.replicate L (none, 0)) :=
      ⟨le_refl _, fun _ _ _ => rfl, by simp [ids_replicate], by simp [ids_replicate]⟩
    obtain ⟨f1, f2⟩ := hw.after he (by simp)
    constructor
    · simp only [step, Option.map_some, Spec.step]
      rw [f2]
      congr 2
      simp [view]
    · intro w' hs
      simp only [step, Option.some.injEq] at hs
      exact hs ▸ f1
  | compute i img useCv =>
    have hc := compute_spec useCv img (w.pyr i) w.mem (hw.below i) (hw.nodup i)
    rw [hw.len i] at hc
    cases hls : computeFromImage L img useCv with
    | none =>
      rw [hls] at hc
      simp [step, Spec.step, hls, hc]
    | some ls =>
      rw [hls] at hc
      obtain ⟨m', q, h1, h2, h3, h4⟩ := hc
      obtain ⟨f1, f2⟩ := hw.after h2 h3
      constructor
      · simp only [step, h1, Option.bind_eq_bind, Option.bind_some, Option.pure_def, Option.map_some, Spec.step, hls]
        rw [f2, h4]
        rfl
      · intro w' hs
        simp only [step, h1, Option.bind_eq_bind, Option.bind_some, Option.pure_def, Option.some.injEq] at hs
        exact hs ▸ f1
  | assign i j =>
    by_cases hij : i = j
    · subst hij
      have : (⟨w.mem, Function.update w.pyr i (w.pyr i)⟩ : World) = w := by simp
      constructor
      · simp only [step, assign_self, this, Option.map_some, Spec.step]
        simp
      · intro w' hs
        simp only [step, assign_self, this, Option.some.injEq] at hs
        exact hs ▸ hw
    · obtain ⟨a1, a2, a3⟩ := assign_spec (w.pyr i) (w.pyr j) w.mem ((hw.len i).trans (hw.len j).symm) (hw.below i) (hw.nodup i)
        (fun b hb => ⟨hw.below j b hb, hw.apart j i (Ne.symm hij) b hb⟩)
      obtain ⟨f1, f2⟩ := hw.after a1 (a2.trans (hw.len i))
      constructor
      · simp only [step, Option.map_some, Spec.step]
        rw [f2, a3]
        rfl
      · intro w' hs
        simp only [step, Option.some.injEq] at hs
        exact hs ▸ f1
  | copyConstruct i j => exact absurd trivial ho

lemma run_sim {L : ℕ} (ops : List Op) : ∀ {w : World}, Fine L w → (∀ o ∈ ops, ¬Spec.IsCopyConstruction o) →
    (run L w ops).map World.values = Spec.run L w.values ops := by
  induction ops with
  | nil => intro w _ _; rfl
  | cons o os ih =>
    intro w hw ho
    obtain ⟨h1, h2⟩ := step_sim hw o (ho o (by simp))
    simp only [run, Spec.run, Option.bind_eq_bind]
    rw [← h1]
    cases hs : step L w o with
    | none => simp
    | some w' =>
      simp only [Option.bind_some, Option.map_some]
      exact ih (h2 w' hs) fun o' h => ho o' (by simp [h])

lemma fine_start (L : ℕ) : Fine L (start L) :=
  ⟨fun i => by simp [start], fun i b hb => by simp [start, ids_replicate] at hb, fun i => by simp [start, ids_replicate],
    fun i j _ b hb => by simp [start, ids_replicate] at hb⟩

/-! ### The properties -/

/-- C112: over any history of constructing pyramids, computing them from images and assigning them to each other, in which none is copy
constructed, every pyramid holds what it would hold if each were a value of its own: buffers are reused, but a later image or
assignment never changes another pyramid. -/
theorem C112_images_independent (L : ℕ) (ops : List Op) (h : ∀ o ∈ ops, ¬Spec.IsCopyConstruction o) :
    (run L (start L) ops).map (fun w i => view w.mem (w.pyr i)) = Spec.run L (fun _ => List.replicate L (none, 0)) ops := by
  have := run_sim ops (fine_start L) h
  have hv : (start L).values = fun _ => List.replicate L (none, 0) := by
    funext i; simp [World.values, start, view]
  rw [hv] at this
  exact this

/-- An image of one pixel. -/
def pixel (v : ℕ) : Img := ⟨1, 1, fun _ _ => v⟩

/- Non-vacuity: an image is received and queued, the next one is received into the same pyramid: the queued one stays. -/
example : Spec.run 1 (fun _ => List.replicate 1 (none, 0)) [.compute 0 (pixel 7) none, .assign 1 0, .compute 0 (pixel 9) none] =
    some (Function.update (Function.update (Function.update (fun _ => List.replicate 1 (none, 0)) 0 [(some (pixel 7), 0)]) 1
      [(some (pixel 7), 0)]) 0 [(some (pixel 9), 0)]) ∧
    ∀ o ∈ ([.compute 0 (pixel 7) none, .assign 1 0, .compute 0 (pixel 9) none] : List Op), ¬Spec.IsCopyConstruction o := by
  constructor
  · simp [Spec.run, Spec.step, computeFromImage, levelsFrom]
  · simp [Spec.IsCopyConstruction]

/-- C112 (finding): a copy constructed pyramid shares its pixels with the original.  If the queued measurement was copy constructed
from the one that is being assembled, the next image of the same size overwrites it. -/
theorem C112_finding_copy_constructed :
    (run 1 (start 1) [.compute 0 (pixel 7) none, .copyConstruct 1 0]).map (fun w => view w.mem (w.pyr 1)) = some [(some (pixel 7), 0)] ∧
    (run 1 (start 1) [.compute 0 (pixel 7) none, .copyConstruct 1 0, .compute 0 (pixel 9) none]).map (fun w => view w.mem (w.pyr 1)) =
      some [(some (pixel 9), 0)] := by
  constructor <;>
    simp [run, step, start, compute, computeFrom, Mem.create, Mem.write, Mem.img, view, pixel]

end Rovio.SharedImages
