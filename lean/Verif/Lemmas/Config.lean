import Verif.Model.Config
import Mathlib.Tactic

namespace Rovio.Config

variable {n nCam nPose : ℕ}

/-- Does a call concern variable `v` in the register of `h`? -/
def Op.touches (h : Handler) (v : Var n nCam nPose) : Op n nCam nPose → Bool
  | .reg h' _ v' => decide (h' = h ∧ v' = v)
  | .rem h' v' => decide (h' = h ∧ v' = v)

/-- Effect of a call on the entry it concerns. -/
def Op.cell (r : Option String) : Op n nCam nPose → Option (Option String)
  | .reg _ k _ => if r = none then some (some k) else none
  | .rem _ _ => if r = none then none else some none

lemma Op.apply_of_cell {R : Regs n nCam nPose} {op : Op n nCam nPose} {h v} (ht : op.touches h v = true) {r : Option String} (hc : op.cell (R h v) = some r) :
    op.apply R = some (R.set h v r) := by
  cases op with
  | reg h' k v' =>
    simp only [Op.touches, decide_eq_true_eq] at ht
    obtain ⟨rfl, rfl⟩ := ht
    simp only [Op.cell] at hc
    split_ifs at hc with h0
    simp only [Option.some.injEq] at hc
    subst hc
    simp [Op.apply, h0]
  | rem h' v' =>
    simp only [Op.touches, decide_eq_true_eq] at ht
    obtain ⟨rfl, rfl⟩ := ht
    simp only [Op.cell] at hc
    split_ifs at hc with h0
    simp only [Option.some.injEq] at hc
    subst hc
    simp [Op.apply, h0]

lemma Op.exists_touches (op : Op n nCam nPose) : ∃ h v, op.touches h v = true ∧ ∀ h' v', op.touches h' v' = true → h' = h ∧ v' = v := by
  cases op with
  | reg h k v => exact ⟨h, v, by simp [Op.touches], by intro h' v' e; simp [Op.touches] at e; exact ⟨e.1.symm, e.2.symm⟩⟩
  | rem h v => exact ⟨h, v, by simp [Op.touches], by intro h' v' e; simp [Op.touches] at e; exact ⟨e.1.symm, e.2.symm⟩⟩

/-- A sequence of calls acts on each entry by itself. -/
lemma runOps_of_cells (ops : List (Op n nCam nPose)) : ∀ (R R' : Regs n nCam nPose), (∀ h v, (ops.filter (Op.touches h v)).foldlM Op.cell (R h v) = some (R' h v)) →
    runOps R ops = some R' := by
  induction ops with
  | nil =>
    intro R R' h
    have : R = R' := by
      funext a b
      have := h a b
      simpa using this
    rw [this]; rfl
  | cons op ops ih =>
    intro R R' hc
    obtain ⟨h, v, ht, hu⟩ := op.exists_touches
    have h1 := hc h v
    rw [List.filter_cons_of_pos ht, List.foldlM_cons] at h1
    obtain ⟨r, hr, h2⟩ := Option.bind_eq_some_iff.mp h1
    have ha := Op.apply_of_cell ht hr
    show (op :: ops).foldlM Op.apply R = some R'
    rw [List.foldlM_cons, ha]
    refine ih _ R' ?_
    intro h' v'
    by_cases e : h' = h ∧ v' = v
    · obtain ⟨rfl, rfl⟩ := e
      simpa [Regs.set] using h2
    · have h3 := hc h' v'
      have : op.touches h' v' = false := by
        rw [← Bool.not_eq_true]; exact fun h => e (hu _ _ h)
      rw [List.filter_cons_of_neg (by simp [this])] at h3
      simpa [Regs.set, e] using h3

lemma flatMap_one {m : ℕ} {α : Type} (c : Fin m) (f : Fin m → List α) (h : ∀ i, i ≠ c → f i = []) : (List.finRange m).flatMap f = f c := by
  have hnd := List.nodup_finRange m
  have hmem := List.mem_finRange c
  generalize List.finRange m = l at hnd hmem ⊢
  induction l with
  | nil => simp at hmem
  | cons a l ih =>
    rw [List.flatMap_cons]
    obtain ⟨ha, hl⟩ := List.nodup_cons.mp hnd
    by_cases e : a = c
    · subst e
      have : l.flatMap f = [] := by
        rw [List.flatMap_eq_nil_iff]
        intro x hx
        exact h x (fun e => ha (e ▸ hx))
      rw [this, List.append_nil]
    · rw [h a e, List.nil_append]
      exact ih hl (by rcases List.mem_cons.mp hmem with e' | h; exact absurd e'.symm e; exact h)

lemma flatMap_none {m : ℕ} {α : Type} (f : Fin m → List α) (h : ∀ i, f i = []) : (List.finRange m).flatMap f = [] := by
  rw [List.flatMap_eq_nil_iff]; intro x _; exact h x

end Rovio.Config
