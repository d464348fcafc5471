import Verif.Model.ImgUpdate
import Verif.Spec.ImgUpdate
import Mathlib.Tactic.Linarith
import Mathlib.Tactic.Ring

/-! Helper lemmas for the feature/camera scan of one image (properties C33, C34, C37). -/

namespace Rovio.Img

open Stat

variable {P W K : Type} {n nCam : ℕ} {cfg : Cfg} {env : Env P W K n nCam}

/-- One complete visit (search iteration, and update plus post-processing if a measurement was found). -/
noncomputable def visitOnce (cfg : Cfg) (env : Env P W K n nCam) (s : St P W K n nCam) (i : Fin n) : Option (St P W K n nCam) :=
  if s.valid i then
    match activeCam nCam s.cam (s.camID i) with
    | none => none
    | some c =>
      match probe cfg env (s.enter i) i c with
      | .inl s2 => some (postVisit cfg env (applyUpdate env s2 i c).1 (applyUpdate env s2 i c).2 i c)
      | .inr st => some (advance cfg ((s.enter i).setStatus i c st))
  else some (advance cfg s)

/-- Sequence of visits until all slots are done. -/
inductive Run (cfg : Cfg) (env : Env P W K n nCam) : St P W K n nCam → St P W K n nCam → Prop
  | done (s) : ¬ s.id < n → Run cfg env s s
  | step (s s1 s2) (h : s.id < n) : visitOnce cfg env s ⟨s.id, h⟩ = some s1 → Run cfg env s1 s2 → Run cfg env s s2

/-! #### Fields not touched -/

@[simp] lemma increase_fsm (s : St P W K n nCam) (i) : (s.increase i).fsm = s.fsm := rfl
@[simp] lemma increase_id (s : St P W K n nCam) (i) : (s.increase i).id = s.id := rfl
@[simp] lemma increase_cam (s : St P W K n nCam) (i) : (s.increase i).cam = s.cam := rfl
@[simp] lemma increase_t (s : St P W K n nCam) (i) : (s.increase i).t = s.t := rfl
@[simp] lemma increase_log (s : St P W K n nCam) (i) : (s.increase i).log = s.log := rfl
@[simp] lemma setStatus_fsm (s : St P W K n nCam) (i c st) : (s.setStatus i c st).fsm = s.fsm := rfl
@[simp] lemma setStatus_id (s : St P W K n nCam) (i c st) : (s.setStatus i c st).id = s.id := rfl
@[simp] lemma setStatus_cam (s : St P W K n nCam) (i c st) : (s.setStatus i c st).cam = s.cam := rfl
@[simp] lemma setStatus_t (s : St P W K n nCam) (i c st) : (s.setStatus i c st).t = s.t := rfl

lemma advance_fields (s : St P W K n nCam) : (advance cfg s).fsm = s.fsm ∧ (advance cfg s).ext = s.ext ∧
    (advance cfg s).t = s.t ∧ (advance cfg s).log = s.log ∧ (advance cfg s).w = s.w := by
  unfold advance; split <;> simp

lemma probe_inl {s s2 : St P W K n nCam} {i c} (h : probe cfg env s i c = .inl s2) :
    s2.fsm = s.fsm ∧ s2.ext = s.ext ∧ s2.id = s.id ∧ s2.cam = s.cam ∧ s2.t = s.t ∧ s2.log = s.log := by
  unfold probe at h
  split at h
  · simp at h
  · split at h
    · cases h; simp
    · split at h
      · split at h
        · split at h
          · simp at h
          · cases h; simp
        · simp at h
      · simp at h

lemma applyUpdate_fields (s : St P W K n nCam) (i c) :
    (∀ j, (applyUpdate env s i c).1.valid j = s.valid j) ∧ (∀ j, (applyUpdate env s i c).1.camID j = s.camID j) ∧
    (applyUpdate env s i c).1.ext = s.ext ∧ (applyUpdate env s i c).1.id = s.id ∧ (applyUpdate env s i c).1.cam = s.cam ∧
    (applyUpdate env s i c).1.t = s.t ∧ (applyUpdate env s i c).1.log = s.log := by
  refine ⟨fun j => rfl, fun j => rfl, rfl, rfl, rfl, rfl, rfl⟩

lemma remove_fields (s : St P W K n nCam) (i) :
    (s.remove env i).ext = s.ext ∧ (s.remove env i).id = s.id ∧ (s.remove env i).cam = s.cam ∧
    (s.remove env i).t = s.t ∧ (s.remove env i).log = s.log ∧ (s.remove env i).w = s.w ∧
    (∀ j, (s.remove env i).camID j = s.camID j) ∧
    (∀ j, (s.remove env i).valid j = (s.valid j && decide (j ≠ i))) := by
  refine ⟨rfl, rfl, rfl, rfl, rfl, rfl, fun j => ?_, fun j => ?_⟩
  · unfold St.camID St.remove FeatSet.removeFeature
    by_cases h : j = i
    · subst h; simp
    · simp [h]
  · unfold St.valid St.remove FeatSet.removeFeature
    by_cases h : j = i
    · subst h; simp
    · simp [h]

/-- Effect of a removal loop over a list of slots: `bad` depends only on data no removal changes. -/
lemma removeFold_fields (bad : St P W K n nCam → Fin n → Prop) [∀ s i, Decidable (bad s i)]
    (hb : ∀ s i j, bad (s.remove env j) i ↔ bad s i) (l : List (Fin n)) (s : St P W K n nCam) :
    let r := l.foldl (fun s i => if s.valid i then (if bad s i then s.remove env i else s) else s) s
    r.ext = s.ext ∧ r.id = s.id ∧ r.cam = s.cam ∧ r.t = s.t ∧ r.log = s.log ∧ r.w = s.w ∧
    (∀ j, r.camID j = s.camID j) ∧ (∀ j, r.valid j = true ↔ s.valid j = true ∧ ¬ (j ∈ l ∧ bad s j)) := by
  induction l generalizing s with
  | nil => simp
  | cons a l ih =>
    simp only [List.foldl_cons]
    by_cases hv : s.valid a = true
    · by_cases hbad : bad s a
      · simp only [hv, if_true, hbad]
        obtain ⟨h1, h2, h3, h4, h5, h6, h7, h8⟩ := ih (s.remove env a)
        obtain ⟨g1, g2, g3, g4, g5, g6, g7, g8⟩ := remove_fields (env := env) s a
        refine ⟨h1.trans g1, h2.trans g2, h3.trans g3, h4.trans g4, h5.trans g5, h6.trans g6, fun j => (h7 j).trans (g7 j), fun j => ?_⟩
        rw [h8 j, g8 j, hb]
        by_cases hj : j = a
        · subst hj; simp [hbad]
        · simp [hj]
      · simp only [hv, if_true, hbad, if_false]
        obtain ⟨h1, h2, h3, h4, h5, h6, h7, h8⟩ := ih s
        refine ⟨h1, h2, h3, h4, h5, h6, h7, fun j => ?_⟩
        rw [h8 j]
        by_cases hj : j = a
        · subst hj; simp [hbad]
        · simp [hj]
    · simp only [hv, Bool.false_eq_true, if_false]
      obtain ⟨h1, h2, h3, h4, h5, h6, h7, h8⟩ := ih s
      refine ⟨h1, h2, h3, h4, h5, h6, h7, fun j => ?_⟩
      rw [h8 j]
      by_cases hj : j = a
      · subst hj; simp [hv]
      · simp [hj]

lemma removeNegative_fields (s : St P W K n nCam) :
    let r := removeNegative cfg env s
    r.ext = s.ext ∧ r.id = s.id ∧ r.cam = s.cam ∧ r.t = s.t ∧ r.log = s.log ∧ r.w = s.w ∧
    (∀ j, r.camID j = s.camID j) ∧
    (∀ j, r.valid j = true ↔ s.valid j = true ∧ ¬ (cfg.removeNegative = true ∧ env.dist s.w j < 1e-8)) := by
  unfold removeNegative
  cases hc : cfg.removeNegative
  · simp
  · simp only [if_true]
    have := removeFold_fields (env := env) (fun s i => env.dist s.w i < 1e-8) (fun s i j => Iff.rfl) (List.finRange n) s
    simpa using this

/-! #### Correspondence of the nested loops with the sequence of visits -/

lemma activeCam_congr {k : ℕ} {a b : ℤ} (h : a = b) : activeCam nCam k a = activeCam nCam k b := by rw [h]

lemma scan_run (fuel : ℕ) (s s' : St P W K n nCam) (b : Bool) (h : scan cfg env fuel s = some (s', b)) :
    (b = false → Run cfg env s s') ∧
    (b = true → ∃ (hi : s'.id < n) (c : Fin nCam), activeCam nCam s'.cam (s'.camID ⟨s'.id, hi⟩) = some c ∧
      ∀ r, Run cfg env (postVisit cfg env (applyUpdate env s' ⟨s'.id, hi⟩ c).1 (applyUpdate env s' ⟨s'.id, hi⟩ c).2 ⟨s'.id, hi⟩ c) r →
        Run cfg env s r) := by
  induction fuel generalizing s with
  | zero => simp [scan] at h
  | succ fuel ih =>
    unfold scan at h
    by_cases hid : s.id < n
    · simp only [hid, dif_pos] at h
      cases hv : s.valid ⟨s.id, hid⟩ with
      | false =>
        simp only [hv, Bool.false_eq_true, if_false] at h
        have hstep : visitOnce cfg env s ⟨s.id, hid⟩ = some (advance cfg s) := by simp [visitOnce, hv]
        obtain ⟨i1, i2⟩ := ih _ h
        refine ⟨fun hb => Run.step _ _ _ hid hstep (i1 hb), fun hb => ?_⟩
        obtain ⟨hi, c, hc, hr⟩ := i2 hb
        exact ⟨hi, c, hc, fun r hh => Run.step _ _ _ hid hstep (hr r hh)⟩
      | true =>
        simp only [hv, if_true] at h
        cases hc : activeCam nCam s.cam (s.camID ⟨s.id, hid⟩) with
        | none => simp [hc] at h
        | some c =>
          simp only [hc] at h
          set s1 := s.enter ⟨s.id, hid⟩ with hs1
          have e1 : s1.id = s.id ∧ s1.cam = s.cam ∧ s1.fsm = s.fsm := by rw [hs1]; unfold St.enter; split <;> simp
          cases hp : probe cfg env s1 ⟨s.id, hid⟩ c with
          | inl s2 =>
            simp only [hp, Option.some.injEq, Prod.mk.injEq] at h
            obtain ⟨rfl, rfl⟩ := h
            obtain ⟨p1, p2, p3, p4, p5, p6⟩ := probe_inl hp
            refine ⟨by simp, fun _ => ?_⟩
            have hid2 : s2.id = s.id := p3.trans e1.1
            have efin2 : (⟨s2.id, by rw [hid2]; exact hid⟩ : Fin n) = ⟨s.id, hid⟩ := by simp [hid2]
            refine ⟨by rw [hid2]; exact hid, c, ?_, ?_⟩
            · rw [efin2, p4, e1.2.1]
              have : s2.camID ⟨s.id, hid⟩ = s.camID ⟨s.id, hid⟩ := by unfold St.camID; rw [p1, e1.2.2]
              rw [this]; exact hc
            · intro r hr
              rw [efin2] at hr
              refine Run.step _ _ _ hid ?_ hr
              simp [visitOnce, hv, hc, ← hs1, hp]
          | inr st =>
            simp only [hp] at h
            have hstep : visitOnce cfg env s ⟨s.id, hid⟩ = some (advance cfg (s1.setStatus ⟨s.id, hid⟩ c st)) := by
              simp [visitOnce, hv, hc, ← hs1, hp]
            obtain ⟨i1, i2⟩ := ih _ h
            refine ⟨fun hb => Run.step _ _ _ hid hstep (i1 hb), fun hb => ?_⟩
            obtain ⟨hi, c', hc', hr⟩ := i2 hb
            exact ⟨hi, c', hc', fun r hh => Run.step _ _ _ hid hstep (hr r hh)⟩
    · simp only [hid, dif_neg, not_false_eq_true, Option.some.injEq, Prod.mk.injEq] at h
      obtain ⟨rfl, rfl⟩ := h
      exact ⟨fun _ => Run.done _ hid, by simp⟩

lemma loop_run (fuel : ℕ) (s s' : St P W K n nCam) (h : loop cfg env fuel s = some s') : Run cfg env s s' := by
  induction fuel generalizing s with
  | zero => simp [loop] at h
  | succ fuel ih =>
    unfold loop at h
    cases hs : scan cfg env (n * nCam + 1) s with
    | none => simp [hs] at h
    | some r =>
      obtain ⟨s1, b⟩ := r
      obtain ⟨r1, r2⟩ := scan_run _ _ _ _ hs
      cases b with
      | false =>
        simp only [hs, Option.some.injEq] at h
        subst h; exact r1 rfl
      | true =>
        obtain ⟨hi, c, hc, hr⟩ := r2 rfl
        simp only [hs, hi, dif_pos, hc] at h
        exact hr _ (ih _ h)

/-! #### Invariant -/

/-- Position of a visit in the prescribed order. -/
def pos (nCam : ℕ) (s : St P W K n nCam) : ℕ := s.id * nCam + s.cam

lemma activeCam_spec {k : ℕ} {a : ℤ} (hk : k < nCam) (ha : 0 ≤ a ∧ a < nCam) :
    ∃ c, activeCam nCam k a = some c ∧ Spec.offset nCam a c = k := by
  unfold activeCam
  have hpos : (0:ℤ) < nCam := by omega
  have e : ((k : ℤ) + a).tmod nCam = ((k : ℤ) + a) % nCam := Int.tmod_eq_emod_of_nonneg (by omega)
  have h1 := Int.emod_nonneg ((k:ℤ) + a) (by omega : (nCam : ℤ) ≠ 0)
  have h2 := Int.emod_lt_of_pos ((k:ℤ) + a) hpos
  rw [← e] at h1 h2
  rw [dif_pos ⟨h1, h2⟩]
  refine ⟨_, rfl, ?_⟩
  unfold Spec.offset
  have : ((((k:ℤ) + a).tmod nCam).toNat : ℤ) = ((k:ℤ) + a) % nCam := by rw [Int.toNat_of_nonneg h1, e]
  simp only [this]
  rw [Int.emod_sub_emod, show (k:ℤ) + a - a = k by ring, Int.emod_eq_of_lt (by omega) (by omega)]
  simp

lemma activeCam_offset {k : ℕ} {a : ℤ} {c : Fin nCam} (hk : k < nCam) (ha : 0 ≤ a ∧ a < nCam)
    (h : activeCam nCam k a = some c) : Spec.offset nCam a c = k := by
  obtain ⟨c', h1, h2⟩ := activeCam_spec hk ha
  rw [h1] at h; cases h; exact h2

lemma offset_lt {a : ℤ} (c : Fin nCam) : Spec.offset nCam a c < nCam := by
  unfold Spec.offset
  have hpos : (0:ℤ) < nCam := by have := c.isLt; omega
  have h2 := Int.emod_lt_of_pos ((c:ℤ) - a) hpos
  have h1 := Int.emod_nonneg ((c:ℤ) - a) (by omega : (nCam : ℤ) ≠ 0)
  omega

lemma offset_inj {a : ℤ} {c c' : Fin nCam} (h : Spec.offset nCam a c = Spec.offset nCam a c') : c = c' := by
  unfold Spec.offset at h
  have hpos : (0:ℤ) < nCam := by have := c.isLt; omega
  have h1 := Int.emod_nonneg ((c:ℤ) - a) (by omega : (nCam : ℤ) ≠ 0)
  have h1' := Int.emod_nonneg ((c':ℤ) - a) (by omega : (nCam : ℤ) ≠ 0)
  have h3 : ((c:ℤ) - a) % nCam = ((c':ℤ) - a) % nCam := by omega
  have h4 : (((c:ℤ) - a) - ((c':ℤ) - a)) % nCam = 0 := Int.emod_eq_emod_iff_emod_sub_eq_zero.mp h3
  have h5 : ((c:ℤ) - c') % nCam = 0 := by rw [← h4]; congr 1; ring
  have := c.isLt; have := c'.isLt
  obtain ⟨q, hq⟩ := Int.dvd_of_emod_eq_zero h5
  have hq0 : q = 0 := by
    by_contra hne
    rcases lt_or_gt_of_ne hne with h | h
    · have : (nCam:ℤ) * q ≤ nCam * (-1) := Int.mul_le_mul_of_nonneg_left (by omega) (by omega)
      omega
    · have : (nCam:ℤ) * 1 ≤ nCam * q := Int.mul_le_mul_of_nonneg_left (by omega) (by omega)
      omega
  subst hq0
  apply Fin.ext; omega

lemma offset_zero {a : ℤ} {c : Fin nCam} (ha : 0 ≤ a ∧ a < nCam) : Spec.offset nCam a c = 0 ↔ (c : ℤ) = a := by
  constructor
  · intro h
    have hc : Spec.offset nCam a ⟨a.toNat, by omega⟩ = 0 := by
      unfold Spec.offset
      simp [Int.toNat_of_nonneg ha.1]
    rw [← hc] at h
    have := offset_inj h
    rw [this]
    simp; omega
  · intro h
    unfold Spec.offset
    rw [h]; simp

/-- What a visit of a valid slot does before advancing. -/
structure Core (cfg : Cfg) (s s3 : St P W K n nCam) (i : Fin n) (c : Fin nCam) (res : Option Status) : Prop where
  id : s3.id = s.id
  cam : s3.cam = s.cam
  t : s3.t = s.t
  camID : ∀ j, s3.camID j = s.camID j
  valid : ∀ j, s3.valid j = true → s.valid j = true
  keep : cfg.removeNegative = false → ∀ j, s3.valid j = s.valid j
  log : s3.log = s.log ++ [⟨i, c, res⟩]
  other : ∀ j, j ≠ i → s3.ext j = s.ext j
  lastPatch : (s3.ext i).lastPatch = (s.ext i).lastPatch
  stat : (s3.ext i).stat = match res with
    | some st => Spec.withStatus ((s.enter i).ext i).stat (Function.update ((s.enter i).ext i).stat.status c st)
    | none => ((s.enter i).ext i).stat
  none : res = none → s3.valid i = false

lemma enter_fields (s : St P W K n nCam) (i) : (s.enter i).fsm = s.fsm ∧ (s.enter i).id = s.id ∧ (s.enter i).cam = s.cam ∧
    (s.enter i).t = s.t ∧ (s.enter i).log = s.log ∧ (∀ j, j ≠ i → (s.enter i).ext j = s.ext j) ∧
    ((s.enter i).ext i).lastPatch = (s.ext i).lastPatch ∧ (s.enter i).w = s.w := by
  unfold St.enter
  split
  · refine ⟨rfl, rfl, rfl, rfl, rfl, fun j hj => ?_, ?_, rfl⟩
    · simp [St.increase, hj]
    · simp [St.increase]
  · simp

lemma visit_core {s s1 : St P W K n nCam} {i : Fin n} (hv : s.valid i = true) (h : visitOnce cfg env s i = some s1) :
    ∃ c res s3, activeCam nCam s.cam (s.camID i) = some c ∧ s1 = advance cfg s3 ∧ Core cfg s s3 i c res := by
  unfold visitOnce at h
  simp only [hv, if_true] at h
  obtain ⟨e1, e2, e3, e4, e5, e6, e7, _⟩ := enter_fields s i
  cases hc : activeCam nCam s.cam (s.camID i) with
  | none => simp [hc] at h
  | some c =>
    simp only [hc] at h
    cases hp : probe cfg env (s.enter i) i c with
    | inr st =>
      simp only [hp, Option.some.injEq] at h
      refine ⟨c, some st, _, rfl, h.symm, ?_⟩
      exact {
        id := e2, cam := e3, t := e4, camID := fun j => by simp [St.camID, e1], valid := fun j => by simp [St.valid, e1],
        keep := fun _ j => by simp [St.valid, e1], log := by simp [St.setStatus, e5],
        other := fun j hj => by simp [St.setStatus, hj, e6 j hj], lastPatch := by simp [St.setStatus, e7],
        stat := by simp [St.setStatus, Spec.withStatus], none := by simp }
    | inl s2 =>
      simp only [hp, Option.some.injEq] at h
      obtain ⟨p1, p2, p3, p4, p5, p6⟩ := probe_inl hp
      obtain ⟨a1, a2, a3, a4, a5, a6, a7⟩ := applyUpdate_fields (env := env) s2 i c
      obtain ⟨r1, r2, r3, r4, r5, r6, r7, r8⟩ := removeNegative_fields (cfg := cfg) (env := env) (applyUpdate env s2 i c).1
      unfold postVisit at h
      simp only at h
      set s4 := removeNegative cfg env (applyUpdate env s2 i c).1 with hs4
      have hcam : ∀ j, s4.camID j = s.camID j := fun j => by
        rw [r7 j, a2 j]; simp [St.camID, p1, e1]
      have hval2 : ∀ j, (applyUpdate env s2 i c).1.valid j = s.valid j := fun j => by
        rw [a1 j]; simp [St.valid, p1, e1]
      have hval : ∀ j, s4.valid j = true → s.valid j = true := fun j hj => by
        rw [← hval2 j]; exact ((r8 j).mp hj).1
      have hkeep : cfg.removeNegative = false → ∀ j, s4.valid j = s.valid j := fun hk j => by
        have := r8 j
        simp only [hk, Bool.false_eq_true, false_and, not_false_eq_true, and_true, hval2 j] at this
        exact Bool.eq_iff_iff.mpr this
      have hext : s4.ext = (s.enter i).ext := by rw [r1, a3, p2]
      have hid : s4.id = s.id := by rw [r2, a4, p3, e2]
      have hcm : s4.cam = s.cam := by rw [r3, a5, p4, e3]
      have ht : s4.t = s.t := by rw [r4, a6, p5, e4]
      have hlog : s4.log = s.log := by rw [r5, a7, p6, e5]
      cases h4 : s4.valid i with
      | true =>
        simp only [h4, if_true] at h
        refine ⟨c, some (verdict env s4 (applyUpdate env s2 i c).2 i c), _, rfl, h.symm, ?_⟩
        exact {
          id := hid, cam := hcm, t := ht, camID := hcam, valid := hval, keep := hkeep,
          log := by simp [St.setStatus, hlog],
          other := fun j hj => by simp [St.setStatus, hj, hext, e6 j hj], lastPatch := by simp [St.setStatus, hext, e7],
          stat := by simp [St.setStatus, hext, Spec.withStatus], none := by simp }
      | false =>
        simp only [h4, Bool.false_eq_true, if_false] at h
        refine ⟨c, none, _, rfl, h.symm, ?_⟩
        exact {
          id := hid, cam := hcm, t := ht, camID := hcam, valid := hval, keep := hkeep,
          log := by simp [hlog],
          other := fun j hj => by simp [hext, e6 j hj], lastPatch := by simp [hext, e7],
          stat := by simp [hext], none := fun _ => h4 }

/-- The invariant of the scan relative to the state `s0` at its start. -/
structure Inv (cfg : Cfg) (s0 s : St P W K n nCam) : Prop where
  id_le : s.id ≤ n
  cam_lt : s.cam < nCam
  cam0 : cfg.cross = false → s.cam = 0
  t : s.t = s0.t
  camID : ∀ j, s.camID j = s0.camID j
  valid : ∀ j, s.valid j = true → s0.valid j = true
  keep : cfg.removeNegative = false → ∀ j, s.valid j = s0.valid j
  sorted : (s.log.map fun v => Spec.rank nCam s0.camID v.i v.c).Pairwise (· < ·)
  below : ∀ v ∈ s.log, Spec.rank nCam s0.camID v.i v.c < pos nCam s
  sound : ∀ v ∈ s.log, s0.valid v.i = true ∧ Spec.Usable cfg.cross (s0.camID v.i) v.c
  removed : ∀ v ∈ s.log, v.result = none → s.valid v.i = false
  complete : ∀ i c, s.valid i = true → Spec.Usable cfg.cross (s0.camID i) c →
    Spec.rank nCam s0.camID i c < pos nCam s → ∃ v ∈ s.log, v.i = i ∧ v.c = c
  lastPatch : ∀ i, (s.ext i).lastPatch = (s0.ext i).lastPatch
  seen : ∀ i, (∃ v ∈ s.log, v.i = i) → (s.ext i).stat = Spec.withStatus (increaseStatistics (s0.ext i).stat s0.t)
    fun c => (Spec.outcome s.log i c).getD .unknown
  unseen : ∀ i, (∀ v ∈ s.log, v.i ≠ i) → s.ext i = s0.ext i

lemma advance_pos {s : St P W K n nCam} (hlt : s.cam < nCam) (h0 : cfg.cross = false → s.cam = 0) :
    pos nCam s < pos nCam (advance cfg s) ∧ (advance cfg s).cam < nCam ∧ (cfg.cross = false → (advance cfg s).cam = 0) ∧
    (s.id < n → (advance cfg s).id ≤ n) ∧
    (cfg.cross = true → pos nCam (advance cfg s) = pos nCam s + 1) ∧
    (cfg.cross = false → pos nCam (advance cfg s) = (s.id + 1) * nCam) := by
  have hm : (s.id + 1) * nCam = s.id * nCam + nCam := by ring
  unfold advance pos
  cases hc : cfg.cross with
  | false =>
    have := h0 hc
    simp only [or_true, if_true, this, hm]
    refine ⟨by omega, by omega, by simp, by omega, by simp, by simp⟩
  | true =>
    by_cases hn : s.cam + 1 = nCam
    · simp only [hn, true_or, if_true]
      rw [hm]
      refine ⟨by omega, by omega, by simp, by omega, fun _ => by omega, by simp⟩
    · simp only [hn, Bool.true_eq_false, or_self, if_false]
      refine ⟨by omega, by omega, by simp, by omega, fun _ => by omega, by simp⟩

lemma rank_between {s : St P W K n nCam} (own : Fin n → ℤ) (hlt : s.cam < nCam) (h0 : cfg.cross = false → s.cam = 0)
    {i : Fin n} {c : Fin nCam} (hown : 0 ≤ own i ∧ own i < nCam) (hu : Spec.Usable cfg.cross (own i) c)
    (h1 : ¬ Spec.rank nCam own i c < pos nCam s) (h2 : Spec.rank nCam own i c < pos nCam (advance cfg s)) :
    (i : ℕ) = s.id ∧ Spec.offset nCam (own i) c = s.cam := by
  obtain ⟨_, _, _, _, b5, b6⟩ := advance_pos (cfg := cfg) (n := n) hlt h0
  have ho := offset_lt (a := own i) c
  unfold Spec.rank at h1 h2
  cases hc : cfg.cross with
  | true =>
    rw [b5 hc] at h2
    unfold pos at h1 h2
    have heq : (i:ℕ) * nCam + Spec.offset nCam (own i) c = s.id * nCam + s.cam := by omega
    have hi : (i:ℕ) = s.id := by
      have : ((i:ℕ) * nCam + Spec.offset nCam (own i) c) / nCam = (s.id * nCam + s.cam) / nCam := by rw [heq]
      rwa [mul_comm, Nat.mul_add_div (by omega), mul_comm s.id, Nat.mul_add_div (by omega), Nat.div_eq_of_lt ho, Nat.div_eq_of_lt hlt, add_zero, add_zero] at this
    refine ⟨hi, ?_⟩
    rw [hi] at heq; omega
  | false =>
    rw [b6 hc] at h2
    unfold pos at h1
    rw [h0 hc] at h1 ⊢
    have hz : Spec.offset nCam (own i) c = 0 := by
      rw [offset_zero hown]
      rcases hu with hu | hu
      · rw [hc] at hu; simp at hu
      · exact hu
    refine ⟨?_, hz⟩
    rw [hz] at h1 h2
    have a1 : (i:ℕ) < s.id + 1 := lt_of_mul_lt_mul_right (by omega) (Nat.zero_le nCam)
    have a2 : s.id ≤ (i:ℕ) := by
      by_contra hlt'
      have : ((i:ℕ)+1) * nCam ≤ s.id * nCam := Nat.mul_le_mul_right _ (by omega)
      have h3 : ((i:ℕ)+1) * nCam = i * nCam + nCam := by ring
      omega
    omega

lemma outcome_append (log : List (Visit n nCam)) (i j : Fin n) (c d : Fin nCam) (res : Option Status)
    (hnew : ∀ v ∈ log, ¬ (v.i = i ∧ v.c = c)) :
    Spec.outcome (log ++ [⟨i, c, res⟩]) j d = if j = i ∧ d = c then res else Spec.outcome log j d := by
  unfold Spec.outcome
  rw [List.find?_append]
  by_cases h : j = i ∧ d = c
  · obtain ⟨rfl, rfl⟩ := h
    have : log.find? (fun v => decide (v.i = j ∧ v.c = d)) = none := by
      rw [List.find?_eq_none]; intro v hv; simpa using hnew v hv
    rw [this]; simp
  · rw [if_neg h]
    cases hf : log.find? (fun v => decide (v.i = j ∧ v.c = d)) with
    | some v => simp
    | none =>
      have : ¬ (i = j ∧ c = d) := fun hh => h ⟨hh.1.symm, hh.2.symm⟩
      simp only [List.find?_cons, this, decide_false, List.find?_nil, Option.none_or]

lemma outcome_none (log : List (Visit n nCam)) (i : Fin n) (c : Fin nCam) (h : ∀ v ∈ log, v.i ≠ i) : Spec.outcome log i c = none := by
  unfold Spec.outcome
  have : log.find? (fun v => decide (v.i = i ∧ v.c = c)) = none := by
    rw [List.find?_eq_none]; intro v hv; simp [h v hv]
  rw [this]; rfl

lemma inv_step {s0 s s1 : St P W K n nCam} (H : ∀ j, s0.valid j = true → 0 ≤ s0.camID j ∧ s0.camID j < nCam)
    (hI : Inv cfg s0 s) (hid : s.id < n) (h : visitOnce cfg env s ⟨s.id, hid⟩ = some s1) :
    Inv cfg s0 s1 ∧ pos nCam s < pos nCam s1 := by
  cases hv : s.valid ⟨s.id, hid⟩ with
  | false =>
    simp only [visitOnce, hv, Bool.false_eq_true, if_false, Option.some.injEq] at h
    subst h
    obtain ⟨f1, f2, f3, f4, _⟩ := advance_fields (cfg := cfg) s
    obtain ⟨b1, b2, b3, b4, b5, b6⟩ := advance_pos (cfg := cfg) (n := n) hI.cam_lt hI.cam0
    have hvalid : ∀ j, (advance cfg s).valid j = s.valid j := fun j => by simp [St.valid, f1]
    have hcam : ∀ j, (advance cfg s).camID j = s.camID j := fun j => by simp [St.camID, f1]
    refine ⟨{ id_le := b4 hid, cam_lt := b2, cam0 := b3, t := by rw [f3, hI.t], camID := fun j => by rw [hcam, hI.camID],
              valid := fun j hj => hI.valid j (by rwa [hvalid] at hj), keep := fun hk j => by rw [hvalid, hI.keep hk],
              sorted := by rw [f4]; exact hI.sorted, below := fun v hv => by rw [f4] at hv; exact lt_trans (hI.below v hv) b1,
              sound := fun v hv => by rw [f4] at hv; exact hI.sound v hv,
              removed := fun v hv hr => by rw [f4] at hv; rw [hvalid]; exact hI.removed v hv hr, complete := ?_,
              lastPatch := by rw [f2]; exact hI.lastPatch, seen := by rw [f4, f2]; exact hI.seen,
              unseen := by rw [f4, f2]; exact hI.unseen }, b1⟩
    intro i c hi hu hr
    rw [f4]
    rw [hvalid] at hi
    by_cases hlt : Spec.rank nCam s0.camID i c < pos nCam s
    · exact hI.complete i c hi hu hlt
    · obtain ⟨e1, _⟩ := rank_between s0.camID hI.cam_lt hI.cam0 (H i (hI.valid i hi)) hu hlt hr
      have : i = ⟨s.id, hid⟩ := Fin.ext e1
      rw [this, hv] at hi; simp at hi
  | true =>
    obtain ⟨c, res, s3, hc, rfl, C⟩ := visit_core hv h
    set i : Fin n := ⟨s.id, hid⟩ with hi
    have H0 := H i (hI.valid i hv)
    have hoff : Spec.offset nCam (s0.camID i) c = s.cam := by
      rw [hI.camID i] at hc
      exact activeCam_offset hI.cam_lt H0 hc
    have hrank : Spec.rank nCam s0.camID i c = pos nCam s := by
      unfold Spec.rank pos; rw [hoff]
    have hus : Spec.Usable cfg.cross (s0.camID i) c := by
      cases hcr : cfg.cross with
      | true => exact Or.inl rfl
      | false =>
        right
        rw [hI.cam0 hcr] at hoff
        exact (offset_zero H0).mp hoff
    have hlt3 : s3.cam < nCam := by rw [C.cam]; exact hI.cam_lt
    have h03 : cfg.cross = false → s3.cam = 0 := by rw [C.cam]; exact hI.cam0
    have hpos3 : pos nCam s3 = pos nCam s := by unfold pos; rw [C.id, C.cam]
    obtain ⟨f1, f2, f3, f4, _⟩ := advance_fields (cfg := cfg) s3
    obtain ⟨b1, b2, b3, b4, b5, b6⟩ := advance_pos (cfg := cfg) (n := n) hlt3 h03
    rw [hpos3] at b1
    have hvalid : ∀ j, (advance cfg s3).valid j = s3.valid j := fun j => by simp [St.valid, f1]
    have hcam : ∀ j, (advance cfg s3).camID j = s3.camID j := fun j => by simp [St.camID, f1]
    have hfresh : ∀ v ∈ s.log, ¬ (v.i = i ∧ v.c = c) := by
      rintro v hv' ⟨h1, h2⟩
      have := hI.below v hv'
      rw [h1, h2, hrank] at this
      exact lt_irrefl _ this
    refine ⟨{ id_le := b4 (by rw [C.id]; exact hid), cam_lt := b2, cam0 := b3, t := by rw [f3, C.t, hI.t],
              camID := fun j => by rw [hcam, C.camID, hI.camID],
              valid := fun j hj => hI.valid j (C.valid j (by rwa [hvalid] at hj)),
              keep := fun hk j => by rw [hvalid, C.keep hk, hI.keep hk],
              sorted := ?_, below := ?_, sound := ?_, removed := ?_, complete := ?_, lastPatch := ?_, seen := ?_, unseen := ?_ }, b1⟩
    · rw [f4, C.log, List.map_append, List.pairwise_append]
      refine ⟨hI.sorted, by simp, ?_⟩
      intro a ha b hb
      simp only [List.map_cons, List.map_nil, List.mem_singleton] at hb
      obtain ⟨v, hv', rfl⟩ := List.mem_map.mp ha
      rw [hb, hrank]; exact hI.below v hv'
    · intro v hv'
      rw [f4, C.log, List.mem_append, List.mem_singleton] at hv'
      rcases hv' with hv' | rfl
      · exact lt_trans (hI.below v hv') b1
      · simpa [hrank] using b1
    · intro v hv'
      rw [f4, C.log, List.mem_append, List.mem_singleton] at hv'
      rcases hv' with hv' | rfl
      · exact hI.sound v hv'
      · exact ⟨hI.valid i hv, hus⟩
    · intro v hv' hr
      rw [hvalid]
      rw [f4, C.log, List.mem_append, List.mem_singleton] at hv'
      rcases hv' with hv' | rfl
      · have := hI.removed v hv' hr
        by_contra hne
        have := C.valid v.i (by simpa using hne)
        simp_all
      · exact C.none hr
    · intro j d hj hu hr
      rw [hvalid] at hj
      rw [f4, C.log]
      by_cases hlt : Spec.rank nCam s0.camID j d < pos nCam s
      · obtain ⟨v, hv', h1, h2⟩ := hI.complete j d (C.valid j hj) hu hlt
        exact ⟨v, List.mem_append_left _ hv', h1, h2⟩
      · have Hj := H j (hI.valid j (C.valid j hj))
        obtain ⟨e1, e2⟩ := rank_between (s := s3) s0.camID hlt3 h03 Hj hu (by rwa [hpos3]) hr
        have hji : j = i := Fin.ext (by rw [e1, C.id])
        subst hji
        have : d = c := offset_inj (by rw [e2, hoff, C.cam])
        subst this
        exact ⟨_, List.mem_append_right _ (List.mem_singleton.mpr rfl), rfl, rfl⟩
    · intro j
      rw [f2]
      by_cases hj : j = i
      · rw [hj, C.lastPatch]; exact hI.lastPatch i
      · rw [C.other j hj]; exact hI.lastPatch j
    · intro j hj
      rw [f2, f4, C.log]
      have hout := outcome_append s.log i (res := res) (hnew := hfresh)
      by_cases hji : j = i
      · subst hji
        have hbase : ((s.enter i).ext i).stat = Spec.withStatus (increaseStatistics (s0.ext i).stat s0.t)
            fun d => (Spec.outcome s.log i d).getD .unknown := by
          by_cases hcam0 : s.cam = 0
          · have hns : ∀ v ∈ s.log, v.i ≠ i := by
              intro v hv' hvj
              have h1 := hI.below v hv'
              unfold Spec.rank pos at h1
              rw [hvj, hcam0] at h1
              simp only [hi] at h1
              omega
            have e0 := hI.unseen i hns
            have : (fun d => (Spec.outcome s.log i d).getD Status.unknown) = fun _ => .unknown := by
              funext d; rw [outcome_none s.log i d hns]; rfl
            rw [this]
            simp only [St.enter, hcam0, if_true, St.increase, Function.update_self, e0, hI.t]
            rfl
          · have hs : ∃ v ∈ s.log, v.i = i := by
              obtain ⟨v, hv', h1, _⟩ := hI.complete i ⟨(s0.camID i).toNat, by omega⟩ hv (Or.inr (by simp; omega)) (by
                have hz : Spec.offset nCam (s0.camID i) ⟨(s0.camID i).toNat, by omega⟩ = 0 := by
                  rw [offset_zero H0]; simp; omega
                unfold Spec.rank pos
                rw [hz]; simp only [hi]; omega)
              exact ⟨v, hv', h1⟩
            have := hI.seen i hs
            simp only [St.enter, hcam0, if_false]
            exact this
        rw [C.stat]
        cases res with
        | none =>
          rw [hbase]
          simp only
          congr 1
          funext d
          rw [hout]
          by_cases hd : d = c
          · subst hd
            have : Spec.outcome s.log i d = none := by
              unfold Spec.outcome
              have : s.log.find? (fun v => decide (v.i = i ∧ v.c = d)) = none := by
                rw [List.find?_eq_none]; intro v hv; simpa using hfresh v hv
              rw [this]; rfl
            simp [this]
          · simp [hd]
        | some st =>
          simp only
          rw [hbase]
          have : ∀ (f : FeatureStatistics nCam) g g', Spec.withStatus (Spec.withStatus f g) g' = Spec.withStatus f g' := fun _ _ _ => rfl
          rw [this]
          congr 1
          funext d
          rw [hout]
          by_cases hd : d = c
          · subst hd; simp
          · simp [hd, Spec.withStatus]
      · rw [C.other j hji]
        have hs : ∃ v ∈ s.log, v.i = j := by
          obtain ⟨v, hv', h1⟩ := hj
          rw [f4, C.log, List.mem_append, List.mem_singleton] at hv'
          rcases hv' with hv' | rfl
          · exact ⟨v, hv', h1⟩
          · exact absurd h1.symm hji
        rw [hI.seen j hs]
        congr 1
        funext d
        rw [hout]
        simp [hji]
    · intro j hj
      rw [f4, C.log] at hj
      rw [f2]
      have hji : j ≠ i := fun hh => hj ⟨i, c, res⟩ (by simp) hh.symm
      rw [C.other j hji]
      exact hI.unseen j (fun v hv' => hj v (List.mem_append_left _ hv'))

lemma inv_run {s0 s s' : St P W K n nCam} (H : ∀ j, s0.valid j = true → 0 ≤ s0.camID j ∧ s0.camID j < nCam)
    (hr : Run cfg env s s') (hI : Inv cfg s0 s) : Inv cfg s0 s' ∧ ¬ s'.id < n := by
  induction hr with
  | done s h => exact ⟨hI, h⟩
  | step s s1 s2 h hs _ ih => exact ih (inv_step H hI h hs).1

lemma inv_start {s0 : St P W K n nCam} (hn : 0 < nCam) (h1 : s0.id = 0) (h2 : s0.cam = 0) (h3 : s0.log = []) : Inv cfg s0 s0 :=
  { id_le := by omega, cam_lt := by omega, cam0 := fun _ => h2, t := rfl, camID := fun _ => rfl, valid := fun _ h => h,
    keep := fun _ _ => rfl, sorted := by simp [h3], below := by simp [h3], sound := by simp [h3], removed := by simp [h3],
    complete := by
      intro i c _ _ hr
      unfold Spec.rank pos at hr
      rw [h1, h2] at hr; omega
    lastPatch := fun _ => rfl, seen := by simp [h3], unseen := fun _ _ => rfl }

/-! #### Termination -/

lemma pos_lt {s0 s : St P W K n nCam} (hI : Inv cfg s0 s) (h : s.id < n) : pos nCam s < n * nCam := by
  unfold pos
  have : (s.id + 1) * nCam ≤ n * nCam := Nat.mul_le_mul_right _ h
  have := hI.cam_lt
  nlinarith

lemma visit_some {s0 s : St P W K n nCam} (H : ∀ j, s0.valid j = true → 0 ≤ s0.camID j ∧ s0.camID j < nCam)
    (hI : Inv cfg s0 s) (hv : s.valid i = true) : ∃ c, activeCam nCam s.cam (s.camID i) = some c := by
  obtain ⟨c, hc, _⟩ := activeCam_spec hI.cam_lt (H i (hI.valid i hv))
  exact ⟨c, by rw [hI.camID]; exact hc⟩

lemma scan_some {s0 : St P W K n nCam} (H : ∀ j, s0.valid j = true → 0 ≤ s0.camID j ∧ s0.camID j < nCam) (fuel : ℕ)
    (s : St P W K n nCam) (hI : Inv cfg s0 s) (hf : n * nCam - pos nCam s < fuel) :
    ∃ s' b, scan cfg env fuel s = some (s', b) ∧ (b = true → ∃ (hi : s'.id < n) (c : Fin nCam),
      activeCam nCam s'.cam (s'.camID ⟨s'.id, hi⟩) = some c ∧
      Inv cfg s0 (postVisit cfg env (applyUpdate env s' ⟨s'.id, hi⟩ c).1 (applyUpdate env s' ⟨s'.id, hi⟩ c).2 ⟨s'.id, hi⟩ c) ∧
      pos nCam s < pos nCam (postVisit cfg env (applyUpdate env s' ⟨s'.id, hi⟩ c).1 (applyUpdate env s' ⟨s'.id, hi⟩ c).2 ⟨s'.id, hi⟩ c)) := by
  induction fuel generalizing s with
  | zero => omega
  | succ fuel ih =>
    unfold scan
    by_cases hid : s.id < n
    · simp only [hid, dif_pos]
      have hp := pos_lt hI hid
      cases hv : s.valid ⟨s.id, hid⟩ with
      | false =>
        simp only [Bool.false_eq_true, if_false]
        obtain ⟨h1, h2⟩ := inv_step (env := env) H hI hid (s1 := advance cfg s) (by simp [visitOnce, hv])
        obtain ⟨s', b, g1, g2⟩ := ih _ h1 (by omega)
        refine ⟨s', b, g1, fun hb => ?_⟩
        obtain ⟨hi, c, g3, g4, g5⟩ := g2 hb
        exact ⟨hi, c, g3, g4, lt_trans h2 g5⟩
      | true =>
        simp only [if_true]
        obtain ⟨c, hc⟩ := visit_some H hI hv
        simp only [hc]
        obtain ⟨e1, e2, e3, _⟩ := enter_fields s ⟨s.id, hid⟩
        cases hpr : probe cfg env (s.enter ⟨s.id, hid⟩) ⟨s.id, hid⟩ c with
        | inl s2 =>
          obtain ⟨p1, p2, p3, p4, p5, p6⟩ := probe_inl hpr
          have hid2 : s2.id = s.id := p3.trans e2
          have efin2 : (⟨s2.id, by rw [hid2]; exact hid⟩ : Fin n) = ⟨s.id, hid⟩ := by simp [hid2]
          refine ⟨s2, true, rfl, fun _ => ⟨by rw [hid2]; exact hid, c, ?_, ?_⟩⟩
          · rw [efin2, p4, e3]
            have : s2.camID ⟨s.id, hid⟩ = s.camID ⟨s.id, hid⟩ := by unfold St.camID; rw [p1, e1]
            rw [this]; exact hc
          · rw [efin2]
            exact inv_step (env := env) H hI hid (by simp [visitOnce, hv, hc, hpr])
        | inr st =>
          simp only
          obtain ⟨h1, h2⟩ := inv_step (env := env) H hI hid
            (s1 := advance cfg ((s.enter ⟨s.id, hid⟩).setStatus ⟨s.id, hid⟩ c st)) (by simp [visitOnce, hv, hc, hpr])
          obtain ⟨s', b, g1, g2⟩ := ih _ h1 (by omega)
          refine ⟨s', b, g1, fun hb => ?_⟩
          obtain ⟨hi, c', g3, g4, g5⟩ := g2 hb
          exact ⟨hi, c', g3, g4, lt_trans h2 g5⟩
    · simp only [hid, dif_neg, not_false_eq_true]
      exact ⟨s, false, rfl, by simp⟩

lemma loop_some {s0 : St P W K n nCam} (H : ∀ j, s0.valid j = true → 0 ≤ s0.camID j ∧ s0.camID j < nCam) (fuel : ℕ)
    (s : St P W K n nCam) (hI : Inv cfg s0 s) (hf : n * nCam - pos nCam s < fuel) : ∃ s', loop cfg env fuel s = some s' := by
  induction fuel generalizing s with
  | zero => omega
  | succ fuel ih =>
    unfold loop
    obtain ⟨s', b, h1, h2⟩ := scan_some (env := env) H (n * nCam + 1) s hI (by omega)
    rw [h1]
    cases b with
    | false => exact ⟨s', rfl⟩
    | true =>
      obtain ⟨hi, c, hc, hI', hp⟩ := h2 rfl
      simp only [hi, dif_pos, hc]
      apply ih _ hI'
      by_cases hlt : pos nCam s < n * nCam
      · omega
      · exfalso
        have hb := (hI'.id_le)
        have := hI'.cam_lt
        have h3 : ¬ s.id < n := fun hh => hlt (pos_lt hI hh)
        unfold scan at h1
        simp [h3] at h1

end Rovio.Img
