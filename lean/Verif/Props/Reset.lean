import Verif.Lemmas.Reset
import Verif.Props.ImgPost

/-! # Property C93: a reset forgets the past -/

namespace Rovio.Img

open Rovio.Spec

variable {P W K : Type} {n nCam : ℕ}

/-- The initial filter states of the resets hold no features (the filter never adds any to them). -/
def Fresh : List (Life P W K n nCam) → Prop
  | [] => True
  | .event _ :: es => Fresh es
  | .reset init _ :: es => (∀ i, init.valid i = false) ∧ Fresh es

/-- **C93, state.** After a reset the filter state is, to an observer, the initial one at the given time; nothing of the previous one is left. -/
theorem C93_reset (init s : St P W K n nCam) (t : ℝ) (hi : ∀ i, init.valid i = false) : Same (init.reset s t) { init with t := t } := by
  refine ⟨rfl, rfl, ⟨fun i => ⟨rfl, rfl, rfl, fun h => ?_⟩, rfl⟩, rfl, rfl, rfl, rfl, rfl, rfl, rfl, rfl, rfl⟩
  have : init.valid i = true := h
  rw [hi i] at this
  simp at this

/-- Filter states that are the same to an observer stay so under all events; if one run is undefined so is the other. -/
theorem C93_observer (I : USet) (order : Finset (Fin n) → List (Fin n)) (ho : ∀ S, ∀ i ∈ order S, i ∈ S) (cfg : Cfg) (env : Env P W K n nCam)
    (hb : Blind env) (fuel : ℕ) : ∀ (es : List (Life P W K n nCam)), Fresh es → ∀ a b : St P W K n nCam, Same a b →
    Both Same (life I order cfg env fuel es a) (life I order cfg env fuel es b)
  | [], _, _, _, h => .some h
  | .event e :: es, hf, a, b, h => by
    unfold life
    have hstep : Both (fun x y => Same x.1 y.1) (history I order cfg env fuel [e] a) (history I order cfg env fuel [e] b) := by
      cases e with
      | predict dt m w cov coord => exact .some (same_predict h dt m w cov coord)
      | image t =>
        have ht : Same { a with t := t } { b with t := t } :=
          ⟨h.w, h.cov, h.fsm, h.ext, h.meas, h.id, h.cam, rfl, h.imageCounter, h.sinceImage, h.sinceInertial, h.log⟩
        have hi := same_imageUpdate (cfg := cfg) hb I order ho fuel ht
        unfold history
        simp only
        revert hi
        generalize imageUpdate I order cfg env fuel { a with t := t } = u
        generalize imageUpdate I order cfg env fuel { b with t := t } = v
        intro hi
        cases hi with
        | none => exact .none
        | some hi => exact .some hi
    exact hstep.bind fun x y hxy => C93_observer I order ho cfg env hb fuel es hf _ _ hxy
  | .reset init t :: es, hf, a, b, h => by
    unfold life
    refine C93_observer I order ho cfg env hb fuel es hf.2 _ _ ?_
    have h1 := C93_reset init a t hf.1
    have h2 := C93_reset init b t hf.1
    refine ⟨rfl, rfl, ⟨fun i => ⟨rfl, rfl, rfl, fun hv => ?_⟩, rfl⟩, rfl, rfl, rfl, rfl, rfl, rfl, rfl, rfl, rfl⟩
    rw [(h1.fsm.slots i).patch hv, (h2.fsm.slots i).patch hv]

/-- **C93.** Whatever happened before, after a reset the filter behaves as a new filter started from the same initial state at the same time would: all
later measurements, images and resets lead to the same filter state. -/
theorem C93_forgets (I : USet) (order : Finset (Fin n) → List (Fin n)) (ho : ∀ S, ∀ i ∈ order S, i ∈ S) (cfg : Cfg) (env : Env P W K n nCam)
    (hb : Blind env) (fuel : ℕ) (init : St P W K n nCam) (hi : ∀ i, init.valid i = false) (t : ℝ) (past es : List (Life P W K n nCam)) (hf : Fresh es)
    (s₀ s : St P W K n nCam) (hp : life I order cfg env fuel past s₀ = some s) :
    Both Same (life I order cfg env fuel (past ++ .reset init t :: es) s₀) (life I order cfg env fuel es { init with t := t }) := by
  have happ : ∀ (past : List (Life P W K n nCam)) (s₀ : St P W K n nCam), life I order cfg env fuel past s₀ = some s →
      life I order cfg env fuel (past ++ .reset init t :: es) s₀ = life I order cfg env fuel es (init.reset s t) := by
    intro past
    induction past with
    | nil => intro s₀ h; simp only [life, Option.some.injEq] at h; subst h; rfl
    | cons e past ih =>
      intro s₀ h
      cases e with
      | event e =>
        simp only [List.cons_append, life] at h ⊢
        cases hh : history I order cfg env fuel [e] s₀ with
        | none => rw [hh] at h; simp at h
        | some x => rw [hh] at h; exact ih _ h
      | reset i' t' => exact ih _ h
  rw [happ past s₀ hp]
  exact C93_observer I order ho cfg env hb fuel es hf _ _ (C93_reset init s t hi)

/-- An environment that compares patches: the error of a feature in use is its patch. -/
noncomputable def patchEnv (n nCam : ℕ) (x : FC) : Env ℝ Unit Unit n nCam :=
  { demoEnv n nCam fun _ => 1 with align := fun _ _ _ => some x, err := fun s i _ _ => (s.fsm.slots i).patch }

lemma patchEnv_blind (n nCam : ℕ) (x : FC) : Blind (patchEnv n nCam x) where
  inPrev _ _ _ := rfl
  align _ _ _ _ _ := rfl
  inNew _ _ _ := rfl
  err a b h i hv := by funext c y; exact (h.fsm.slots i).patch hv
  update a b h i _ := by funext c; simp only [patchEnv, demoEnv]; congr; funext j; exact (h.fsm.slots j).coord
  inPost _ _ _ := rfl
  moving _ _ _ _ _ := rfl
  detect _ _ _ := rfl
  median _ _ _ := rfl
  initFeature _ _ _ _ _ _ := rfl

/-- Non-vacuity: a filter with three features is reset, then gets an image; the new filter's run is defined. -/
example (x : FC) : ∃ fuel r r', life AddArgs.listUSet (fun S => (List.finRange 3).filter (· ∈ S)) (demoCfg true true) (patchEnv 3 2 x) fuel
      ([] ++ .reset (demoSt 3 2 (fun _ => false) fun _ => 0) 5 :: [.event (.image 6)])
      { demoSt 3 2 (fun _ => true) (fun _ => 1) with fsm := ⟨fun i => ⟨true, i.val, demoFC 1, 100⟩, 3⟩ } = some r ∧
    life AddArgs.listUSet (fun S => (List.finRange 3).filter (· ∈ S)) (demoCfg true true) (patchEnv 3 2 x) fuel [.event (.image 6)]
      { demoSt 3 2 (fun _ => false) (fun _ => 0) with t := 5 } = some r' ∧ Same r r' := by
  obtain ⟨fuel, r', h1, _⟩ := C35_image_update_total AddArgs.listUSet_lawful (demo_order 3) (demoCfg true true) (patchEnv 3 2 x) (by norm_num)
    (demo_sane 3 2 fun _ => 1) (by simp only [demoCfg]; norm_num) (by simp only [demoCfg]; norm_num) (by simp only [demoCfg]; norm_num)
    (by simp only [demoCfg]; norm_num) (by simp only [demoCfg]; norm_num) (by norm_num)
    { demoSt 3 2 (fun _ => false) (fun _ => 0) with t := 6 } ⟨(demo_wf 3 2 (fun _ => false) (fun _ => 0) (by simp)).1,
      (demo_wf 3 2 (fun _ => false) (fun _ => 0) (by simp)).2⟩
  have h := C93_forgets AddArgs.listUSet (fun S => (List.finRange 3).filter (· ∈ S)) (by simp) (demoCfg true true) (patchEnv 3 2 x)
    (patchEnv_blind 3 2 x) fuel (demoSt 3 2 (fun _ => false) fun _ => 0) (fun _ => rfl) 5 [] [.event (.image 6)] trivial
    { demoSt 3 2 (fun _ => true) (fun _ => 1) with fsm := ⟨fun i => ⟨true, i.val, demoFC 1, 100⟩, 3⟩ } _ rfl
  have hr : life AddArgs.listUSet (fun S => (List.finRange 3).filter (· ∈ S)) (demoCfg true true) (patchEnv 3 2 x) fuel [.event (.image 6)]
      { demoSt 3 2 (fun _ => false) (fun _ => 0) with t := 5 } = some r' := by
    unfold life history
    simp only
    rw [h1 fuel le_rfl]
    rfl
  rw [hr] at h
  generalize hl : life AddArgs.listUSet (fun S => (List.finRange 3).filter (· ∈ S)) (demoCfg true true) (patchEnv 3 2 x) fuel
    ([] ++ .reset (demoSt 3 2 (fun _ => false) fun _ => 0) 5 :: [.event (.image 6)])
    { demoSt 3 2 (fun _ => true) (fun _ => 1) with fsm := ⟨fun i => ⟨true, i.val, demoFC 1, 100⟩, 3⟩ } = l at h
  cases h with
  | some h => exact ⟨fuel, _, r', hl, hr, h⟩

/-- Finding: copying a filter state that holds features does not copy their patches.  The copied feature is then compared with the patch of an unrelated
one: with the same image the original is matched, the copy is not. -/
theorem C93_finding_copy (x : FC) : ∃ (cfg : Cfg) (env : Env ℝ Unit Unit 1 1) (dst src : St ℝ Unit Unit 1 1), Blind env ∧ src.valid 0 = true ∧
    (dst.assign src).valid 0 = true ∧ (∃ s, probe cfg env src 0 0 = .inl s) ∧ probe cfg env (dst.assign src) 0 0 = .inr .failedAlignment := by
  refine ⟨{ demoCfg false false with direct := false }, patchEnv 1 1 x,
    { demoSt 1 1 (fun _ => false) (fun _ => 0) with fsm := ⟨fun _ => ⟨false, 0, demoFC 0, 100⟩, 0⟩ }, demoSt 1 1 (fun _ => true) (fun _ => 0),
    patchEnv_blind 1 1 x, rfl, rfl, ?_, ?_⟩
  · refine ⟨{ demoSt 1 1 (fun _ => true) (fun _ => 0) with meas := Function.update (fun _ => none) 0 (some x) }, ?_⟩
    simp [probe, patchEnv, demoEnv, demoCfg, demoSt]
    norm_num
  · simp [probe, patchEnv, demoEnv, demoCfg, demoSt, St.assign, FeatSet.assign, Slot.assign]
    norm_num

/-- Finding: feature identifiers start again after a reset, so identifiers seen before it return. -/
theorem C93_finding_ids (init s : St P W K n nCam) (t : ℝ) (hi : ∀ i, init.valid i = false) (hn : 0 < n) :
    ∃ i, (init.reset s t).fsm.makeNewFeature.2 = some i ∧ ((init.reset s t).fsm.makeNewFeature.1.slots i).idx = init.fsm.maxIdx := by
  have hfree : (init.reset s t).fsm.getFreeIndex ≠ none := by
    unfold FeatSet.getFreeIndex
    rw [Ne, List.find?_eq_none]
    intro h
    have := h ⟨0, hn⟩ (List.mem_finRange _)
    have hv : init.valid ⟨0, hn⟩ = false := hi _
    simp only [decide_eq_true_eq] at this
    exact this hv
  obtain ⟨i, hi'⟩ := Option.ne_none_iff_exists'.mp hfree
  refine ⟨i, ?_, ?_⟩
  · unfold FeatSet.makeNewFeature; rw [hi']
  · unfold FeatSet.makeNewFeature; rw [hi']; simp [St.reset, St.assign, FeatSet.assign]

end Rovio.Img
