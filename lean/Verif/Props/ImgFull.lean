import Verif.Lemmas.ImgFull
import Verif.Props.ImgPost
import Verif.Props.FeatureCoordinates

/-!
# Property C94: what scratch memory held has no influence on the estimate

Temporary patches, newly constructed coordinates and the feature output members are read and written by the image update but are not part of the filter
state.  Whatever they contained at the start of each function, the estimate is the same.
-/

namespace Rovio.ImgFull

open Rovio.Spec Rovio.Img

variable {n nCam nPose : ℕ}

/-- The initial filter states of the resets hold no features (the filter never adds any to them). -/
def Fresh (es : List (Happening n nCam nPose)) : Prop := ∀ init t, Happening.reset init t ∈ es → ∀ i, init.valid i = false

/-- **C94, one image.** Two filters in the same state (equal in everything, patches of features equal in all that was written to them) process the same
images; their scratch memory holds anything at any time.  Then either both runs are undefined or they end in the same state. -/
theorem C94_image (I : USet) (hI : I.Lawful) (order : Finset (Fin n) → List (Fin n)) (ho : ∀ S, ∀ i ∈ order S, i ∈ S) (cfg : Cfg)
    (hst : -1 ≤ cfg.minAbsST) (F : Full n nCam nPose) (hp : Even F.base.p) (hmc : ∀ c, (F.mc.cams c).WF)
    (mem mem' : FSt n nCam nPose → Mem) (k k' : ℝ → Slot MLP → Mem) (fuel : ℕ) (a b : FSt n nCam nPose)
    (h : SameBy (SameMLP F.base.p F.base.start) a b) :
    Both (SameBy (SameMLP F.base.p F.base.start)) (imageUpdate I order cfg (F.env mem k) fuel a) (imageUpdate I order cfg (F.env mem' k') fuel b) :=
  alike_imageUpdate (env_alike hp hmc mem mem' k k') I order ho fuel (Or.inl ⟨hI, hst⟩) h

/-- **C94.** The same for a whole life: IMU measurements, pose and velocity updates, images and resets in any order and number. -/
theorem C94_run (I : USet) (hI : I.Lawful) (order : Finset (Fin n) → List (Fin n)) (ho : ∀ S, ∀ i ∈ order S, i ∈ S) (cfg : Cfg)
    (hst : -1 ≤ cfg.minAbsST) (F : Full n nCam nPose) (hp : Even F.base.p) (hmc : ∀ c, (F.mc.cams c).WF)
    (mem mem' : FSt n nCam nPose → Mem) (k k' : ℝ → Slot MLP → Mem) (fuel : ℕ) :
    ∀ (es : List (Happening n nCam nPose)), Fresh es → ∀ a b : FSt n nCam nPose, SameBy (SameMLP F.base.p F.base.start) a b →
    Both (SameBy (SameMLP F.base.p F.base.start)) (run I order cfg F mem k fuel es a) (run I order cfg F mem' k' fuel es b)
  | [], _, _, _, h => .some h
  | e :: es, hf, a, b, h => by
    unfold run
    rw [List.foldlM_cons, List.foldlM_cons]
    have hstep : Both (SameBy (SameMLP F.base.p F.base.start)) (step I order cfg F mem k fuel a e) (step I order cfg F mem' k' fuel b e) := by
      cases e with
      | filter g dt motion =>
        simp only [step]
        rw [← here_same h, ← h.cov, ← h.w]
        exact .some (alike_predict h dt _ _ _ _)
      | image t =>
        refine C94_image I hI order ho cfg hst F hp hmc mem mem' k k' fuel _ _ ?_
        exact ⟨h.w, h.cov, h.fsm, h.ext, h.meas, h.id, h.cam, rfl, h.imageCounter, h.sinceImage, h.sinceInertial, h.log⟩
      | reset init t =>
        refine .some ⟨rfl, rfl, ⟨fun i => ⟨rfl, rfl, rfl, fun hv => ?_⟩, rfl⟩, rfl, rfl, rfl, rfl, rfl, rfl, rfl, rfl, rfl⟩
        have : init.valid i = true := hv
        rw [hf init t (by simp) i] at this
        simp at this
    exact hstep.bind fun x y hxy => C94_run I hI order ho cfg hst F hp hmc mem mem' k k' fuel es
      (fun init t hm => hf init t (List.mem_cons_of_mem _ hm)) x y hxy

/-- **C94, reset.** C93 at the level of pixels: whatever happened before, and whatever is in memory, after a reset the filter goes on as a new filter
started from the same initial state at the same time. -/
theorem C94_forgets (I : USet) (hI : I.Lawful) (order : Finset (Fin n) → List (Fin n)) (ho : ∀ S, ∀ i ∈ order S, i ∈ S) (cfg : Cfg)
    (hst : -1 ≤ cfg.minAbsST) (F : Full n nCam nPose) (hp : Even F.base.p) (hmc : ∀ c, (F.mc.cams c).WF)
    (mem mem' : FSt n nCam nPose → Mem) (k k' : ℝ → Slot MLP → Mem) (fuel : ℕ) (init : FSt n nCam nPose) (hi : ∀ i, init.valid i = false) (t : ℝ)
    (past es : List (Happening n nCam nPose)) (hf : Fresh es) (s₀ s : FSt n nCam nPose) (hpast : run I order cfg F mem k fuel past s₀ = some s) :
    Both (SameBy (SameMLP F.base.p F.base.start)) (run I order cfg F mem k fuel (past ++ .reset init t :: es) s₀)
      (run I order cfg F mem' k' fuel es { init with t := t }) := by
  have e : run I order cfg F mem k fuel (past ++ .reset init t :: es) s₀ = run I order cfg F mem k fuel es (init.reset s t) := by
    unfold run at hpast ⊢
    rw [List.foldlM_append, hpast]
    rfl
  rw [e]
  refine C94_run I hI order ho cfg hst F hp hmc mem mem' k k' fuel es hf _ _ ?_
  refine ⟨rfl, rfl, ⟨fun i => ⟨rfl, rfl, rfl, fun hv => ?_⟩, rfl⟩, rfl, rfl, rfl, rfl, rfl, rfl, rfl, rfl, rfl⟩
  have : init.valid i = true := hv
  rw [hi i] at this
  simp at this

/-! ## Non-vacuity -/

/-- Any settings with 8 × 8 patches and actual cameras. -/
noncomputable def demoFull (F : Full n nCam nPose) (C : Fin nCam → Camera) (f : V3 → Nor) (g : V2 → Nor) : Full n nCam nPose :=
  { F with base := { F.base with p := 8, start := 3, stop := 1 }, mc := { F.mc with cams := fun c => (C c).toI f g },
           nb := 100, exponent := 0.25, penaltyDistance := 20, zeroPenalty := 100 }

/-- A state in which all features are in use, with patches `q`. -/
noncomputable def demoFSt (x : State 3 2 1) (prev : Fin 2 → List Level) (P : Cov 3 2 1) (q : MLP) : FSt 3 2 1 :=
  { (demoSt 3 2 (fun _ => true) (fun _ => 0)) with
    w := ⟨x, prev, M2.one⟩, cov := P, fsm := ⟨fun i => ⟨true, i.val, demoFC 1, q⟩, 3⟩ }

/-- Two filters with different scratch memory, whose patches differ in a level above those in use, process an image and reach the same state: the runs
are defined. -/
example (F : Full 3 2 1) (C : Fin 2 → Camera) (f : V3 → Nor) (g : V2 → Nor) (x : State 3 2 1) (prev : Fin 2 → List Level) (P : Cov 3 2 1) (q : MLP)
    (m m' : Mem) : ∃ fuel r r', run AddArgs.listUSet (fun S => (List.finRange 3).filter (· ∈ S)) (demoCfg true true) (demoFull F C f g)
        (fun _ => m) (fun _ _ => m) fuel [.image 6] (demoFSt x prev P { q with isValidPatch := Function.update q.isValidPatch 4 true }) = some r ∧
      run AddArgs.listUSet (fun S => (List.finRange 3).filter (· ∈ S)) (demoCfg true true) (demoFull F C f g)
        (fun _ => m') (fun _ _ => m') fuel [.image 6] (demoFSt x prev P { q with isValidPatch := Function.update q.isValidPatch 4 false }) = some r' ∧
      r.w = r'.w ∧ r.cov = r'.cov ∧ r.ext = r'.ext ∧ ∀ i, (r.fsm.slots i).coord = (r'.fsm.slots i).coord := by
  have hsame : SameBy (SameMLP 8 3) (demoFSt x prev P { q with isValidPatch := Function.update q.isValidPatch 4 true })
      (demoFSt x prev P { q with isValidPatch := Function.update q.isValidPatch 4 false }) := by
    refine ⟨rfl, rfl, ⟨fun i => ⟨rfl, rfl, rfl, fun _ => ?_⟩, rfl⟩, rfl, rfl, rfl, rfl, rfl, rfl, rfl, rfl, rfl⟩
    refine ⟨fun i hi => ?_, fun i _ => ⟨fun _ _ => rfl, fun _ _ => rfl, rfl, fun _ _ _ => rfl, fun _ _ _ => rfl, fun _ => rfl, fun _ => rfl, fun _ => rfl,
      fun _ => rfl⟩, rfl, rfl, rfl, rfl⟩
    simp only [demoFSt]
    rw [Function.update_of_ne (by omega), Function.update_of_ne (by omega)]
  obtain ⟨fuel, r, h1, _⟩ := C35_image_update_total AddArgs.listUSet_lawful (demo_order 3) (demoCfg true true)
    ((demoFull F C f g).env (fun _ => m) (fun _ _ => m)) (by norm_num)
    (fun s c => ⟨by simp [Full.env, Full.detect, demoFull], by simp [Full.env, Full.detect, demoFull], by simp [Full.env, Full.detect, demoFull],
      by simp [Full.env, Full.detect, demoFull]; norm_num, by simp [Full.env, Full.detect, demoFull]; norm_num⟩)
    (by simp only [demoCfg]; norm_num) (by simp only [demoCfg]; norm_num) (by simp only [demoCfg]; norm_num)
    (by simp only [demoCfg]; norm_num) (by simp only [demoCfg]; norm_num) (by norm_num)
    { demoFSt x prev P { q with isValidPatch := Function.update q.isValidPatch 4 true } with t := 6 }
    ⟨fun i _ => by simp [demoFSt, demoFC, St.camID], fun i => (demo_wf 3 2 (fun _ => true) (fun _ => 0) (by simp)).2 i⟩
  have hr : run AddArgs.listUSet (fun S => (List.finRange 3).filter (· ∈ S)) (demoCfg true true) (demoFull F C f g)
      (fun _ => m) (fun _ _ => m) fuel [.image 6] (demoFSt x prev P { q with isValidPatch := Function.update q.isValidPatch 4 true }) = some r := by
    unfold run
    rw [List.foldlM_cons]
    simp only [step]
    rw [h1 fuel le_rfl]
    rfl
  have h := C94_run AddArgs.listUSet AddArgs.listUSet_lawful (fun S => (List.finRange 3).filter (· ∈ S)) (by simp) (demoCfg true true)
    (by simp only [demoCfg]; norm_num) (demoFull F C f g) (by simp only [demoFull]; decide) (fun c => C09_camera_is_wf _ _ _)
    (fun _ => m) (fun _ => m') (fun _ _ => m) (fun _ _ => m') fuel [.image 6] (by intro init t h; simp at h) _ _ hsame
  rw [hr] at h
  generalize hl : run AddArgs.listUSet (fun S => (List.finRange 3).filter (· ∈ S)) (demoCfg true true) (demoFull F C f g)
    (fun _ => m') (fun _ _ => m') fuel [.image 6] (demoFSt x prev P { q with isValidPatch := Function.update q.isValidPatch 4 false }) = l at h
  cases h with
  | some h => exact ⟨fuel, r, _, hr, hl, h.w, h.cov, h.ext, fun i => (h.fsm.slots i).coord⟩

/-! ## Finding -/

/-- Arguments with one candidate, outside the image, and a threshold below the score such candidates get. -/
noncomputable def outsideArgs (cam : CamI) (q : ℕ) : AddArgs ℕ where
  nc := 1
  cand := fun _ => ⟨-50, 50⟩
  inFrame := fun _ => false
  shi := fun _ => 0
  patch := fun _ => q
  view := fun _ => none
  cam := cam
  camID := 0
  maxAdded := 1
  nb := 100
  exponent := 0.25
  penaltyDistance := 20
  zeroPenalty := 100
  requireMax := false
  minScore := -2

/-- Finding: without the bound on the threshold the property fails.  Candidates whose patch does not fit the image get the score -1 and keep the patch
that was in memory; with a threshold below -1 they become features (include/rovio/FeatureManager.hpp:292-308).  Two runs that agree in all candidates
within the image end with features whose patches are whatever the memory held. -/
theorem C94_finding_score (cam : CamI) (s : FeatSet ℕ 1) : SameArgs Eq (outsideArgs cam 0) (outsideArgs cam 1) ∧
    (∃ t ids, (outsideArgs cam 0).addBestCandidates AddArgs.listUSet s.reset = some (t, ids) ∧ (t.slots 0).valid = true ∧ (t.slots 0).patch = 0) ∧
    ∃ t ids, (outsideArgs cam 1).addBestCandidates AddArgs.listUSet s.reset = some (t, ids) ∧ (t.slots 0).valid = true ∧ (t.slots 0).patch = 1 := by
  refine ⟨⟨rfl, rfl, rfl, fun _ _ => rfl, fun _ h => by simp [outsideArgs] at h, fun _ _ _ _ => rfl, rfl, rfl, rfl, rfl, rfl⟩, ?_⟩
  have key : ∀ q, ∃ t ids, (outsideArgs cam q).addBestCandidates AddArgs.listUSet s.reset = some (t, ids) ∧ (t.slots 0).valid = true ∧ (t.slots 0).patch = q := by
    intro q
    have hsane : (outsideArgs cam q).Sane := ⟨by simp [outsideArgs], by simp [outsideArgs], by simp [outsideArgs],
      by simp [outsideArgs]; norm_num, by simp [outsideArgs]; norm_num⟩
    have hmax : (outsideArgs cam q).maxScore = -1 := by simp [AddArgs.maxScore, outsideArgs, List.range_succ]; norm_num
    obtain ⟨picks, t, ids, h1, h2, h3, h4⟩ := AddArgs.C19_greedy (outsideArgs cam q) _ AddArgs.listUSet_lawful hsane s.reset (by rw [hmax]; norm_num [outsideArgs])
    have hpos : picks ≠ [] := by
      intro e
      rw [e] at h2
      have hv : s.reset.getValidCount = 0 := by
        rw [FeatSet.getValidCount_eq]; simp [FeatSet.reset]
      have hseen : (outsideArgs cam q).seen s.reset = [] := by simp [AddArgs.seen, outsideArgs]
      have hr : (outsideArgs cam q).initRanks 0 = some 99 := by
        simp only [AddArgs.initRanks, hmax]
        simp [outsideArgs, Spec.scoreRank, AddArgs.score]
        norm_num
      rw [hv, hseen] at h2
      cases h2 with
      | stop _ _ hb =>
        rcases hb with hb | hb
        · simp [outsideArgs] at hb
        · have := hb 0 99 hr
          simp [outsideArgs] at this
    obtain ⟨x, l, rfl⟩ := List.exists_cons_of_ne_nil hpos
    obtain ⟨i, hi, _, _, hp⟩ := h4 0 x rfl
    have : i = 0 := Subsingleton.elim _ _
    subst this
    exact ⟨t, ids, h1, ((AddArgs.C17_effect _ _ AddArgs.listUSet_lawful hsane _ _ _ h1).1 0).mp hi |>.2, hp⟩
  exact ⟨key 0, key 1⟩

end Rovio.ImgFull
