import Verif.Props.PoseStart
import Verif.Props.ImgPost

/-!
# C78: the filter from pixels never gets stuck
-/

namespace Rovio.ImgFull

open Rovio.Img Matrix Spec

variable {n nCam nPose : ℕ}

/-- **C78, from pixels.**  Any sequence of IMU measurements, velocities, measured poses, images (whatever they show) and resets to filter states whose features belong to cameras
that exist is processed to the end, with a bound on the steps of the forced removal that does not matter as long as it is large enough: no index leaves its array, nothing
overflows and no loop runs for ever.  Afterwards the filter can go on. -/
theorem C78_life {I : USet} {order : Finset (Fin n) → List (Fin n)} (hI : I.Lawful) (hord : ∀ S, (order S).Nodup ∧ ∀ i, i ∈ order S ↔ i ∈ S) (cfg : Cfg)
    (hrf : 1 < cfg.removalFactor) (hu : 0 < cfg.upper) (hl : 0 ≤ cfg.lower) (hshare0 : 0 ≤ cfg.minTrackedAndFree) (hshare : cfg.minTrackedAndFree ≤ 1) (hn32 : n ≤ 2147483647)
    (F : PoseUpd nPose → Full n (nCam + 1) nPose) (fcfg : FCfg n (nCam + 1) nPose) (mem : FSt n (nCam + 1) nPose → Mem) (mem' : ℝ → Slot MLP → Mem)
    (hsane : ∀ u s c, ((F u).detect (mem s) s c).Sane) (es : List (PInput n (nCam + 1) nPose)) (he : ∀ init t, .input (.reset init t) ∈ es → WellFormed init)
    (s : FSt n (nCam + 1) nPose) (hs : WellFormed s) (u : PoseUpd nPose) :
    ∃ enough r, (∀ fuel, enough ≤ fuel → lifePose I order cfg F fcfg mem mem' fuel es (s, u) = some r) ∧ WellFormed r.1 := by
  induction es generalizing s u with
  | nil => exact ⟨0, (s, u), fun _ _ => rfl, hs⟩
  | cons e es ih =>
    have hstep : ∃ enough q, (∀ fuel, enough ≤ fuel → stepPose I order cfg F fcfg mem mem' fuel (s, u) e = some q) ∧ WellFormed q.1 := by
      cases e with
      | pose m => exact ⟨0, _, fun _ _ => rfl, hs⟩
      | input e =>
        cases e with
        | imu m dt => exact ⟨0, _, fun _ _ => rfl, hs⟩
        | velocity v => exact ⟨0, _, fun _ _ => rfl, hs⟩
        | image t =>
          obtain ⟨k, r, h1, h2⟩ := C35_image_update_total hI hord cfg ((F u).env mem mem') (Nat.succ_pos _) (fun s c => hsane u s c) hrf hu hl hshare0 hshare hn32 { s with t := t } hs
          refine ⟨k, (r, u), fun fuel hf => ?_, h2⟩
          simp only [stepPose, Input.happening, step]
          rw [h1 fuel hf]; rfl
        | reset init t =>
          have hw : WellFormed init := he init t (by simp)
          exact ⟨0, _, fun _ _ => rfl, hw⟩
    obtain ⟨k, q, h1, h2⟩ := hstep
    obtain ⟨k', r, h3, h4⟩ := ih (fun init t h => he init t (by simp [h])) q.1 h2 q.2
    refine ⟨max k k', r, fun fuel hf => ?_, h4⟩
    simp only [lifePose, List.foldlM_cons, Option.bind_eq_bind]
    rw [h1 fuel (le_trans (le_max_left _ _) hf), Option.bind_some]
    exact h3 fuel (le_trans (le_max_right _ _) hf)

-- Non-vacuity: three slots, all in use, two cameras; measurements, poses (the first one aligns the frames), images and a reset in between
example (F : Full 3 2 1) (fcfg : FCfg 3 2 1) (gate : Gate 2) (R : Matrix (Fin 2) (Fin 2) ℝ) (u : PoseUpd 1) (x : State 3 2 1) (prev : Fin 2 → List Level) (P : Cov 3 2 1) (m : Mem) (q : MLP)
    (M : ImuMeas) (p p' : PoseMeas) (v : V3) :
    ∃ enough r, (∀ fuel, enough ≤ fuel → lifePose AddArgs.listUSet (fun S => (List.finRange 3).filter (· ∈ S)) (zvCfg true) (fun u => (demoEyes F).withFilter fcfg gate R u) fcfg
        (fun _ => m) (fun _ _ => m) fuel [.input (.imu M 0.1), .pose p, .input (.velocity v), .input (.image 6), .pose p', .input (.imu M 0.2), .input (.image 7),
          .input (.reset (demoFSt x prev P q) 8), .input (.image 9)] (demoFSt x prev P q, u) = some r) ∧ WellFormed r.1 := by
  have hwf : WellFormed (demoFSt x prev P q) := demoFSt_wf x prev P q (demoFSt x prev P q).t
  have hsane : ∀ s c, ((demoEyes F).detect m s c).Sane := fun s c => ⟨by simp [Full.detect, demoEyes], by simp [Full.detect, demoEyes], by simp [Full.detect, demoEyes],
    by simp [Full.detect, demoEyes]; norm_num, by simp [Full.detect, demoEyes]; norm_num⟩
  obtain ⟨es, hes⟩ : ∃ es : List (PInput 3 2 1), es = [.input (.imu M 0.1), .pose p, .input (.velocity v), .input (.image 6), .pose p', .input (.imu M 0.2), .input (.image 7),
    .input (.reset (demoFSt x prev P q) 8), .input (.image 9)] := ⟨_, rfl⟩
  rw [← hes]
  have he : ∀ init t, .input (.reset init t) ∈ es → WellFormed init := fun init t h => by
    rw [hes] at h
    simp only [List.mem_cons, PInput.input.injEq, Input.reset.injEq, reduceCtorEq, List.not_mem_nil, or_false, false_or] at h
    rw [h.1]; exact hwf
  exact C78_life AddArgs.listUSet_lawful (demo_order 3) (zvCfg true) (by simp only [zvCfg, demoCfg]; norm_num) (by simp only [zvCfg, demoCfg]; norm_num) (by simp only [zvCfg, demoCfg]; norm_num)
    (by simp only [zvCfg, demoCfg]; norm_num) (by simp only [zvCfg, demoCfg]; norm_num) (by norm_num) (fun u => (demoEyes F).withFilter fcfg gate R u) fcfg (fun _ => m) (fun _ _ => m)
    (fun u s c => hsane s c) es he (demoFSt x prev P q) hwf u

end Rovio.ImgFull
