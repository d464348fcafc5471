import Verif.Lemmas.NewOrder
import Verif.Props.ImgFull

/-!
# Property C98: the iteration order of the set of new features has no influence on the estimate

`addBestCandidates` returns the new features in a `std::unordered_set` (include/rovio/FeatureManager.hpp:284, include/rovio/ImgUpdate.hpp:994-998);
the order in which its elements are visited is up to the standard library.
-/

namespace Rovio.ImgFull

open Rovio.Spec Rovio.Img

variable {n nCam nPose : ℕ}

/-- `order` lists the elements of every set, each once. -/
def Lists (order : Finset (Fin n) → List (Fin n)) : Prop := ∀ S, (order S).Nodup ∧ ∀ i, i ∈ order S ↔ i ∈ S

lemma Lists.perm {order order' : Finset (Fin n) → List (Fin n)} (h : Lists order) (h' : Lists order') (S : Finset (Fin n)) : (order S).Perm (order' S) :=
  (List.perm_ext_iff_of_nodup (h S).1 (h' S).1).mpr fun i => ((h S).2 i).trans ((h' S).2 i).symm

lemma SameMLP.refl (p start : ℕ) (q : MLP) : SameMLP p start q q :=
  ⟨fun _ _ => rfl, fun _ _ => ⟨fun _ _ => rfl, fun _ _ => rfl, rfl, fun _ _ _ => rfl, fun _ _ _ => rfl, fun _ => rfl, fun _ => rfl, fun _ => rfl,
    fun _ => rfl⟩, rfl, rfl, rfl, rfl⟩

lemma SameBy.refl (F : Full n nCam nPose) (s : FSt n nCam nPose) : SameBy F.Rel s s :=
  ⟨rfl, rfl, ⟨fun _ => ⟨rfl, rfl, rfl, fun _ => SameMLP.refl _ _ _⟩, rfl⟩, rfl, rfl, rfl, rfl, rfl, rfl, rfl, rfl, rfl⟩

variable {F : Full n nCam nPose}

lemma initNew_mem (hp : Even F.base.p) (hmc : ∀ c, (F.mc.cams c).WF) (mem : FSt n nCam nPose → Mem) (k : ℝ → Slot MLP → Mem) (m : Mem) (med : ℝ) (c : Fin nCam)
    (s : FSt n nCam nPose) (i : Fin n) (hv : s.valid i = true) : initNew (F.env mem k) med c s i = initNew (fixed F m) med c s i := by
  rw [initNew_eq, initNew_eq]
  have := (env_alike hp hmc mem (fun _ => m) k fun _ _ => m).initFeature med
    { s with ext := Function.update s.ext i (newExt c (s.ext i) s.t) } _ (SameBy.refl F _) i c hv
  rw [this]

lemma initAll_mem (hp : Even F.base.p) (hmc : ∀ c, (F.mc.cams c).WF) (mem : FSt n nCam nPose → Mem) (k : ℝ → Slot MLP → Mem) (m : Mem) (med : ℝ) (c : Fin nCam) :
    ∀ (l : List (Fin n)) (s : FSt n nCam nPose), (∀ i ∈ l, s.valid i = true) →
    l.foldl (initNew (F.env mem k) med c) s = l.foldl (initNew (fixed F m) med c) s
  | [], _, _ => rfl
  | i :: l, s, hv => by
    rw [List.foldl_cons, List.foldl_cons, initNew_mem hp hmc mem k m med c s i (hv i (by simp))]
    exact initAll_mem hp hmc mem k m med c l _ fun j hj => hv j (by simp [hj])

lemma detectCam_order (I : USet) {order order' : Finset (Fin n) → List (Fin n)} (ho : Lists order) (ho' : Lists order') (cfg : Cfg) (hp : Even F.base.p)
    (hmc : ∀ c, (F.mc.cams c).WF) (mem : FSt n nCam nPose → Mem) (k : ℝ → Slot MLP → Mem) (med : Fin nCam → ℝ) (s : FSt n nCam nPose) (c : Fin nCam) :
    detectCam I order cfg (F.env mem k) med s c = detectCam I order' cfg (F.env mem k) med s c := by
  unfold detectCam
  simp only
  have hw := AddArgs.alike_add (I := I) (R := Eq)
    (A := { (F.env mem k).detect s c with
      camID := c.val, maxAdded := budget n nCam s.fsm.getValidCount c.val, requireMax := false, minScore := cfg.minAbsST })
    (B := { (F.env mem k).detect s c with
      camID := c.val, maxAdded := budget n nCam s.fsm.getValidCount c.val, requireMax := false, minScore := cfg.minAbsST })
    ⟨rfl, rfl, rfl, fun _ _ => rfl, fun _ _ => rfl, fun x y h hv => by
      have : x = y := by
        cases x; cases y; cases h; simp_all
      rw [this], rfl, rfl, rfl, rfl, rfl⟩ ⟨rfl, rfl, rfl, rfl⟩ (Or.inr fun _ => rfl)
    (a := s.fsm) (b := s.fsm) ⟨fun _ => ⟨rfl, rfl, rfl, fun _ => rfl⟩, rfl⟩
  generalize AddArgs.addBestCandidates _ I s.fsm = u at hw ⊢
  cases u with
  | none => rfl
  | some x =>
    obtain ⟨fsm, ids⟩ := x
    cases hw with
    | some hw =>
      obtain ⟨-, -, h3, -⟩ := hw
      simp only at h3 ⊢
      have hv : ∀ i ∈ order ids, St.valid { s with fsm := fsm } i = true := fun i hi => h3 i (((ho ids).2 i).mp hi)
      have hv' : ∀ i ∈ order' ids, St.valid { s with fsm := fsm } i = true := fun i hi => h3 i (((ho' ids).2 i).mp hi)
      rw [initAll_mem hp hmc mem k (mem s) (med c) c _ _ hv, initAll_mem hp hmc mem k (mem s) (med c) c _ _ hv']
      rw [(ho.perm ho' ids).foldl_eq' (fun i _ j _ z => initNew_comm (mem s) (med c) c z i j)]

/-- **C98, one image.** An image update gives the same result whatever the iteration order of the set of new features. -/
theorem C98_image (I : USet) {order order' : Finset (Fin n) → List (Fin n)} (ho : Lists order) (ho' : Lists order') (cfg : Cfg)
    (F : Full n nCam nPose) (hp : Even F.base.p) (hmc : ∀ c, (F.mc.cams c).WF) (mem : FSt n nCam nPose → Mem) (k : ℝ → Slot MLP → Mem) (fuel : ℕ)
    (s : FSt n nCam nPose) : imageUpdate I order cfg (F.env mem k) fuel s = imageUpdate I order' cfg (F.env mem k) fuel s := by
  have h : detectCam I order cfg (F.env mem k) = detectCam I order' cfg (F.env mem k) := by
    funext med s c
    exact detectCam_order I ho ho' cfg hp hmc mem k med s c
  have h2 : detectAll I order cfg (F.env mem k) = detectAll I order' cfg (F.env mem k) := by
    funext s
    unfold detectAll
    rw [h]
  have h3 : commonPost I order cfg (F.env mem k) fuel = commonPost I order' cfg (F.env mem k) fuel := by
    funext s
    unfold commonPost
    rw [h2]
  unfold imageUpdate
  rw [h3]

/-- **C98.** A whole life of the filter (IMU measurements, pose and velocity updates, images and resets) gives the same result whatever the iteration
order of the sets of new features, and whatever scratch memory holds. -/
theorem C98_run (I : USet) (hI : I.Lawful) {order order' : Finset (Fin n) → List (Fin n)} (ho : Lists order) (ho' : Lists order') (cfg : Cfg)
    (hst : -1 ≤ cfg.minAbsST) (F : Full n nCam nPose) (hp : Even F.base.p) (hmc : ∀ c, (F.mc.cams c).WF) (mem mem' : FSt n nCam nPose → Mem)
    (k k' : ℝ → Slot MLP → Mem) (fuel : ℕ) (es : List (Happening n nCam nPose)) (hf : Fresh es) (s : FSt n nCam nPose) :
    Both (SameBy (SameMLP F.base.p F.base.start)) (run I order cfg F mem k fuel es s) (run I order' cfg F mem' k' fuel es s) := by
  have h : step I order cfg F mem k fuel = step I order' cfg F mem k fuel := by
    funext s e
    cases e with
    | filter g dt motion => rfl
    | image t => exact C98_image I ho ho' cfg F hp hmc mem k fuel _
    | reset init t => rfl
  have h2 : run I order cfg F mem k fuel es s = run I order' cfg F mem k fuel es s := by
    unfold run
    rw [h]
  rw [h2]
  exact C94_run I hI order' (fun S i => ((ho' S).2 i).mp) cfg hst F hp hmc mem mem' k k' fuel es hf s s (SameBy.refl F s)

/-! ## Non-vacuity -/

/-- Ascending and descending order are different orders of a set; an image update gives the same with both, and is defined. -/
example (F : Full 3 2 1) (C : Fin 2 → Camera) (f : V3 → Nor) (g : V2 → Nor) (x : State 3 2 1) (prev : Fin 2 → List Level) (P : Cov 3 2 1) (q : MLP)
    (m m' : Mem) :
    ((fun S : Finset (Fin 3) => (List.finRange 3).filter (· ∈ S)) ≠ fun S => ((List.finRange 3).filter (· ∈ S)).reverse) ∧
    ∃ fuel r, imageUpdate AddArgs.listUSet (fun S => (List.finRange 3).filter (· ∈ S)) (demoCfg true true)
        ((demoFull F C f g).env (fun _ => m) fun _ _ => m') fuel (demoFSt x prev P q) = some r ∧
      imageUpdate AddArgs.listUSet (fun S => ((List.finRange 3).filter (· ∈ S)).reverse) (demoCfg true true)
        ((demoFull F C f g).env (fun _ => m) fun _ _ => m') fuel (demoFSt x prev P q) = some r := by
  refine ⟨fun h => ?_, ?_⟩
  · have := congrFun h Finset.univ
    revert this
    decide
  obtain ⟨fuel, r, h1, _⟩ := C35_image_update_total AddArgs.listUSet_lawful (demo_order 3) (demoCfg true true)
    ((demoFull F C f g).env (fun _ => m) (fun _ _ => m')) (by norm_num)
    (fun s c => ⟨by simp [Full.env, Full.detect, demoFull], by simp [Full.env, Full.detect, demoFull], by simp [Full.env, Full.detect, demoFull],
      by simp [Full.env, Full.detect, demoFull]; norm_num, by simp [Full.env, Full.detect, demoFull]; norm_num⟩)
    (by simp only [demoCfg]; norm_num) (by simp only [demoCfg]; norm_num) (by simp only [demoCfg]; norm_num)
    (by simp only [demoCfg]; norm_num) (by simp only [demoCfg]; norm_num) (by norm_num)
    (demoFSt x prev P q)
    ⟨fun i _ => by simp [demoFSt, demoFC, St.camID], fun i => (demo_wf 3 2 (fun _ => true) (fun _ => 0) (by simp)).2 i⟩
  refine ⟨fuel, r, h1 fuel le_rfl, ?_⟩
  rw [← h1 fuel le_rfl]
  exact C98_image _ (fun S => ⟨List.nodup_reverse.mpr (demo_order 3 S).1, fun i => by rw [List.mem_reverse]; exact (demo_order 3 S).2 i⟩) (demo_order 3)
    (demoCfg true true) (demoFull F C f g) (by simp only [demoFull]; decide) (fun c => C09_camera_is_wf _ _ _) _ _ fuel _

/-! ## Finding -/

/-- Another lawful container: a list, new elements at the end. -/
def queueUSet : USet where
  σ := List ℕ
  empty := []
  insert s x := if x ∈ s then s else s ++ [x]
  erase s x := s.erase x
  elems s := s

lemma queueUSet_lawful : queueUSet.Lawful where
  empty := rfl
  insert_new s x h := by
    have h' : queueUSet.insert s x = (show List ℕ from s) ++ [x] := if_neg h
    rw [h']
    exact List.perm_append_singleton x (show List ℕ from s)
  insert_old s x h := by
    have h' : queueUSet.insert s x = s := if_pos h
    rw [h']
  erase _ _ := rfl

/-- Two good candidates of the same score, far from each other, and one free slot. -/
noncomputable def tieArgs (cam : CamI) : AddArgs ℕ where
  nc := 2
  cand := fun k => ⟨100 * k, 0⟩
  inFrame := fun _ => true
  shi := fun _ => 1
  patch := id
  view := fun _ => none
  cam := cam
  camID := 0
  maxAdded := 1
  nb := 2
  exponent := 1
  penaltyDistance := 20
  zeroPenalty := 100
  requireMax := false
  minScore := 0

lemma tie_fill (cam : CamI) (I : USet) : (tieArgs cam).fill I = some (Function.update (fun _ => I.empty) 1 (I.insert (I.insert I.empty 0) 1)) := by
  have hmax : (tieArgs cam).maxScore = 1 := by simp [AddArgs.maxScore, tieArgs, List.range_succ]; norm_num
  have hone : ∀ bk x, (tieArgs cam).fillOne I bk x = some (Function.update bk 1 (I.insert (bk 1) x)) := by
    intro bk x
    have h2 : truncZ ((1 : ℤ) : ℝ) = 1 := by unfold truncZ; norm_num
    have h3 : cUInt ((1 : ℤ) : ℝ) = some 1 := by unfold cUInt; rw [h2]; simp
    have h4 : (⌈((tieArgs cam).nb - 1 : ℝ) * (((tieArgs cam).score x - (tieArgs cam).minScore) / ((tieArgs cam).maxScore - (tieArgs cam).minScore)) ^ (tieArgs cam).exponent⌉ : ℤ) = 1 := by
      rw [hmax]; simp [tieArgs, AddArgs.score]
    unfold AddArgs.fillOne
    simp only [h4, h3]
    rw [hmax, if_pos (by simp [tieArgs, AddArgs.score]; norm_num)]
    simp [tieArgs]
  unfold AddArgs.fill
  have : List.range (tieArgs cam).nc = [0, 1] := by simp [tieArgs, List.range_succ]
  rw [this]
  simp [List.foldlM_cons, hone]

lemma tie_pick (cam : CamI) (I : USet) (hI : I.Lawful) (s : FeatSet ℕ 1) {p q : ℕ} (hpq : p ≠ q) (h : I.elems (I.insert (I.insert I.empty 0) 1) = [p, q]) :
    ∃ t ids, (tieArgs cam).addBestCandidates I s.reset = some (t, ids) ∧ (t.slots 0).valid = true ∧
      (t.slots 0).coord.c = ⟨100 * p, 0⟩ := by
  have hmax : (tieArgs cam).maxScore = 1 := by simp [AddArgs.maxScore, tieArgs, List.range_succ]; norm_num
  unfold AddArgs.addBestCandidates
  rw [if_neg (by rw [hmax]; norm_num [tieArgs]), tie_fill]
  have hpen : ∀ bk, (tieArgs cam).penaliseExisting I s.reset bk = some bk := by
    intro bk
    simp [AddArgs.penaliseExisting, FeatSet.reset, List.finRange_succ]
  have hreq : (tieArgs cam).requireMax = false := rfl
  have hnb : (tieArgs cam).nb = 2 := rfl
  simp only [hpen, hreq, hnb]
  have hv : s.reset.getValidCount = 0 := by simp [FeatSet.getValidCount_eq, FeatSet.reset]
  have hmk : s.reset.makeNewFeature = (⟨Function.update s.reset.slots 0 { s.reset.slots 0 with idx := (0 : ℕ), valid := true }, 1⟩, some 0) := by
    simp [FeatSet.makeNewFeature, FeatSet.getFreeIndex, FeatSet.reset, List.finRange_succ]
  have hpen1 : ∀ bk : AddArgs.Buckets I, I.elems (bk 1) = [q] → (tieArgs cam).penalise I ((tieArgs cam).cand p) 1 bk = some bk := by
    intro bk hbk
    have hvis : (tieArgs cam).visit I ((tieArgs cam).cand p) 1 bk q = some bk := by
      unfold AddArgs.visit
      simp only
      rw [if_neg]
      simp only [AddArgs.sqDist, tieArgs, AddArgs.t2]
      have hd : (1 : ℝ) ≤ ((p : ℝ) - q) ^ 2 := by
        have h1 : (1 : ℤ) ≤ ((p : ℤ) - q) ^ 2 := by
          have : (p : ℤ) - q ≠ 0 := by omega
          have := sq_pos_of_ne_zero this
          omega
        exact_mod_cast h1
      nlinarith
    simp [AddArgs.penalise, AddArgs.penaliseBucket, hbk, hvis]
  set bk := Function.update (fun _ => I.empty) 1 (I.insert (I.insert I.empty 0) 1) with hbk
  have hb1 : I.elems (bk 1) = [p, q] := by rw [hbk, Function.update_self, h]
  have he : I.elems (I.erase (bk 1) p) = [q] := by rw [hI.erase, hb1]; simp
  have hw : (tieArgs cam).whileBucket I 1 2 (⟨s.reset, bk, 0, ∅⟩ : AddArgs.St ℕ 1 I) = some
      ⟨⟨Function.update s.reset.slots 0 ((tieArgs cam).writeFeature { s.reset.slots 0 with idx := (0 : ℕ), valid := true } p), 1⟩,
        Function.update bk 1 (I.erase (bk 1) p), 1, {0}⟩ := by
    have e : Function.update (Function.update s.reset.slots 0 { s.reset.slots 0 with idx := (0 : ℕ), valid := true }) 0
        ((tieArgs cam).writeFeature { s.reset.slots 0 with idx := (0 : ℕ), valid := true } p) =
        Function.update s.reset.slots 0 ((tieArgs cam).writeFeature { s.reset.slots 0 with idx := (0 : ℕ), valid := true } p) := Function.update_idem ..
    rw [AddArgs.whileBucket]
    simp only [hb1]
    rw [if_pos ⟨by simp [tieArgs], by rw [hv]; decide⟩, hmk]
    simp only [Function.update_self, e]
    rw [hpen1 _ (by rw [Function.update_self, he])]
    simp only
    rw [AddArgs.whileBucket]
    simp only [Function.update_self, he]
    rw [if_neg (by simp [tieArgs])]
    rfl
  have hl : (tieArgs cam).addLoop I 1 1 (⟨s.reset, bk, 0, ∅⟩ : AddArgs.St ℕ 1 I) = some
      ⟨⟨Function.update s.reset.slots 0 ((tieArgs cam).writeFeature { s.reset.slots 0 with idx := (0 : ℕ), valid := true } p), 1⟩,
        Function.update bk 1 (I.erase (bk 1) p), 1, {0}⟩ := by
    rw [AddArgs.addLoop]
    simp only [Nat.add_zero]
    rw [hw]
    rfl
  simp only [Bool.false_eq_true, if_false]
  rw [hl]
  refine ⟨_, _, rfl, ?_, ?_⟩
  · simp [AddArgs.writeFeature]
  · simp only [Function.update_self, AddArgs.writeFeature, tieArgs, FC.setC, FC.setWarpIdentity]
    split_ifs <;> rfl

/-- Finding: the order of another unordered set does matter.  Candidates of similar score are kept in `std::unordered_set`s and taken in iteration order
(include/rovio/FeatureManager.hpp:308, 355-357): with two equally good candidates and one free slot, which of them becomes a feature depends on the standard
library. -/
theorem C98_finding_buckets (cam : CamI) (s : FeatSet ℕ 1) : AddArgs.listUSet.Lawful ∧ queueUSet.Lawful ∧
    (∃ t ids, (tieArgs cam).addBestCandidates AddArgs.listUSet s.reset = some (t, ids) ∧ (t.slots 0).valid = true ∧ (t.slots 0).coord.c = ⟨100, 0⟩) ∧
    ∃ t ids, (tieArgs cam).addBestCandidates queueUSet s.reset = some (t, ids) ∧ (t.slots 0).valid = true ∧ (t.slots 0).coord.c = ⟨0, 0⟩ := by
  refine ⟨AddArgs.listUSet_lawful, queueUSet_lawful, ?_, ?_⟩
  · obtain ⟨t, ids, h1, h2, h3⟩ := tie_pick cam AddArgs.listUSet AddArgs.listUSet_lawful s (p := 1) (q := 0) (by decide) rfl
    exact ⟨t, ids, h1, h2, by simpa using h3⟩
  · obtain ⟨t, ids, h1, h2, h3⟩ := tie_pick cam queueUSet queueUSet_lawful s (p := 0) (q := 1) (by decide) rfl
    exact ⟨t, ids, h1, h2, by simpa using h3⟩

end Rovio.ImgFull
