import Verif.Props.AtRestImg
import Verif.Model.ImgIekf

/-! # C110: a platform at rest, from pixels, over its whole life -/

namespace Rovio.ImgFull

open Rovio.Spec Rovio.Img Matrix

variable {n nCam nPose : ℕ}

/-! ### Coordinates -/

lemma known_trackWarping (c : FC) : (known c).trackWarping = c.trackWarping := by
  unfold known FC.comNor
  split
  · rfl
  · split
    · rfl
    · split <;> rfl

lemma hasDirection_iff {a : FC} : HasDirection a ↔ (known a).validNor = true ∧ (known a).nor.q.IsUnit := by
  unfold HasDirection known FC.comNor
  split
  · rename_i h
    simp [h]
  · rename_i h
    cases a.cam with
    | none => simp_all
    | some cam =>
      dsimp only
      split
      · simp only [Option.some.injEq, Prod.mk.injEq, Option.map_some, Option.getD_some]
        constructor
        · rintro ⟨r, ⟨rfl, h2⟩, h3⟩; exact ⟨h2, h3⟩
        · rintro ⟨h2, h3⟩; exact ⟨_, ⟨rfl, h2⟩, h3⟩
      · simp_all

/-- What the slots need. -/
def Fit (a : FC) : Prop := HasDirection a ∧ (a.trackWarping = true → a.cam.isSome = true)

lemma fit_valid {a : FC} (h1 : a.validNor = true) (h2 : a.nor.q.IsUnit) (h3 : a.trackWarping = true → a.cam.isSome = true) : Fit a :=
  ⟨hasDirection_iff.mpr (by rw [known_of_valid h1]; exact ⟨h1, h2⟩), h3⟩

lemma Fit.toKnown {a : FC} (h : Fit a) : Fit (known a) := by
  obtain ⟨h1, h2⟩ := hasDirection_iff.mp h.1
  exact fit_valid h1 h2 (by rw [known_trackWarping, known_cam]; exact h.2)

lemma Fit.sameUpToPixel {a b : FC} (h : Fit a) (hb : SameUpToPixel a b) : Fit b := by
  rcases hb with rfl | rfl | rfl
  · exact h
  · exact h.toKnown
  · exact fit_valid rfl (hasDirection_iff.mp h.1).2 (by show (known a).trackWarping = true → (known a).cam.isSome = true; rw [known_trackWarping, known_cam]; exact h.2)

lemma Fit.samePoint {a b : FC} (h : Fit a) (hb : SamePoint a b) (ht : b.trackWarping = a.trackWarping) : Fit b := by
  refine ⟨hasDirection_iff.mpr ⟨?_, ?_⟩, ?_⟩
  · have h1 := (hasDirection_iff.mp h.1).1
    obtain ⟨e1, e2, e3, e4, e5, e6⟩ := hb
    unfold known FC.comNor at h1 ⊢
    rw [e1, e2, e4, e6]
    split
    · rename_i hv; exact e4.trans hv
    · rename_i hv
      rw [if_neg hv] at h1
      split
      · rename_i hc
        rw [hc] at h1
        exact e4.trans h1
      · rename_i cam hc
        rw [hc] at h1
        dsimp only at h1
        split
        · rename_i hC; rw [if_pos hC] at h1; exact h1
        · rename_i hC; rw [if_neg hC] at h1; exact e4.trans h1
  · rw [knownNor_samePoint hb]; exact (hasDirection_iff.mp h.1).2
  · rw [ht, hb.cam]; exact h.2

/-! ### Slots -/

/-- Slots in order, and what has become of them since `s₀`. -/
structure Slots (s₀ s : FSt n nCam nPose) : Prop where
  fit : ∀ i, Fit (s.fsm.slots i).coord
  ids : ∀ i, s.valid i = true → (s.fsm.slots i).idx < s.fsm.maxIdx
  maxIdx : s₀.fsm.maxIdx ≤ s.fsm.maxIdx
  since : ∀ i, s.valid i = true → (s₀.valid i = true ∧ (s.fsm.slots i).idx = (s₀.fsm.slots i).idx) ∨ (s₀.fsm.maxIdx : ℤ) ≤ (s.fsm.slots i).idx

/-- The same slots with other coordinates. -/
lemma Slots.coords {s₀ s s' : FSt n nCam nPose} (h : Slots s₀ s) (hm : s'.fsm.maxIdx = s.fsm.maxIdx) (hs : ∀ i, (s'.fsm.slots i).valid = (s.fsm.slots i).valid ∧
    (s'.fsm.slots i).idx = (s.fsm.slots i).idx ∧ Fit (s'.fsm.slots i).coord) : Slots s₀ s' := by
  refine ⟨fun i => (hs i).2.2, fun i hi => ?_, hm ▸ h.maxIdx, fun i hi => ?_⟩
  · rw [(hs i).2.1, hm]; exact h.ids i ((hs i).1.symm.trans hi)
  · rw [(hs i).2.1]; exact h.since i ((hs i).1.symm.trans hi)

section

variable {F : Full n nCam nPose} {fcfg : FCfg n nCam nPose} {gate : Gate 2} {R : Matrix (Fin 2) (Fin 2) ℝ} {u : PoseUpd nPose}
  {mem : FSt n nCam nPose → Mem} {mem' : ℝ → Slot MLP → Mem} {cfg : Cfg}

lemma post_slots {I : USet} (hI : I.Lawful) {order : Finset (Fin n) → List (Fin n)} (hB : Backprojects F)
    (hF : ∀ s c, (((F.withLwf L fcfg u).env mem mem').detect s c).Sane) {s₀ : FSt n nCam nPose} : Post I order ((F.withLwf L fcfg u).env mem mem') (Slots s₀) where
  remove s i h _ := by
    have hs : ∀ j, (((s.fsm.removeFeature i).slots j).valid = true → (s.fsm.slots j).valid = true) ∧ ((s.fsm.removeFeature i).slots j).idx = (s.fsm.slots j).idx ∧
        ((s.fsm.removeFeature i).slots j).coord = (s.fsm.slots j).coord := fun j => by
      unfold FeatSet.removeFeature
      by_cases hj : j = i
      · subst hj; simp
      · simp [Function.update_of_ne hj]
    refine ⟨fun j => ?_, fun j hj => ?_, h.maxIdx, fun j hj => ?_⟩
    · show Fit ((s.fsm.removeFeature i).slots j).coord
      rw [(hs j).2.2]; exact h.fit j
    · show ((s.fsm.removeFeature i).slots j).idx < s.fsm.maxIdx
      rw [(hs j).2.1]; exact h.ids j ((hs j).1 hj)
    · show _ ∨ _ ≤ ((s.fsm.removeFeature i).slots j).idx
      rw [(hs j).2.1]
      rcases h.since j ((hs j).1 hj) with h | h
      · left
        exact ⟨h.1, ((hs j).2.1).trans h.2⟩
      · exact .inr h
  install s i q h := by
    refine h.coords rfl fun j => ?_
    by_cases hj : j = i
    · have e : (installPatch s i q).fsm.slots j = { s.fsm.slots i with patch := q, coord := (s.fsm.slots i).coord.setWarpIdentity } := by
        subst hj; simp only [installPatch, Function.update_self]
      rw [e, hj]; exact ⟨rfl, rfl, (h.fit i).samePoint ⟨rfl, rfl, rfl, rfl, rfl, rfl⟩ rfl⟩
    · have e : (installPatch s i q).fsm.slots j = s.fsm.slots j := by simp only [installPatch, Function.update_of_ne hj]
      rw [e]; exact ⟨rfl, rfl, h.fit j⟩
  detect med c s fsm ids b st ha h := by
    have hsane : ({ ((F.withLwf L fcfg u).env mem mem').detect s c with camID := c.val, maxAdded := b, requireMax := false, minScore := st } : AddArgs MLP).Sane :=
      ⟨(hF s c).1, (hF s c).2, (hF s c).3, (hF s c).4, (hF s c).5⟩
    have hcam : ({ ((F.withLwf L fcfg u).env mem mem').detect s c with camID := c.val, maxAdded := b, requireMax := false, minScore := st } : AddArgs MLP).cam = F.mc.cams c := rfl
    revert ha
    generalize ({ ((F.withLwf L fcfg u).env mem mem').detect s c with camID := c.val, maxAdded := b, requireMax := false, minScore := st } : AddArgs MLP) = A at hsane hcam ⊢
    intro ha
    have hpl : ∃ xs ss, AddArgs.Placed A s.fsm xs ss fsm ∧ ids = ss.toFinset := by
      by_cases hm : A.minScore < A.maxScore
      · obtain ⟨xs, ss, t', h1, _, h3⟩ := AddArgs.addBestCandidates_spec hI hsane s.fsm hm
        rw [h1] at ha
        simp only [Option.some.injEq, Prod.mk.injEq] at ha
        exact ⟨xs, ss, ha.1 ▸ h3, ha.2.symm⟩
      · unfold AddArgs.addBestCandidates at ha
        rw [if_pos (not_lt.mp hm)] at ha
        simp only [Option.some.injEq, Prod.mk.injEq] at ha
        rw [← ha.1, ← ha.2]
        exact ⟨[], [], .nil s.fsm, rfl⟩
    obtain ⟨xs, ss, hp, rfl⟩ := hpl
    obtain ⟨f1, f2, f3⟩ := hp.free
    have hmx := hp.maxIdx
    have hnew : ∀ i ∈ ss, (s.fsm.maxIdx : ℤ) ≤ (fsm.slots i).idx ∧ (fsm.slots i).idx < fsm.maxIdx ∧ Fit (fsm.slots i).coord := fun i hi => by
      obtain ⟨k, x, hk, hs⟩ := hp.index hi
      have hkl : k < xs.length := by
        by_contra hc
        rw [List.getElem?_eq_none (by omega)] at hk; cases hk
      rw [hp.slot k x i hk hs]
      refine ⟨?_, ?_, ?_⟩
      · show (s.fsm.maxIdx : ℤ) ≤ ((s.fsm.maxIdx + k : ℕ) : ℤ)
        push_cast; omega
      · show ((s.fsm.maxIdx + k : ℕ) : ℤ) < _
        rw [hmx]; push_cast; omega
      · refine ⟨⟨?_, ?_⟩, fun _ => rfl⟩
        · exact { (A.writeFeature { s.fsm.slots i with idx := (s.fsm.maxIdx + k : ℕ), valid := true } x).coord with
            nor := (A.cam.p2b (A.cand x)).1, validNor := true }
        · obtain ⟨b1, b2⟩ := hB c (A.cand x)
          rw [← hcam] at b1 b2
          refine ⟨?_, b2⟩
          cases htw : (s.fsm.slots i).coord.trackWarping <;> simp [FC.comNor, AddArgs.writeFeature, FC.setC, FC.setWarpIdentity, htw, b1]
    have hk : Slots s₀ { s with fsm := fsm } := by
      refine ⟨fun j => ?_, fun j hj => ?_, h.maxIdx.trans (by show s.fsm.maxIdx ≤ fsm.maxIdx; rw [hmx]; omega), fun j hj => ?_⟩
      · by_cases hj : j ∈ ss
        · exact (hnew j hj).2.2
        · show Fit (fsm.slots j).coord
          rw [f3 j hj]; exact h.fit j
      · by_cases hjs : j ∈ ss
        · exact (hnew j hjs).2.1
        · show (fsm.slots j).idx < _
          have hj' : (fsm.slots j).valid = true := hj
          rw [f3 j hjs] at hj' ⊢
          refine lt_of_lt_of_le (h.ids j hj') ?_
          show (s.fsm.maxIdx : ℤ) ≤ fsm.maxIdx
          rw [hmx]; push_cast; omega
      · by_cases hjs : j ∈ ss
        · right
          have := h.maxIdx
          have h2 : (s₀.fsm.maxIdx : ℤ) ≤ s.fsm.maxIdx := by exact_mod_cast this
          exact h2.trans (hnew j hjs).1
        · have hj' : (fsm.slots j).valid = true := hj
          show (_ ∧ (fsm.slots j).idx = _) ∨ _ ≤ (fsm.slots j).idx
          rw [f3 j hjs] at hj' ⊢
          exact h.since j hj'
    have : ∀ (is : List (Fin n)) (s1 : FSt n nCam nPose), s1.fsm = fsm → (is.foldl (Img.initNew ((F.withLwf L fcfg u).env mem mem') med c) s1).fsm = fsm := by
      intro is
      induction is with
      | nil => intro s1 h; exact h
      | cons i is ih => intro s1 hf; exact ih _ hf
    have e := this (order ss.toFinset) { s with fsm := fsm } rfl
    refine ⟨fun i => ?_, fun i hi => ?_, ?_, fun i hi => ?_⟩
    · rw [e]; exact hk.fit i
    · unfold St.valid at hi; rw [e] at hi ⊢; exact hk.ids i hi
    · rw [e]; exact hk.maxIdx
    · unfold St.valid at hi; rw [e] at hi ⊢; exact hk.since i hi

lemma Post.and {I : USet} {order : Finset (Fin n) → List (Fin n)} {env : Env MLP (World n nCam nPose) (Cov n nCam nPose) n nCam} {Q Q' : FSt n nCam nPose → Prop}
    (h : Post I order env Q) (h' : Post I order env Q') : Post I order env fun s => Q s ∧ Q' s where
  remove s i hs hv := ⟨h.remove s i hs.1 hv, h'.remove s i hs.2 hv⟩
  install s i q hs := ⟨h.install s i q hs.1, h'.install s i q hs.2⟩
  detect med c s fsm ids b st ha hs := ⟨h.detect med c s fsm ids b st ha hs.1, h'.detect med c s fsm ids b st ha hs.2⟩

lemma _root_.Rovio.Spec.Sound.fit {s : FSt n nCam nPose} (h : Sound s) (i : Fin n) : Fit (s.fsm.slots i).coord := ⟨h.direction i, h.camera i⟩

lemma _root_.Rovio.Spec.Sound.unit {s : FSt n nCam nPose} (h : Sound s) : UnitState (here s) :=
  ⟨h.att, h.vea, h.aux, h.poa, fun i => (hasDirection_iff.mp (h.direction i)).2⟩

lemma _root_.Rovio.Spec.Sound.ready {s : FSt n nCam nPose} (h : Sound s) : Ready (here s) :=
  ⟨fun i => (hasDirection_iff.mp (h.direction i)).1, fun i _ _ ht => .inr (by
    show (known (s.fsm.slots i).coord).cam.isSome = true
    rw [known_cam]
    exact h.camera i (by rw [← known_trackWarping]; exact ht))⟩

/-- The slots after an image. -/
lemma image_slots {I : USet} (hI : I.Lawful) {order : Finset (Fin n) → List (Fin n)} (ho : ∀ S, ∀ i ∈ order S, i ∈ S) (hB : Backprojects F)
    (hd : F.base.direct = cfg.direct) (hF : ∀ s c, (F.detect (mem s) s c).Sane) {fuel : ℕ} {s s' : FSt n nCam nPose} (hs : Sound s) (ha : ImageAgrees F s) (hL : Leaves F L cfg s)
    (h : imageUpdate I order cfg ((F.withLwf L fcfg u).env mem mem') fuel s = some s') (hz : s.w.x.vel = 0) : Slots s s' := by
  have hu := hs.unit
  unfold imageUpdate at h
  simp only [Option.bind_eq_bind] at h
  obtain ⟨s1, h1, h⟩ := Option.bind_eq_some_iff.mp h
  obtain ⟨c1, c2, c3, c4⟩ := commonPre_same (cfg := cfg) (env := (F.withLwf L fcfg u).env mem mem') { s with log := [] }
  have ct : (commonPre cfg ((F.withLwf L fcfg u).env mem mem') { s with log := [] }).t = s.t := by
    unfold commonPre; dsimp only; split
    · split <;> rfl
    · rfl
  have hk : Undisturbed s s1 := Undisturbed.loop hL hd ha _ _ _ h1 ((Undisturbed.refl s).change ct c1 c4)
  have hsl : Slots s s1 := ⟨fun i => (hs.fit i).sameUpToPixel (hk.coord i), fun i hi => by rw [hk.idx, hk.maxIdx]; exact hs.ids i (hk.valid i hi), hk.maxIdx.ge,
    fun i hi => .inl ⟨hk.valid i hi, hk.idx i⟩⟩
  let s₀ : FSt n nCam nPose := { s1 with fsm := { s1.fsm with slots := fun i => { s1.fsm.slots i with valid := s.valid i } } }
  have hid1 : ∀ i, s₀.valid i = true → (s₀.fsm.slots i).idx < s₀.fsm.maxIdx := fun i hi => by
    show (s1.fsm.slots i).idx < s1.fsm.maxIdx
    rw [hk.idx, hk.maxIdx]; exact hs.ids i hi
  have hk0 : Kept s₀ s1 := ⟨rfl, le_rfl, fun _ _ => ⟨rfl, rfl, rfl, rfl, rfl, rfl⟩, fun _ _ => rfl, fun _ _ _ _ => rfl⟩
  obtain ⟨s2, ⟨⟨h2, h3⟩, h4⟩, rfl⟩ := ((post_kept_lwf (F := F) (fcfg := fcfg) (L := L) (u := u) (mem := mem) (mem' := mem') hI ho hF (s₀ := s₀) hid1 s1.log).and
    (post_slots (F := F) (fcfg := fcfg) (L := L) (u := u) (mem := mem) (mem' := mem') (order := order) hI hB hF (s₀ := s))).common h ⟨⟨hk0, rfl⟩, hsl⟩
  have hpl : SamePlatformEstimate s.w.x s2.w.x := samePlatform_trans hk.platform h2.platform
  by_cases hdue : ZeroVelocityDue cfg { s2 with w := ((F.withLwf L fcfg u).env mem mem').finish s2.t s2.w }
  · have hvel : (here s2).vel = 0 := by
      have e : s2.w.x.vel = s.w.x.vel := by unfold SamePlatformEstimate at hpl; rw [hpl]
      exact e.trans hz
    have e0 : here s2 = { here s with fea := (here s2).fea } := by unfold here; rw [show s2.w.x = _ from hpl]
    have hun : ∀ i, ((here s2).fea i).c.nor.q.IsUnit := fun i => (hasDirection_iff.mp (h4.fit i).1).2
    have hzu : ∀ i, (zeroUpdate fcfg u (here s2) s2.cov).1.fea i = (here s2).fea i ∨ (zeroUpdate fcfg u (here s2) s2.cov).1.fea i = ((here s2).fea i).fixed := by
      unfold zeroUpdate keepOr
      cases hq : Rovio.FSt.zeroVel fcfg (fun _ => true) ⟨here s2, s2.cov, u⟩ with
      | none => exact fun _ => .inl rfl
      | some z =>
        unfold Rovio.FSt.zeroVel at hq
        rw [if_pos rfl] at hq
        have hin : (zeroVelInnov (here s2) 0).at = 0 := by
          unfold zeroVelInnov
          rw [hvel]
          funext k
          fin_cases k <;> simp [V3.at]
        obtain ⟨g1, g2⟩ := finish_nothing_part (x := ⟨here s2, s2.cov, u⟩) (by rw [e0]; exact hu.att) (by rw [e0]; exact hu.vea) (by rw [e0]; exact hu.poa) hin hq
        exact fun i => .inr (g2 i (hun i))
    have hzv : zeroVelocity cfg ((F.withLwf L fcfg u).env mem mem') { s2 with w := ((F.withLwf L fcfg u).env mem mem').finish s2.t s2.w } =
        { s2 with
          w := { s2.w with prev := F.imgs s2.t, x := (zeroUpdate fcfg u (here s2) s2.cov).1 }
          cov := (zeroUpdate fcfg u (here s2) s2.cov).2
          fsm := { s2.fsm with slots := fun j => { s2.fsm.slots j with
            coord := { ((zeroUpdate fcfg u (here s2) s2.cov).1.fea j).c with camID := (s2.fsm.slots j).coord.camID } } } } := by
      unfold zeroVelocity
      rw [if_pos (by simpa [ZeroVelocityDue, and_assoc] using hdue)]
      rfl
    rw [hzv]
    refine h4.coords rfl fun i => ⟨rfl, rfl, ?_⟩
    refine (h4.fit i).sameUpToPixel ?_
    show SameUpToPixel _ { ((zeroUpdate fcfg u (here s2) s2.cov).1.fea i).c with camID := _ }
    rcases hzu i with e | e <;> rw [e]
    · exact .inr (.inl (known_withCamID (s2.fsm.slots i).coord))
    · exact .inr (.inr (by simp [Fea.fixed, FC.setNor, here, known_camID]))
  · rw [zeroVelocity_not_due _ hdue]
    exact h4.coords rfl fun i => ⟨rfl, rfl, h4.fit i⟩

/-! ### Steps -/

/-- What the life of a filter at rest keeps. -/
structure Rests (s₀ s : FSt n nCam nPose) : Prop where
  sound : Sound s
  slots : Slots s₀ s
  platform : SamePlatformNumbers s₀.w.x s.w.x
  features : ∀ i, Survives s₀ s i → SameBearing (s₀.fsm.slots i).coord (s.fsm.slots i).coord ∧ s.camID i = s₀.camID i ∧ (s.w.x.fea i).d = (s₀.w.x.fea i).d

lemma Rests.refl {s : FSt n nCam nPose} (h : Sound s) : Rests s s :=
  ⟨h, ⟨h.fit, h.ids, le_rfl, fun _ hi => .inl ⟨hi, rfl⟩⟩, .refl _, fun _ _ => ⟨SameUpToPixel.bearing (.inl rfl), rfl, rfl⟩⟩

lemma Rests.trans {s₀ s s' : FSt n nCam nPose} (h₀ : Sound s₀) (h : Rests s₀ s) (g : Rests s s') : Rests s₀ s' := by
  refine ⟨g.sound, ⟨g.slots.fit, g.slots.ids, h.slots.maxIdx.trans g.slots.maxIdx, fun i hi => ?_⟩, h.platform.trans g.platform, fun i hi => ?_⟩
  · rcases g.slots.since i hi with ⟨a, b⟩ | a
    · rw [b]; exact h.slots.since i a
    · have := h.slots.maxIdx
      right; omega
  · obtain ⟨i1, i2, i3⟩ := hi
    have hlt := h₀.ids i i1
    have hm := h.slots.maxIdx
    rcases g.slots.since i i2 with ⟨a, b⟩ | a
    · obtain ⟨f1, f2, f3⟩ := h.features i ⟨i1, a, b.symm.trans i3⟩
      obtain ⟨g1, g2, g3⟩ := g.features i ⟨a, i2, b⟩
      exact ⟨f1.trans g1, g2.trans f2, g3.trans f3⟩
    · omega

/-- A filter step that leaves platform and features alone. -/
lemma rests_filter {s : FSt n nCam nPose} (h : Sound s) {y : State n nCam nPose} {P : Cov n nCam nPose} {dt : ℝ} {b : Bool} (hp : SamePlatformNumbers (here s) y)
    (hv : ∀ c, (y.vea c).IsUnit) (ha : ∀ c, (y.aux.qCM c).IsUnit)
    (hf : ∀ i, (y.fea i).c.validNor = true ∧ (y.fea i).c.nor = ((here s).fea i).c.nor ∧ (y.fea i).c.cam = ((here s).fea i).c.cam ∧
      (y.fea i).c.trackWarping = ((here s).fea i).c.trackWarping ∧ (y.fea i).d = ((here s).fea i).d) :
    Rests s (Img.predict s dt b { s.w with x := y } P fun j => (y.fea j).c) := by
  have hu := h.unit
  have hfit : ∀ i, Fit ({ (y.fea i).c with camID := (s.fsm.slots i).coord.camID } : FC) := fun i => by
    obtain ⟨h1, h2, h3, h4, -⟩ := hf i
    refine fit_valid h1 ?_ fun ht => ?_
    · show (y.fea i).c.nor.q.IsUnit
      rw [h2]; exact hu.nor i
    · show (y.fea i).c.cam.isSome = true
      rw [h3]
      show (known (s.fsm.slots i).coord).cam.isSome = true
      rw [known_cam]
      refine h.camera i ?_
      rw [← known_trackWarping, ← ht]
      exact h4.symm
  refine ⟨⟨?_, hv, ha, fun k => ?_, fun i => (hfit i).1, fun i => (hfit i).2, h.ids⟩, ⟨hfit, h.ids, le_rfl, fun i hi => .inl ⟨hi, rfl⟩⟩, ?_, fun i hi => ⟨?_, rfl, ?_⟩⟩
  · show y.att.IsUnit
    rw [hp.att]; exact h.att
  · show (y.poa k).IsUnit
    rw [hp.poa]; exact h.poa k
  · have e : SamePlatformNumbers s.w.x (here s) := ⟨rfl, rfl, rfl, rfl, rfl, fun _ => rfl, fun _ => rfl, fun _ => rfl, fun _ => rfl⟩
    exact e.trans hp
  · obtain ⟨h1, h2, h3, h4, -⟩ := hf i
    refine sameBearing_of ?_ (fun _ => h1) (fun _ => .inl h1)
    show (known ({ (y.fea i).c with camID := (s.fsm.slots i).coord.camID } : FC)).nor = _
    rw [known_of_valid (c := { (y.fea i).c with camID := (s.fsm.slots i).coord.camID }) h1]
    exact h2
  · exact (hf i).2.2.2.2

/-- A filter step without result. -/
lemma rests_none {s : FSt n nCam nPose} (h : Sound s) {P : Cov n nCam nPose} {dt : ℝ} {b : Bool} :
    Rests s (Img.predict s dt b { s.w with x := here s } P fun j => ((here s).fea j).c) :=
  rests_filter h (.refl _) h.unit.vea h.unit.aux fun i => ⟨h.ready.nor i, rfl, rfl, rfl, rfl⟩

/-- One input. -/
lemma rests_step {I : USet} (hI : I.Lawful) {order : Finset (Fin n) → List (Fin n)} (ho : ∀ S, ∀ i ∈ order S, i ∈ S) (hB : Backprojects F)
    (hd : F.base.direct = cfg.direct) (hF : ∀ s c, (F.detect (mem s) s c).Sane) {fuel : ℕ} {s s' : FSt n nCam nPose} (hs : Sound s) (hv : s.w.x.vel = 0)
    {e : Input n nCam nPose} (he : ExpectedAtRest s.w.x e) (ha : ∀ t, e = .image t → ImageAgrees F { s with t := t } ∧ Leaves F L cfg { s with t := t })
    (h : step I order cfg (F.withLwf L fcfg u) mem mem' fuel s (e.happening fcfg u) = some s') : Rests s s' := by
  cases e with
  | imu m dt =>
    obtain ⟨hdt, hg, hacc⟩ := he
    simp only [Input.happening, step, Option.some.injEq] at h
    rw [← h]
    cases hq : Rovio.FSt.predict fcfg m dt ⟨here s, s.cov, u⟩ with
    | none => exact rests_none hs
    | some z =>
      obtain ⟨y, h1, h2⟩ := evalPrediction_facts hs.ready hs.unit fcfg.pred m (here s) 0 hdt
      have h0 : (DState.ofFn 0 : DState n nCam nPose) = 0 := rfl
      simp only [Rovio.FSt.predict, Option.bind_eq_bind, Option.pure_def] at hq
      obtain ⟨F', -, hq⟩ := Option.bind_eq_some_iff.mp hq
      obtain ⟨G, -, hq⟩ := Option.bind_eq_some_iff.mp hq
      rw [h0, h1, Option.bind_some, Option.some.injEq] at hq
      have hzs : z.s = y := by rw [← hq]
      obtain ⟨h3, h4⟩ := predict_rest (s := here s) hs.att hv hg hacc h2
      simp only [keepOr, hzs]
      refine rests_filter hs h3 (fun c => ?_) (fun c => ?_) fun i => ?_
      · cases hd : (here s).aux.doVE with
        | false => rw [(h2.vep hd).2]; exact hs.vea c
        | true =>
          have := h3.qCM c
          unfold State.qCM at this
          rw [h2.doVE, hd] at this
          simp only [if_true] at this
          rw [this]; exact hs.vea c
      · cases hd : (here s).aux.doVE with
        | true => rw [(h2.aux hd).2]; exact hs.aux c
        | false =>
          have := h3.qCM c
          unfold State.qCM at this
          rw [h2.doVE, hd] at this
          simp only [Bool.false_eq_true, if_false] at this
          rw [this]; exact hs.aux c
      · cases hc : camIdx nCam ((here s).fea i).c.camID with
        | none =>
          rw [h2.unused i hc]
          exact ⟨by simp [FC.setNor], by simp [FC.setNor], by simp [FC.setNor], by simp [FC.setNor], rfl⟩
        | some a =>
          have hfa := h2.fea i a hc
          exact ⟨hfa.validNor, h4.nor i, hfa.cam, hfa.track, h4.d i⟩
  | velocity v =>
    simp only [Input.happening, step, Option.some.injEq] at h
    rw [← h]
    cases hq : Rovio.FSt.velocity fcfg v ⟨here s, s.cov, u⟩ with
    | none => exact rests_none hs
    | some z =>
      have hy : (velInnov fcfg.qAM v (here s) 0).at = 0 := by
        unfold velInnov
        rw [show v = 0 from he, show (here s).vel = 0 from hv]
        funext k
        fin_cases k <;> simp [V3.at, Quat.rotate]
      have h1 := Rovio.FSt.finish_nothing (x := ⟨here s, s.cov, u⟩) (post := id) hs.unit hy (a := (here s).aux) (fun _ => rfl) rfl hq
      obtain ⟨h2, h3⟩ := fixed_same (here s) (a := (here s).aux) rfl (fun _ => rfl) (fun _ => rfl)
      simp only [keepOr, h1]
      exact rests_filter hs h2 hs.vea hs.aux fun i => ⟨by simp [State.fixed, Fea.fixed, FC.setNor], by simp [State.fixed, Fea.fixed, FC.setNor],
        by simp [State.fixed, Fea.fixed, FC.setNor], by simp [State.fixed, Fea.fixed, FC.setNor], rfl⟩
  | image t =>
    have hs' : Sound { s with t := t } := ⟨hs.att, hs.vea, hs.aux, hs.poa, hs.direction, hs.camera, hs.ids⟩
    have hsl := image_slots hI ho hB hd hF hs' (ha t rfl).1 (ha t rfl).2 h hv
    obtain ⟨h1, h2⟩ := image_leaves I hI order ho cfg F hd L fcfg u mem mem' hF fuel { s with t := t } s' hs.ids hs'.unit (ha t rfl).1 (ha t rfl).2 h fun _ => hv
    have e : s'.w.x = { s.w.x with fea := s'.w.x.fea } := h1
    refine ⟨⟨by rw [e]; exact hs.att, by rw [e]; exact hs.vea, by rw [e]; exact hs.aux, by rw [e]; exact hs.poa, fun i => (hsl.fit i).1, fun i => (hsl.fit i).2, hsl.ids⟩,
      ⟨hsl.fit, hsl.ids, hsl.maxIdx, hsl.since⟩, ?_, h2⟩
    rw [e]
    exact ⟨rfl, rfl, rfl, rfl, rfl, fun _ => rfl, fun _ => rfl, fun _ => rfl, fun _ => rfl⟩
  | reset init t => exact absurd he (by simp [ExpectedAtRest])

end

/-- A filter's life with any filter update (`life` and `lifeIter` for the two of the code). -/
noncomputable abbrev lifeLwf (I : USet) (order : Finset (Fin n) → List (Fin n)) (cfg : Cfg) (F : Full n nCam nPose)
    (L : Callbacks n nCam nPose → State n nCam nPose → Cov n nCam nPose → Scr → State n nCam nPose × Cov n nCam nPose × M2 × Bool)
    (fcfg : FCfg n nCam nPose) (u : PoseUpd nPose) (mem : FSt n nCam nPose → Mem) (mem' : ℝ → Slot MLP → Mem) (fuel : ℕ) (es : List (Input n nCam nPose))
    (s : FSt n nCam nPose) : Option (FSt n nCam nPose) :=
  run I order cfg (F.withLwf L fcfg u) mem mem' fuel (es.map (Input.happening fcfg u)) s

lemma rests_life (I : USet) (hI : I.Lawful) (order : Finset (Fin n) → List (Fin n)) (ho : ∀ S, ∀ i ∈ order S, i ∈ S) (cfg : Cfg) (F : Full n nCam nPose)
    (hd : F.base.direct = cfg.direct) (hB : Backprojects F) (L : Callbacks n nCam nPose → State n nCam nPose → Cov n nCam nPose → Scr → State n nCam nPose × Cov n nCam nPose × M2 × Bool)
    (fcfg : FCfg n nCam nPose) (u : PoseUpd nPose)
    (mem : FSt n nCam nPose → Mem) (mem' : ℝ → Slot MLP → Mem) (hF : ∀ s c, (F.detect (mem s) s c).Sane) (fuel : ℕ) (es : List (Input n nCam nPose))
    (s s' : FSt n nCam nPose) (hs : Sound s) (hv : s.w.x.vel = 0) (he : ∀ e ∈ es, ExpectedAtRest s.w.x e)
    (ha : ∀ pre t post s1, es = pre ++ .image t :: post → lifeLwf I order cfg F L fcfg u mem mem' fuel pre s = some s1 →
      ImageAgrees F { s1 with t := t } ∧ (Sound s1 → Leaves F L cfg { s1 with t := t }))
    (h : lifeLwf I order cfg F L fcfg u mem mem' fuel es s = some s') :
    Rests s s' := by
  have key : ∀ (es : List (Input n nCam nPose)) (pre : List (Input n nCam nPose)) (s1 : FSt n nCam nPose), lifeLwf I order cfg F L fcfg u mem mem' fuel pre s = some s1 →
      Rests s s1 → (∀ e ∈ es, ExpectedAtRest s.w.x e) →
      (∀ pre' t post s1, pre ++ es = pre' ++ .image t :: post → lifeLwf I order cfg F L fcfg u mem mem' fuel pre' s = some s1 →
      ImageAgrees F { s1 with t := t } ∧ (Sound s1 → Leaves F L cfg { s1 with t := t })) →
      lifeLwf I order cfg F L fcfg u mem mem' fuel es s1 = some s' → Rests s s' := by
    intro es
    induction es with
    | nil =>
      intro pre s1 _ hr _ _ h
      simp only [lifeLwf, run, List.map_nil, List.foldlM_nil, Option.pure_def, Option.some.injEq] at h
      rw [← h]; exact hr
    | cons e es ih =>
      intro pre s1 hpre hr he ha h
      simp only [lifeLwf, run, List.map_cons, List.foldlM_cons, Option.bind_eq_bind] at h
      obtain ⟨s2, h2, h⟩ := Option.bind_eq_some_iff.mp h
      have hpl := hr.platform
      have hex : ExpectedAtRest s1.w.x e := by
        have := he e (by simp)
        cases e with
        | imu m dt => simpa only [ExpectedAtRest, hpl.gyb, hpl.att, hpl.acb] using this
        | velocity v => exact this
        | image t => trivial
        | reset i t => exact this
      have hst := rests_step (F := F) (fcfg := fcfg) (L := L) (u := u) (mem := mem) (mem' := mem') (cfg := cfg) hI ho hB hd hF hr.sound (hpl.vel.trans hv) hex
        (fun t ht => ⟨(ha pre t es s1 (by rw [ht]) hpre).1, (ha pre t es s1 (by rw [ht]) hpre).2 hr.sound⟩) h2
      refine ih (pre ++ [e]) s2 ?_ (hr.trans hs hst) (fun a h => he a (by simp [h])) (fun pre' t post s1 h => ha pre' t post s1 (by simpa using h)) h
      simp only [lifeLwf, run, List.map_append, List.foldlM_append, List.map_cons, List.map_nil, List.foldlM_cons, List.foldlM_nil, Option.bind_eq_bind] at hpre ⊢
      rw [hpre, Option.bind_some, h2]; rfl
  exact key es [] s (by rfl) (.refl hs) he (by simpa using ha) h

lemma life_leaves (I : USet) (hI : I.Lawful) (order : Finset (Fin n) → List (Fin n)) (ho : ∀ S, ∀ i ∈ order S, i ∈ S) (cfg : Cfg) (F : Full n nCam nPose)
    (hd : F.base.direct = cfg.direct) (hB : Backprojects F) (L : Callbacks n nCam nPose → State n nCam nPose → Cov n nCam nPose → Scr → State n nCam nPose × Cov n nCam nPose × M2 × Bool)
    (fcfg : FCfg n nCam nPose) (u : PoseUpd nPose)
    (mem : FSt n nCam nPose → Mem) (mem' : ℝ → Slot MLP → Mem) (hF : ∀ s c, (F.detect (mem s) s c).Sane) (fuel : ℕ) (es : List (Input n nCam nPose))
    (s : FSt n nCam nPose) (hs : Sound s) (hv : s.w.x.vel = 0) (he : ∀ e ∈ es, ExpectedAtRest s.w.x e)
    (ha : ∀ pre t post s1, es = pre ++ .image t :: post → lifeLwf I order cfg F L fcfg u mem mem' fuel pre s = some s1 →
      ImageAgrees F { s1 with t := t } ∧ (Sound s1 → Leaves F L cfg { s1 with t := t })) :
    ∀ before after s1 s2, es = before ++ after → lifeLwf I order cfg F L fcfg u mem mem' fuel before s = some s1 → lifeLwf I order cfg F L fcfg u mem mem' fuel after s1 = some s2 →
      SamePlatformNumbers s.w.x s1.w.x ∧ SamePlatformNumbers s.w.x s2.w.x ∧
      ∀ i, Survives s1 s2 i → SameBearing (s1.fsm.slots i).coord (s2.fsm.slots i).coord ∧ s2.camID i = s1.camID i ∧ (s2.w.x.fea i).d = (s1.w.x.fea i).d := by
  rintro a b s1 s2 rfl h1 h2
  have r1 := rests_life I hI order ho cfg F hd hB L fcfg u mem mem' hF fuel a s s1 hs hv (fun e h => he e (by simp [h]))
    (fun pre t post s1 hes => ha pre t (post ++ b) s1 (by rw [hes]; simp)) h1
  have hpl := r1.platform
  have r2 := rests_life I hI order ho cfg F hd hB L fcfg u mem mem' hF fuel b s1 s2 r1.sound (hpl.vel.trans hv)
    (fun e h => by
      have := he e (by simp [h])
      cases e with
      | imu m dt => simpa only [ExpectedAtRest, hpl.gyb, hpl.att, hpl.acb] using this
      | velocity v => exact this
      | image t => trivial
      | reset i t => exact this)
    (fun pre t post s3 hes h3 => ha (a ++ pre) t post s3 (by rw [hes]; simp) (by
      simp only [lifeLwf, run, List.map_append, List.foldlM_append, Option.bind_eq_bind] at h1 h3 ⊢
      rw [h1, Option.bind_some]; exact h3)) h2
  exact ⟨hpl, hpl.trans r2.platform, r2.features⟩

/-- C110, the whole filter.  A platform at rest: IMU measurements of the biases and gravity, velocity zero, and images that agree with the estimate at the time they come, in any
order and number.  The estimate of the platform stays exactly as it is for ever, and so do bearing, camera and distance of every feature as long as it is tracked, from the
beginning on or from when it was detected. -/
theorem C110_life (I : USet) (hI : I.Lawful) (order : Finset (Fin n) → List (Fin n)) (ho : ∀ S, ∀ i ∈ order S, i ∈ S) (cfg : Cfg) (F : Full n nCam nPose)
    (hd : F.base.direct = cfg.direct) (hB : Backprojects F) (fcfg : FCfg n nCam nPose) (gate : Gate 2) (R : Matrix (Fin 2) (Fin 2) ℝ) (u : PoseUpd nPose)
    (mem : FSt n nCam nPose → Mem) (mem' : ℝ → Slot MLP → Mem) (hF : ∀ s c, (F.detect (mem s) s c).Sane) (fuel : ℕ) (es : List (Input n nCam nPose))
    (s : FSt n nCam nPose) (hs : Sound s) (hv : s.w.x.vel = 0) (he : ∀ e ∈ es, ExpectedAtRest s.w.x e)
    (ha : ∀ pre t post s1, es = pre ++ .image t :: post → life I order cfg F fcfg gate R u mem mem' fuel pre s = some s1 → ImageAgrees F { s1 with t := t }) :
    ∀ before after s1 s2, es = before ++ after → life I order cfg F fcfg gate R u mem mem' fuel before s = some s1 → life I order cfg F fcfg gate R u mem mem' fuel after s1 = some s2 →
      SamePlatformNumbers s.w.x s1.w.x ∧ SamePlatformNumbers s.w.x s2.w.x ∧
      ∀ i, Survives s1 s2 i → SameBearing (s1.fsm.slots i).coord (s2.fsm.slots i).coord ∧ s2.camID i = s1.camID i ∧ (s2.w.x.fea i).d = (s1.w.x.fea i).d :=
  life_leaves I hI order ho cfg F hd hB (ekf gate R u) fcfg u mem mem' hF fuel es s hs hv he fun pre t post s1 hes h1 =>
    have h := ha pre t post s1 hes h1
    ⟨h, fun hs1 => leaves_ekf (Sound.unit (s := { s1 with t := t }) ⟨hs1.att, hs1.vea, hs1.aux, hs1.poa, hs1.direction, hs1.camera, hs1.ids⟩) hd h⟩

/-- C110, the whole filter, direct method, from pixels: as before, where the images show the patches of the features (those that were in frame in the previous image) where the
estimate predicts them. -/
theorem C110_unmoved_life (I : USet) (hI : I.Lawful) (order : Finset (Fin n) → List (Fin n)) (ho : ∀ S, ∀ i ∈ order S, i ∈ S) (cfg : Cfg) (F : Full n nCam nPose)
    (hdir : F.base.direct = true) (hd : cfg.direct = true) (hB : Backprojects F) (hred : ReducesZero F) (hp : 2 ≤ F.base.p) (hev : F.base.p % 2 = 0) (hl : F.base.stop ≤ F.base.start)
    (hw : F.base.acfg.useWeighting = true → ∀ k, 0 < F.base.acfg.w k) (hg : F.base.acfg.gradExp ≤ 0) (fcfg : FCfg n nCam nPose) (gate : Gate 2) (R : Matrix (Fin 2) (Fin 2) ℝ)
    (u : PoseUpd nPose) (mem : FSt n nCam nPose → Mem) (mem' : ℝ → Slot MLP → Mem) (hF : ∀ s c, (F.detect (mem s) s c).Sane) (fuel : ℕ) (es : List (Input n nCam nPose))
    (s : FSt n nCam nPose) (hs : Sound s) (hv : s.w.x.vel = 0) (he : ∀ e ∈ es, ExpectedAtRest s.w.x e)
    (ha : ∀ pre t post s1, es = pre ++ .image t :: post → life I order cfg F fcfg gate R u mem mem' fuel pre s = some s1 →
      ∀ i c, s1.valid i = true → MLP.Reach F.base.p (s1.fsm.slots i).patch ∧
        ∀ s₁, Undisturbed { s1 with t := t } s₁ → ∀ m y f, F.tested m s₁ i c = some (y, true) → PredictedIn F s₁ i c f → SeesPatch F { s1 with t := t } i c f) :
    ∀ before after s1 s2, es = before ++ after → life I order cfg F fcfg gate R u mem mem' fuel before s = some s1 → life I order cfg F fcfg gate R u mem mem' fuel after s1 = some s2 →
      SamePlatformNumbers s.w.x s1.w.x ∧ SamePlatformNumbers s.w.x s2.w.x ∧
      ∀ i, Survives s1 s2 i → SameBearing (s1.fsm.slots i).coord (s2.fsm.slots i).coord ∧ s2.camID i = s1.camID i ∧ (s2.w.x.fea i).d = (s1.w.x.fea i).d := by
  refine C110_life I hI order ho cfg F (hdir.trans hd.symm) hB fcfg gate R u mem mem' hF fuel es s hs hv he (fun pre t post s1 hes h1 s₁ h₁ i c hv => ?_)
  have hv0 : s1.valid i = true := h₁.valid i hv
  obtain ⟨hr, ha⟩ := ha pre t post s1 hes h1 i c hv0
  refine C110_seen F hdir hred hp hev hl hw hg s₁ i c (by rw [h₁.patch]; exact hr) fun m y f hy hf => ?_
  obtain ⟨h1, h2, h3, h4⟩ := ha s₁ h₁ m y f hy hf
  refine ⟨?_, ?_, ?_, ?_⟩
  · rw [h₁.time, h₁.patch]; exact h1
  · rw [h₁.patch]; exact h2
  · rw [h₁.patch]; exact h3
  · rw [h₁.patch]; exact h4

/-! ## Non-vacuity -/

/-- A filter at rest with three features in use: IMU, velocity, image, IMU, velocity. -/
example (F : Full 3 2 1) (fcfg : FCfg 3 2 1) (gate : Gate 2) (R : Matrix (Fin 2) (Fin 2) ℝ) (u : PoseUpd 1) (x : State 3 2 1)
    (hx : UnitState x) (prev : Fin 2 → List Level) (P : Cov 3 2 1) (m : Mem) (q : MLP) :
    ∃ fuel r, life AddArgs.listUSet (fun S => (List.finRange 3).filter (· ∈ S)) (zvCfg true) { demoEyes F with reduce := fun _ => some (M2.one, 0) } fcfg gate R u (fun _ => m)
        (fun _ _ => m) fuel
        [.imu ⟨x.acb + x.att.inv.rotate ⟨0, 0, 9.81⟩, x.gyb⟩ 0.1, .velocity 0, .image 6, .imu ⟨x.acb + x.att.inv.rotate ⟨0, 0, 9.81⟩, x.gyb⟩ 0.2, .velocity 0]
        { demoFSt { x with vel := 0 } prev P q with fsm := ⟨fun i => ⟨true, i.val, demoSpot, q⟩, 3⟩ } = some r ∧ r.w.x.pos = x.pos ∧ r.w.x.att = x.att ∧ r.w.x.vel = 0 := by
  set s : FSt 3 2 1 := { demoFSt { x with vel := 0 } prev P q with fsm := ⟨fun i => ⟨true, i.val, demoSpot, q⟩, 3⟩ } with hsdef
  set F' : Full 3 2 1 := { demoEyes F with reduce := fun _ => some (M2.one, 0) } with hF'
  have hsane : ∀ s c, (F'.detect m s c).Sane := fun s c => ⟨by simp [Full.detect, F', demoEyes], by simp [Full.detect, F', demoEyes], by simp [Full.detect, F', demoEyes],
    by simp [Full.detect, F', demoEyes]; norm_num, by simp [Full.detect, F', demoEyes]; norm_num⟩
  -- the two inputs before the image
  have h2 : ∃ s2, life AddArgs.listUSet (fun S => (List.finRange 3).filter (· ∈ S)) (zvCfg true) F' fcfg gate R u (fun _ => m) (fun _ _ => m) 0
      [.imu ⟨x.acb + x.att.inv.rotate ⟨0, 0, 9.81⟩, x.gyb⟩ 0.1, .velocity 0] s = some s2 ∧ WellFormed { s2 with t := 6 } := by
    refine ⟨_, rfl, ⟨fun i _ => ?_, fun i => (demo_wf 3 2 (fun _ => true) (fun _ => 0) (by simp)).2 i⟩⟩
    simp [Img.predict, St.camID, hsdef, demoSpot]
  obtain ⟨s2, h2, hwf⟩ := h2
  obtain ⟨fuel, s3, h3, _⟩ := C35_image_update_total AddArgs.listUSet_lawful (demo_order 3) (zvCfg true)
    ((F'.withFilter fcfg gate R u).env (fun _ => m) (fun _ _ => m)) (by norm_num) hsane
    (by simp only [zvCfg, demoCfg]; norm_num) (by simp only [zvCfg, demoCfg]; norm_num) (by simp only [zvCfg, demoCfg]; norm_num)
    (by simp only [zvCfg, demoCfg]; norm_num) (by simp only [zvCfg, demoCfg]; norm_num) (by norm_num) { s2 with t := 6 } hwf
  have h4 : ∃ r, life AddArgs.listUSet (fun S => (List.finRange 3).filter (· ∈ S)) (zvCfg true) F' fcfg gate R u (fun _ => m) (fun _ _ => m) fuel
      [.imu ⟨x.acb + x.att.inv.rotate ⟨0, 0, 9.81⟩, x.gyb⟩ 0.1, .velocity 0, .image 6, .imu ⟨x.acb + x.att.inv.rotate ⟨0, 0, 9.81⟩, x.gyb⟩ 0.2, .velocity 0] s = some r := by
    simp only [life, run, List.map_cons, List.map_nil, Input.happening, List.foldlM_cons, List.foldlM_nil, step, Option.bind_eq_bind, Option.bind_some, Option.pure_def,
      Option.some.injEq] at h2 ⊢
    rw [h2, h3 fuel le_rfl]
    exact ⟨_, rfl⟩
  obtain ⟨r, h4⟩ := h4
  refine ⟨fuel, r, h4, ?_⟩
  have hacc : x.att.rotate (x.acb + x.att.inv.rotate ⟨0, 0, 9.81⟩ - x.acb) = ⟨0, 0, 9.81⟩ := by
    have e : x.acb + x.att.inv.rotate ⟨0, 0, 9.81⟩ - x.acb = x.att.inv.rotate ⟨0, 0, 9.81⟩ := by ext <;> simp
    rw [e]; exact Quat.rotate_rotate_inv hx.att _
  obtain ⟨-, h5, -⟩ := C110_life AddArgs.listUSet AddArgs.listUSet_lawful (fun S => (List.finRange 3).filter (· ∈ S)) (by simp) (zvCfg true) F' rfl
    (fun c p => ⟨rfl, by simp [F', demoEyes, demoEye, Quat.IsUnit, Quat.one, Quat.normSq]⟩) fcfg gate R u (fun _ => m) (fun _ _ => m) (fun s c => hsane s c) fuel
    [.imu ⟨x.acb + x.att.inv.rotate ⟨0, 0, 9.81⟩, x.gyb⟩ 0.1, .velocity 0, .image 6, .imu ⟨x.acb + x.att.inv.rotate ⟨0, 0, 9.81⟩, x.gyb⟩ 0.2, .velocity 0] s
    ⟨hx.att, hx.vea, hx.aux, hx.poa, fun i => ⟨demoSpot, rfl, by simp [demoSpot, Quat.IsUnit, Quat.one, Quat.normSq]⟩, fun i h => by simp [hsdef, demoSpot] at h,
      fun i _ => by simp only [hsdef]; exact_mod_cast i.isLt⟩ rfl
    (by
      intro e he
      simp only [List.mem_cons, List.not_mem_nil, or_false] at he
      rcases he with rfl | rfl | rfl | rfl | rfl
      · exact ⟨by norm_num, rfl, hacc⟩
      · rfl
      · trivial
      · exact ⟨by norm_num, rfl, hacc⟩
      · rfl)
    (fun pre t post s1 _ _ s₁ _ i c _ m f _ => ⟨fun h => by simp [F', demoEyes] at h, fun _ y _ r e A v _ hv => by
      simp only [F', Option.some.injEq, Prod.mk.injEq] at hv; exact hv.2.symm⟩) [] _ s r rfl rfl h4
  exact ⟨h5.pos, h5.att, h5.vel⟩

end Rovio.ImgFull
