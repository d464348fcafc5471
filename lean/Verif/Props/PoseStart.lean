import Verif.Props.ImgPose
import Verif.Spec.PoseStart

/-!
# C44, C110: the first pose measurement, and a filter at rest that is fed with one and the same pose
-/

namespace Rovio.ImgFull

open Rovio.Img Matrix Spec

variable {n nCam nPose : ℕ}

lemma _root_.Rovio.Spec.SameOdometry.refl (s : State n nCam nPose) : SameOdometry s s := ⟨rfl, rfl, rfl, rfl, rfl, fun _ => rfl, fun _ => rfl⟩

lemma _root_.Rovio.Spec.SameOdometry.trans {s t r : State n nCam nPose} (h : SameOdometry s t) (g : SameOdometry t r) : SameOdometry s r :=
  ⟨g.pos.trans h.pos, g.vel.trans h.vel, g.acb.trans h.acb, g.gyb.trans h.gyb, g.att.trans h.att, fun c => (g.qCM c).trans (h.qCM c), fun c => (g.MrMC c).trans (h.MrMC c)⟩

lemma _root_.Rovio.Spec.SamePlatformNumbers.odometry {s t : State n nCam nPose} (h : SamePlatformNumbers s t) : SameOdometry s t :=
  ⟨h.pos, h.vel, h.acb, h.gyb, h.att, h.qCM, h.MrMC⟩

/-- What pre-processing the first measurement leaves behind. -/
lemma preProcess_first {u : PoseUpd nPose} (hu : AboutToAlign u) {m : PoseMeas} (hm : m.att.IsUnit) {x : State n nCam nPose} (ha : x.att.IsUnit) (hp : ∀ k, (x.poa k).IsUnit) :
    PredictedPose (u.preProcess m x).1 (u.preProcess m x).2 m ∧ (u.preProcess m x).1.didAlign = true ∧
      { (u.preProcess m x).2 with pop := x.pop, poa := x.poa } = x ∧ (∀ k, ((u.preProcess m x).2.poa k).IsUnit) ∧
      (u.preProcess m x).1.innov m (u.preProcess m x).2 ⟨0, 0⟩ = ⟨0, Quat.one⟩ ∧
      ∀ k, u.inertial ≠ some k → (u.preProcess m x).2.pop k = x.pop k ∧ (u.preProcess m x).2.poa k = x.poa k := by
  have hv : (u.getqVM x).IsUnit := by
    unfold PoseUpd.getqVM
    split
    · exact hp _
    · exact hu.unit
  obtain ⟨h1, h2, h3, h4⟩ := C44_first_innovation u m x hu.distinct hu.first hu.enabled ha hv hm
  refine ⟨⟨hm, fun he => ?_, fun he => ?_⟩, h2, h4, ?_, h1, h3⟩
  · have h := congrArg PoseInnov.pos h1
    simp only [PoseUpd.innov, he, if_true] at h
    have hx := congrArg V3.x h
    have hy := congrArg V3.y h
    have hz := congrArg V3.z h
    ext
    · simp at hx ⊢; linarith
    · simp at hy ⊢; linarith
    · simp at hz ⊢; linarith
  · have h := congrArg PoseInnov.att h1
    simp only [PoseUpd.innov, he, if_true, Quat.exp_zero, Quat.one_mul'] at h
    have h' := congrArg (· * m.att) h
    simp only [Quat.mul_assoc' _ m.att.inv m.att, Quat.inv_mul_self hm, Quat.mul_one', Quat.one_mul'] at h'
    exact h'.symm
  · unfold PoseUpd.preProcess
    rw [align_first u m x hu.first hu.enabled]
    intro k
    dsimp only
    split
    · rename_i j _
      by_cases h : k = j
      · subst h
        simp only [Function.update_self]
        exact (ha.mul hv.inv).mul hm
      · simp only [Function.update_of_ne h]; exact hp k
    · exact hp k

/-- The correction with the first measurement. -/
lemma pose_first {cfg : FCfg n (nCam + 1) nPose} (hlog : cfg.log Quat.one = 0) {x z : Rovio.FSt n (nCam + 1) nPose} (hx : UnitState x.s) (hu : AboutToAlign x.u) {m : PoseMeas}
    (hm : m.att.IsUnit) (h : Rovio.FSt.pose cfg m x = some z) :
    z.u = (x.u.preProcess m x.s).1 ∧ ∃ a : Aux (nCam + 1), a.doVE = x.s.aux.doVE ∧ a.qCM = x.s.aux.qCM ∧ a.MrMC = x.s.aux.MrMC ∧
      z.s = { (x.u.preProcess m x.s).2.fixed with aux := a } := by
  obtain ⟨-, -, h3, h4, hi, -⟩ := preProcess_first hu hm hx.att hx.poa
  unfold Rovio.FSt.pose at h
  dsimp only at h
  have hy : DPose.row ⟨((x.u.preProcess m x.s).1.innov m (x.u.preProcess m x.s).2 ⟨0, 0⟩).pos, cfg.log ((x.u.preProcess m x.s).1.innov m (x.u.preProcess m x.s).2 ⟨0, 0⟩).att⟩ = 0 := by
    rw [hi]
    dsimp only
    rw [hlog]
    funext k
    unfold DPose.row
    split <;> (rename_i i _; fin_cases i <;> rfl)
  generalize hw : (x.u.preProcess m x.s).2 = w at *
  have e1 : w.att = x.s.att := by have h := congrArg State.att h3; exact h
  have e2 : w.vea = x.s.vea := by have h := congrArg State.vea h3; exact h
  have e3 : w.aux = x.s.aux := by have h := congrArg State.aux h3; exact h
  have e4 : w.fea = x.s.fea := by have h := congrArg State.fea h3; exact h
  have hw' : UnitState w := ⟨e1 ▸ hx.att, e2 ▸ hx.vea, e3 ▸ hx.aux, h4, fun i => by rw [e4]; exact hx.nor i⟩
  have h5 := Rovio.FSt.finish_nothing (x := ⟨w, x.P, (x.u.preProcess m x.s).1⟩) (post := (x.u.preProcess m x.s).1.postProcess m) hw' hy
    (a := ((x.u.preProcess m x.s).1.postProcess m w.fixed).aux) (fun _ => rfl) rfl h
  refine ⟨finish_u h, _, ?_, ?_, ?_, h5⟩
  · show w.aux.doVE = _
    rw [e3]
  · show w.aux.qCM = _
    rw [e3]
  · show w.aux.MrMC = _
    rw [e3]

/-- **C44, the first measurement is absorbed.**  With alignment at start enabled, the update with the first pose measurement, whatever the pose is, changes nothing of the
odometry - position, velocity, biases, attitude, mounting of the cameras, features - and of the additional poses only the alignment; the alignment is done then, and the
measured pose is the predicted one. -/
theorem C44_first_absorbed (cfg : FCfg n (nCam + 1) nPose) (hlog : cfg.log Quat.one = 0) (x z : Rovio.FSt n (nCam + 1) nPose) (hx : UnitState x.s) (hu : AboutToAlign x.u)
    (m : PoseMeas) (hm : m.att.IsUnit) (h : Rovio.FSt.pose cfg m x = some z) :
    SameOdometry x.s z.s ∧ SameLandmarks x.s z.s ∧ (∀ k, x.u.inertial ≠ some k → z.s.pop k = x.s.pop k ∧ z.s.poa k = x.s.poa k) ∧
      z.u.didAlign = true ∧ PredictedPose z.u z.s m := by
  obtain ⟨hz, a, a1, a2, a3, h1⟩ := pose_first hlog hx hu hm h
  obtain ⟨p1, p2, p3, p4, p5, p6⟩ := preProcess_first hu hm hx.att hx.poa
  obtain ⟨q1, q2⟩ := fixed_same (x.u.preProcess m x.s).2 (a := a) (by rw [a1]; exact (congrArg (fun s => s.aux.doVE) p3).symm)
    (fun c => by rw [a2]; exact (congrArg (fun s => s.aux.qCM c) p3).symm) (fun c => by rw [a3]; exact (congrArg (fun s => s.aux.MrMC c) p3).symm)
  have o : SameOdometry x.s (x.u.preProcess m x.s).2 := by
    generalize (x.u.preProcess m x.s).2 = w at p3
    rw [← p3]
    exact ⟨rfl, rfl, rfl, rfl, rfl, fun _ => rfl, fun _ => rfl⟩
  have l : SameLandmarks x.s (x.u.preProcess m x.s).2 := by
    generalize (x.u.preProcess m x.s).2 = w at p3
    rw [← p3]
    exact ⟨fun _ => rfl, fun _ => rfl, fun _ => rfl⟩
  rw [h1, hz]
  refine ⟨o.trans q1.odometry, l.trans q2, fun k hk => ?_, p2, predictedPose_congr ⟨rfl, rfl, rfl, rfl, rfl, rfl, rfl, rfl⟩ q1 p1⟩
  rw [q1.pop, q1.poa]; exact p6 k hk

/-! ### A life with one and the same pose -/

/-- What the life of a filter at rest keeps, apart from the additional poses. -/
structure RestsOdo (s₀ s : FSt n nCam nPose) : Prop where
  sound : Sound s
  slots : Slots s₀ s
  odometry : SameOdometry s₀.w.x s.w.x
  features : ∀ i, Survives s₀ s i → SameBearing (s₀.fsm.slots i).coord (s.fsm.slots i).coord ∧ s.camID i = s₀.camID i ∧ (s.w.x.fea i).d = (s₀.w.x.fea i).d

lemma Rests.odo {s₀ s : FSt n nCam nPose} (h : Rests s₀ s) : RestsOdo s₀ s := ⟨h.sound, h.slots, h.platform.odometry, h.features⟩

lemma RestsOdo.trans {s₀ s s' : FSt n nCam nPose} (h₀ : Sound s₀) (h : RestsOdo s₀ s) (g : RestsOdo s s') : RestsOdo s₀ s' := by
  refine ⟨g.sound, ⟨g.slots.fit, g.slots.ids, h.slots.maxIdx.trans g.slots.maxIdx, fun i hi => ?_⟩, h.odometry.trans g.odometry, fun i hi => ?_⟩
  · rcases g.slots.since i hi with ⟨a, b⟩ | a
    · rw [b]; exact h.slots.since i a
    · have := h.slots.maxIdx
      right; omega
  · obtain ⟨i1, i2, i3⟩ := hi
    have hlt := h₀.ids i i1
    have hm := h.slots.maxIdx
    rcases g.slots.since i i2 with ⟨a, b⟩ | a
    · obtain ⟨f1, f2, f3⟩ := h.features i ⟨i1, a, b.symm.trans i3⟩
      obtain ⟨g1, g2, g3⟩ := g.features i ⟨a, i2, b⟩
      exact ⟨f1.trans g1, g2.trans f2, g3.trans f3⟩
    · omega

/-- The filter with other additional poses. -/
def withPoses (s : FSt n nCam nPose) (x : State n nCam nPose) : FSt n nCam nPose := { s with w := { s.w with x := { s.w.x with pop := x.pop, poa := x.poa } } }

/-- The first pose measurement of a filter's life. -/
lemma rests_first {I : USet} {order : Finset (Fin n) → List (Fin n)} {cfg : Cfg} {F : PoseUpd nPose → Full n (nCam + 1) nPose} {fcfg : FCfg n (nCam + 1) nPose}
    {mem : FSt n (nCam + 1) nPose → Mem} {mem' : ℝ → Slot MLP → Mem} {fuel : ℕ} (hlog : fcfg.log Quat.one = 0) {s r : FSt n (nCam + 1) nPose × PoseUpd nPose} (hs : Sound s.1)
    (hu : AboutToAlign s.2) {m : PoseMeas} (hm : m.att.IsUnit) (h : stepPose I order cfg F fcfg mem mem' fuel s (.pose m) = some r) :
    RestsOdo s.1 r.1 ∧ (r.2 = s.2 ∨ (r.2.didAlign = true ∧ PredictedPose r.2 r.1.w.x m)) := by
  simp only [stepPose, step, Option.map_some, Option.some.injEq] at h
  subst h
  cases hq : Rovio.FSt.pose fcfg m ⟨here s.1, s.1.cov, s.2⟩ with
  | none =>
    simp only [keepOr, poseMembers, hq]
    exact ⟨(rests_none hs).odo, .inl trivial⟩
  | some z =>
    obtain ⟨hz, a, a1, a2, a3, h1⟩ := pose_first hlog hs.unit hu hm hq
    obtain ⟨p1, p2, p3, p4, -, -⟩ := preProcess_first hu hm hs.unit.att hs.unit.poa
    dsimp only at hz a1 a2 a3 h1 p1 p2 p3 p4
    simp only [keepOr, poseMembers, hq]
    generalize hv : (s.2.preProcess m (here s.1)).2 = w at *
    have e : w = here (withPoses s.1 w) := by
      have : w = { here s.1 with pop := w.pop, poa := w.poa } := by rw [← p3]
      rw [this]; rfl
    have hs' : Sound (withPoses s.1 w) := ⟨hs.att, hs.vea, hs.aux, p4, hs.direction, hs.camera, hs.ids⟩
    have b1 : a.doVE = w.aux.doVE := by rw [a1, e]; rfl
    have b2 : a.qCM = w.aux.qCM := by rw [a2, e]; rfl
    have b3 : a.MrMC = w.aux.MrMC := by rw [a3, e]; rfl
    obtain ⟨h4, -⟩ := fixed_same w (a := a) b1 (fun c => by rw [b2]) (fun c => by rw [b3])
    have hr := rests_filter (P := z.P) (dt := 0) (b := false) hs' (y := z.s) (by rw [h1, ← e]; exact h4)
      (by rw [h1]; show ∀ c, (w.vea c).IsUnit; rw [e]; exact hs.vea) (by rw [h1]; show ∀ c, (a.qCM c).IsUnit; rw [a2]; exact hs.aux)
      (fun i => by
        rw [h1, ← e]
        exact ⟨by simp [State.fixed, Fea.fixed, FC.setNor], by simp [State.fixed, Fea.fixed, FC.setNor], by simp [State.fixed, Fea.fixed, FC.setNor],
          by simp [State.fixed, Fea.fixed, FC.setNor], rfl⟩)
    refine ⟨⟨hr.sound, ⟨hr.slots.fit, hr.slots.ids, hr.slots.maxIdx, hr.slots.since⟩, ?_, hr.features⟩, .inr ?_⟩
    · exact SameOdometry.trans (t := (withPoses s.1 w).w.x) ⟨rfl, rfl, rfl, rfl, rfl, fun _ => rfl, fun _ => rfl⟩ hr.platform.odometry
    · rw [hz]
      refine ⟨p2, predictedPose_congr ⟨rfl, rfl, rfl, rfl, rfl, rfl, rfl, rfl⟩ ?_ p1⟩
      rw [h1]; exact h4

/-- Either the next pose aligns the frames, or they are aligned and `m` is the predicted pose. -/
def Fed (m : PoseMeas) (u : PoseUpd nPose) (x : State n nCam nPose) : Prop := AboutToAlign u ∨ (u.didAlign = true ∧ PredictedPose u x m)

lemma restAt_congr {m : PoseMeas} {x y : State n nCam nPose} (hs : SameOdometry x y) {e : PInput n nCam nPose} (he : AtRestOrThePose m x e) : AtRestOrThePose m y e := by
  cases e with
  | pose m => exact he
  | input e =>
    cases e with
    | imu m dt => simpa only [AtRestOrThePose, ExpectedAtRest, hs.gyb, hs.att, hs.acb] using he
    | velocity v => exact he
    | image t => trivial
    | reset i t => exact he

/-- A life at rest with one and the same pose. -/
lemma rests_lifeThePose (I : USet) (hI : I.Lawful) (order : Finset (Fin n) → List (Fin n)) (ho : ∀ S, ∀ i ∈ order S, i ∈ S) (cfg : Cfg) (F : Full n (nCam + 1) nPose)
    (hd : F.base.direct = cfg.direct) (hB : Backprojects F)
    (L : PoseUpd nPose → Callbacks n (nCam + 1) nPose → State n (nCam + 1) nPose → Cov n (nCam + 1) nPose → Scr → State n (nCam + 1) nPose × Cov n (nCam + 1) nPose × M2 × Bool)
    (fcfg : FCfg n (nCam + 1) nPose) (hlog : fcfg.log Quat.one = 0) (mem : FSt n (nCam + 1) nPose → Mem) (mem' : ℝ → Slot MLP → Mem) (hF : ∀ s c, (F.detect (mem s) s c).Sane)
    (fuel : ℕ) (m : PoseMeas) (hm : m.att.IsUnit) (es : List (PInput n (nCam + 1) nPose)) (s s' : FSt n (nCam + 1) nPose × PoseUpd nPose) (hs : Sound s.1) (hv : s.1.w.x.vel = 0)
    (hn : Fed m s.2 s.1.w.x) (he : ∀ e ∈ es, AtRestOrThePose m s.1.w.x e)
    (ha : ∀ pre t post s1 u1, es = pre ++ .input (.image t) :: post → lifePose I order cfg (fun u => F.withLwf (L u) fcfg u) fcfg mem mem' fuel pre s = some (s1, u1) →
      ImageAgrees F { s1 with t := t } ∧ (Sound s1 → Leaves F (L u1) cfg { s1 with t := t }))
    (h : lifePose I order cfg (fun u => F.withLwf (L u) fcfg u) fcfg mem mem' fuel es s = some s') : RestsOdo s.1 s'.1 ∧ Fed m s'.2 s'.1.w.x := by
  have key : ∀ (es pre : List (PInput n (nCam + 1) nPose)) (r : FSt n (nCam + 1) nPose × PoseUpd nPose),
      lifePose I order cfg (fun u => F.withLwf (L u) fcfg u) fcfg mem mem' fuel pre s = some r → RestsOdo s.1 r.1 → Fed m r.2 r.1.w.x →
      (∀ e ∈ es, AtRestOrThePose m s.1.w.x e) →
      (∀ pre' t post s1 u1, pre ++ es = pre' ++ .input (.image t) :: post → lifePose I order cfg (fun u => F.withLwf (L u) fcfg u) fcfg mem mem' fuel pre' s = some (s1, u1) →
        ImageAgrees F { s1 with t := t } ∧ (Sound s1 → Leaves F (L u1) cfg { s1 with t := t })) →
      lifePose I order cfg (fun u => F.withLwf (L u) fcfg u) fcfg mem mem' fuel es r = some s' → RestsOdo s.1 s'.1 ∧ Fed m s'.2 s'.1.w.x := by
    intro es
    induction es with
    | nil =>
      intro pre r _ hr hn _ _ h
      simp only [lifePose, List.foldlM_nil, Option.pure_def, Option.some.injEq] at h
      rw [← h]; exact ⟨hr, hn⟩
    | cons e es ih =>
      intro pre r hpre hr hn he ha h
      simp only [lifePose, List.foldlM_cons, Option.bind_eq_bind] at h
      obtain ⟨q, hq, h⟩ := Option.bind_eq_some_iff.mp h
      have hex := restAt_congr hr.odometry (he e (by simp))
      have hst : RestsOdo r.1 q.1 ∧ Fed m q.2 q.1.w.x := by
        cases e with
        | input e =>
          simp only [stepPose] at hq
          obtain ⟨s1, h1, rfl⟩ := Option.map_eq_some_iff.mp hq
          have g := rests_step (F := F) (fcfg := fcfg) (L := L r.2) (u := r.2) (mem := mem) (mem' := mem') (cfg := cfg) hI ho hB hd hF hr.sound (hr.odometry.vel.trans hv) hex
            (fun t ht => by
              have := ha pre t es r.1 r.2 (by rw [ht]) hpre
              exact ⟨this.1, this.2 hr.sound⟩) h1
          exact ⟨g.odo, hn.imp_right fun h => ⟨h.1, predictedPose_congr ⟨rfl, rfl, rfl, rfl, rfl, rfl, rfl, rfl⟩ g.platform h.2⟩⟩
        | pose m' =>
          obtain rfl : m' = m := hex
          rcases hn with hn | ⟨h1, h2⟩
          · obtain ⟨g1, g2⟩ := rests_first hlog hr.sound hn hm hq
            exact ⟨g1, g2.imp_left fun e => by rw [e]; exact hn⟩
          · have hset : ¬ (r.2.didAlign = false ∧ r.2.doAlign = true) := by simp [h1]
            obtain ⟨g1, g2, -⟩ := rests_pose hlog hr.sound hset h2 hq
            refine ⟨g1.odo, .inr ⟨?_, predictedPose_congr g2 g1.platform h2⟩⟩
            simp only [stepPose, step, Option.map_some, Option.some.injEq] at hq
            rw [← hq]
            simp only [poseMembers]
            split
            · rename_i z hz
              unfold Rovio.FSt.pose at hz
              rw [finish_u hz]
              exact (C44_once r.2 h1 [(m', here r.1)] m' (here r.1)).2.2.1
            · exact h1
      refine ih (pre ++ [e]) q ?_ (hr.trans hs hst.1) hst.2 (fun a h => he a (by simp [h]))
        (fun pre' t post s1 u1 h => ha pre' t post s1 u1 (by simpa using h)) h
      simp only [lifePose, List.foldlM_append, List.foldlM_cons, List.foldlM_nil, Option.bind_eq_bind] at hpre ⊢
      rw [hpre, Option.bind_some, hq]; rfl
  exact key es [] s rfl (Rests.refl hs).odo hn he (by simpa using ha) h

lemma lifeThePose_leaves (I : USet) (hI : I.Lawful) (order : Finset (Fin n) → List (Fin n)) (ho : ∀ S, ∀ i ∈ order S, i ∈ S) (cfg : Cfg) (F : Full n (nCam + 1) nPose)
    (hd : F.base.direct = cfg.direct) (hB : Backprojects F)
    (L : PoseUpd nPose → Callbacks n (nCam + 1) nPose → State n (nCam + 1) nPose → Cov n (nCam + 1) nPose → Scr → State n (nCam + 1) nPose × Cov n (nCam + 1) nPose × M2 × Bool)
    (fcfg : FCfg n (nCam + 1) nPose) (hlog : fcfg.log Quat.one = 0) (mem : FSt n (nCam + 1) nPose → Mem) (mem' : ℝ → Slot MLP → Mem) (hF : ∀ s c, (F.detect (mem s) s c).Sane)
    (fuel : ℕ) (m : PoseMeas) (hm : m.att.IsUnit) (es : List (PInput n (nCam + 1) nPose)) (s : FSt n (nCam + 1) nPose) (u : PoseUpd nPose) (hs : Sound s) (hv : s.w.x.vel = 0)
    (hn : AboutToAlign u) (he : ∀ e ∈ es, AtRestOrThePose m s.w.x e)
    (ha : ∀ pre t post s1 u1, es = pre ++ .input (.image t) :: post → lifePose I order cfg (fun u => F.withLwf (L u) fcfg u) fcfg mem mem' fuel pre (s, u) = some (s1, u1) →
      ImageAgrees F { s1 with t := t } ∧ (Sound s1 → Leaves F (L u1) cfg { s1 with t := t })) :
    ∀ before after s1 u1 s2 u2, es = before ++ after → lifePose I order cfg (fun u => F.withLwf (L u) fcfg u) fcfg mem mem' fuel before (s, u) = some (s1, u1) →
      lifePose I order cfg (fun u => F.withLwf (L u) fcfg u) fcfg mem mem' fuel after (s1, u1) = some (s2, u2) →
      SameOdometry s.w.x s1.w.x ∧ SameOdometry s.w.x s2.w.x ∧
      ∀ i, Survives s1 s2 i → SameBearing (s1.fsm.slots i).coord (s2.fsm.slots i).coord ∧ s2.camID i = s1.camID i ∧ (s2.w.x.fea i).d = (s1.w.x.fea i).d := by
  rintro a b s1 u1 s2 u2 rfl h1 h2
  obtain ⟨r1, r2⟩ := rests_lifeThePose I hI order ho cfg F hd hB L fcfg hlog mem mem' hF fuel m hm a (s, u) (s1, u1) hs hv (.inl hn) (fun e h => he e (by simp [h]))
    (fun pre t post s1 u1 hes => ha pre t (post ++ b) s1 u1 (by rw [hes]; simp)) h1
  have hpl := r1.odometry
  obtain ⟨q1, -⟩ := rests_lifeThePose I hI order ho cfg F hd hB L fcfg hlog mem mem' hF fuel m hm b (s1, u1) (s2, u2) r1.sound (hpl.vel.trans hv) r2
    (fun e h => restAt_congr hpl (he e (by simp [h])))
    (fun pre t post s3 u3 hes h3 => ha (a ++ pre) t post s3 u3 (by rw [hes]; simp) (by
      simp only [lifePose, List.foldlM_append, Option.bind_eq_bind] at h1 h3 ⊢
      rw [h1, Option.bind_some]; exact h3)) h2
  exact ⟨hpl, hpl.trans q1.odometry, q1.features⟩

/-- **C110, one and the same pose.**  A platform at rest whose frames are still to be aligned, fed with one and the same measured pose, whatever it is, besides IMU measurements of
the biases and gravity, velocity zero, and images that agree with the estimate at the time they come, in any order and number: position, velocity, attitude, biases and mounting of
the cameras stay exactly as they are for ever, and so do bearing, camera and distance of every feature as long as it is tracked. -/
theorem C110_life_constant_pose (I : USet) (hI : I.Lawful) (order : Finset (Fin n) → List (Fin n)) (ho : ∀ S, ∀ i ∈ order S, i ∈ S) (cfg : Cfg) (F : Full n (nCam + 1) nPose)
    (hd : F.base.direct = cfg.direct) (hB : Backprojects F) (fcfg : FCfg n (nCam + 1) nPose) (hlog : fcfg.log Quat.one = 0) (gate : Gate 2) (R : Matrix (Fin 2) (Fin 2) ℝ)
    (mem : FSt n (nCam + 1) nPose → Mem) (mem' : ℝ → Slot MLP → Mem) (hF : ∀ s c, (F.detect (mem s) s c).Sane) (fuel : ℕ) (m : PoseMeas) (hm : m.att.IsUnit)
    (es : List (PInput n (nCam + 1) nPose)) (s : FSt n (nCam + 1) nPose) (u : PoseUpd nPose) (hs : Sound s) (hv : s.w.x.vel = 0) (hn : AboutToAlign u)
    (he : ∀ e ∈ es, AtRestOrThePose m s.w.x e)
    (ha : ∀ pre t post s1 u1, es = pre ++ .input (.image t) :: post → lifePose I order cfg (fun u => F.withFilter fcfg gate R u) fcfg mem mem' fuel pre (s, u) = some (s1, u1) →
      ImageAgrees F { s1 with t := t }) :
    ∀ before after s1 u1 s2 u2, es = before ++ after → lifePose I order cfg (fun u => F.withFilter fcfg gate R u) fcfg mem mem' fuel before (s, u) = some (s1, u1) →
      lifePose I order cfg (fun u => F.withFilter fcfg gate R u) fcfg mem mem' fuel after (s1, u1) = some (s2, u2) →
      SameOdometry s.w.x s1.w.x ∧ SameOdometry s.w.x s2.w.x ∧
      ∀ i, Survives s1 s2 i → SameBearing (s1.fsm.slots i).coord (s2.fsm.slots i).coord ∧ s2.camID i = s1.camID i ∧ (s2.w.x.fea i).d = (s1.w.x.fea i).d :=
  lifeThePose_leaves I hI order ho cfg F hd hB (fun u => ekf gate R u) fcfg hlog mem mem' hF fuel m hm es s u hs hv hn he fun pre t post s1 u1 hes h1 =>
    have h := ha pre t post s1 u1 hes h1
    ⟨h, fun hs1 => leaves_ekf (Sound.unit (s := { s1 with t := t }) ⟨hs1.att, hs1.vea, hs1.aux, hs1.poa, hs1.direction, hs1.camera, hs1.ids⟩) hd h⟩

/-- C110, one and the same pose, with the iterated update (direct method, one starting point). -/
theorem C110_life_constant_pose_iterated (I : USet) (hI : I.Lawful) (order : Finset (Fin n) → List (Fin n)) (ho : ∀ S, ∀ i ∈ order S, i ∈ S) (cfg : Cfg)
    (F : Full n (nCam + 1) nPose) (hdir : F.base.direct = true) (hd : cfg.direct = true) (hB : Backprojects F) (c : IterCfg) (hc : ZeroDifference c) (h0 : c.uni = 0)
    (hcov : c.cover ≠ 0) (fcfg : FCfg n (nCam + 1) nPose) (hlog : fcfg.log Quat.one = 0) (gate : Gate 2) (R : Matrix (Fin 2) (Fin 2) ℝ)
    (mem : FSt n (nCam + 1) nPose → Mem) (mem' : ℝ → Slot MLP → Mem) (hF : ∀ s c, (F.detect (mem s) s c).Sane) (fuel : ℕ) (m : PoseMeas) (hm : m.att.IsUnit)
    (es : List (PInput n (nCam + 1) nPose)) (s : FSt n (nCam + 1) nPose) (u : PoseUpd nPose) (hs : Sound s) (hv : s.w.x.vel = 0) (hn : AboutToAlign u)
    (he : ∀ e ∈ es, AtRestOrThePose m s.w.x e)
    (ha : ∀ pre t post s1 u1, es = pre ++ .input (.image t) :: post → lifePose I order cfg (fun u => F.iterated c fcfg gate R u) fcfg mem mem' fuel pre (s, u) = some (s1, u1) →
      AgreesThroughout F { s1 with t := t }) :
    ∀ before after s1 u1 s2 u2, es = before ++ after → lifePose I order cfg (fun u => F.iterated c fcfg gate R u) fcfg mem mem' fuel before (s, u) = some (s1, u1) →
      lifePose I order cfg (fun u => F.iterated c fcfg gate R u) fcfg mem mem' fuel after (s1, u1) = some (s2, u2) →
      SameOdometry s.w.x s1.w.x ∧ SameOdometry s.w.x s2.w.x ∧
      ∀ i, Survives s1 s2 i → SameBearing (s1.fsm.slots i).coord (s2.fsm.slots i).coord ∧ s2.camID i = s1.camID i ∧ (s2.w.x.fea i).d = (s1.w.x.fea i).d :=
  lifeThePose_leaves I hI order ho cfg F (hdir.trans hd.symm) hB (fun _ => iekf c F.eigen gate R) fcfg hlog mem mem' hF fuel m hm es s u hs hv hn he fun pre t post s1 u1 hes h1 =>
    have h := ha pre t post s1 u1 hes h1
    ⟨agrees_of_throughout hdir h, fun hs1 =>
      leaves_iekf hc h0 hcov (Sound.unit (s := { s1 with t := t }) ⟨hs1.att, hs1.vea, hs1.aux, hs1.poa, hs1.direction, hs1.camera, hs1.ids⟩) hdir h⟩

/-- **C44, the whole filter.**  Once the frames are aligned (or if they are not to be aligned at all) the stored alignment stays as it is, over all IMU measurements, velocities, images,
poses and resets to come. -/
theorem C44_life (I : USet) (order : Finset (Fin n) → List (Fin n)) (cfg : Cfg) (F : PoseUpd nPose → Full n (nCam + 1) nPose) (fcfg : FCfg n (nCam + 1) nPose)
    (mem : FSt n (nCam + 1) nPose → Mem) (mem' : ℝ → Slot MLP → Mem) (fuel : ℕ) (es : List (PInput n (nCam + 1) nPose)) (s s' : FSt n (nCam + 1) nPose) (u u' : PoseUpd nPose)
    (hu : u.didAlign = true ∨ u.doAlign = false) (h : lifePose I order cfg F fcfg mem mem' fuel es (s, u) = some (s', u')) :
    u'.qWI = u.qWI ∧ u'.IrIW = u.IrIW ∧ u'.didAlign = u.didAlign ∧ u'.doAlign = u.doAlign := by
  induction es generalizing s u with
  | nil =>
    simp only [lifePose, List.foldlM_nil, Option.pure_def, Option.some.injEq, Prod.mk.injEq] at h
    rw [← h.2]; exact ⟨rfl, rfl, rfl, rfl⟩
  | cons e es ih =>
    simp only [lifePose, List.foldlM_cons, Option.bind_eq_bind] at h
    obtain ⟨q, hq, h⟩ := Option.bind_eq_some_iff.mp h
    have hst : q.2.qWI = u.qWI ∧ q.2.IrIW = u.IrIW ∧ q.2.didAlign = u.didAlign ∧ q.2.doAlign = u.doAlign := by
      cases e with
      | input e =>
        simp only [stepPose] at hq
        obtain ⟨s1, h1, rfl⟩ := Option.map_eq_some_iff.mp hq
        exact ⟨rfl, rfl, rfl, rfl⟩
      | pose m =>
        simp only [stepPose, step, Option.map_some, Option.some.injEq] at hq
        rw [← hq]
        simp only [poseMembers]
        split
        · rename_i z hz
          unfold Rovio.FSt.pose at hz
          rw [finish_u hz]
          have hn : ¬ (u.didAlign = false ∧ u.doAlign = true) := by rcases hu with h | h <;> simp [h]
          obtain ⟨N, hN⟩ := setNoise_fields u m
          simp only [PoseUpd.preProcess, align_not hn]
          rw [hN]
          exact ⟨rfl, rfl, rfl, rfl⟩
        · exact ⟨rfl, rfl, rfl, rfl⟩
    obtain ⟨g1, g2, g3, g4⟩ := ih q.1 q.2 (by rw [hst.2.2.1, hst.2.2.2]; exact hu) h
    exact ⟨g1.trans hst.1, g2.trans hst.2.1, g3.trans hst.2.2.1, g4.trans hst.2.2.2⟩

/-- Inputs other than poses leave the members of the pose update as they are. -/
lemma lifePose_members {I : USet} {order : Finset (Fin n) → List (Fin n)} {cfg : Cfg} {F : PoseUpd nPose → Full n (nCam + 1) nPose} {fcfg : FCfg n (nCam + 1) nPose}
    {mem : FSt n (nCam + 1) nPose → Mem} {mem' : ℝ → Slot MLP → Mem} {fuel : ℕ} {es : List (PInput n (nCam + 1) nPose)} (he : ∀ m, .pose m ∉ es) {s s' : FSt n (nCam + 1) nPose}
    {u u' : PoseUpd nPose} (h : lifePose I order cfg F fcfg mem mem' fuel es (s, u) = some (s', u')) : u' = u := by
  induction es generalizing s with
  | nil =>
    simp only [lifePose, List.foldlM_nil, Option.pure_def, Option.some.injEq, Prod.mk.injEq] at h
    exact h.2.symm
  | cons e es ih =>
    simp only [lifePose, List.foldlM_cons, Option.bind_eq_bind] at h
    obtain ⟨q, hq, h⟩ := Option.bind_eq_some_iff.mp h
    cases e with
    | input e =>
      simp only [stepPose] at hq
      obtain ⟨s1, h1, rfl⟩ := Option.map_eq_some_iff.mp hq
      exact ih (fun m hm => he m (by simp [hm])) h
    | pose m => exact absurd (by simp) (he m)

/-- **C44, the whole filter, the alignment.**  Whatever happened before the first pose measurement `m` and whatever happens after it, resets included: the alignment is done, and it
is the one with which the estimate at that time predicts `m`. -/
theorem C44_life_aligned (I : USet) (order : Finset (Fin n) → List (Fin n)) (cfg : Cfg) (F : PoseUpd nPose → Full n (nCam + 1) nPose) (fcfg : FCfg n (nCam + 1) nPose)
    (mem : FSt n (nCam + 1) nPose → Mem) (mem' : ℝ → Slot MLP → Mem) (fuel : ℕ) (before after : List (PInput n (nCam + 1) nPose)) (hb : ∀ m, .pose m ∉ before)
    (s s1 s' : FSt n (nCam + 1) nPose) (u u1 u' : PoseUpd nPose) (hu : AboutToAlign u) (m : PoseMeas) (hm : m.att.IsUnit)
    (h1 : lifePose I order cfg F fcfg mem mem' fuel before (s, u) = some (s1, u1)) (ha : s1.w.x.att.IsUnit) (hp : ∀ k, (s1.w.x.poa k).IsUnit)
    (hok : Rovio.FSt.pose fcfg m ⟨here s1, s1.cov, u⟩ ≠ none)
    (h : lifePose I order cfg F fcfg mem mem' fuel (before ++ .pose m :: after) (s, u) = some (s', u')) :
    u'.didAlign = true ∧ m.att = u.getqVM s1.w.x * s1.w.x.att.inv * u'.qWI ∧
      m.pos = u'.IrIW + u'.qWI.inv.rotate (s1.w.x.pos + s1.w.x.att.rotate (u.getMrMV s1.w.x)) := by
  obtain rfl := lifePose_members hb h1
  simp only [lifePose, List.foldlM_append, List.foldlM_cons, Option.bind_eq_bind] at h h1
  rw [h1, Option.bind_some] at h
  obtain ⟨q, hq, h⟩ := Option.bind_eq_some_iff.mp h
  have hv : (u1.getqVM s1.w.x).IsUnit := by
    unfold PoseUpd.getqVM
    split
    · exact hp _
    · exact hu.unit
  have e1 : u1.getqVM (here s1) = u1.getqVM s1.w.x := rfl
  have e2 : u1.getMrMV (here s1) = u1.getMrMV s1.w.x := rfl
  have hst : q.2.qWI = s1.w.x.att * (u1.getqVM s1.w.x).inv * m.att ∧ q.2.didAlign = true ∧
      q.2.IrIW = m.pos - (s1.w.x.att * (u1.getqVM s1.w.x).inv * m.att).inv.rotate (s1.w.x.pos + s1.w.x.att.rotate (u1.getMrMV s1.w.x)) := by
    simp only [stepPose, step, Option.map_some, Option.some.injEq] at hq
    rw [← hq]
    simp only [poseMembers]
    split
    · rename_i z hz
      unfold Rovio.FSt.pose at hz
      rw [finish_u hz]
      unfold PoseUpd.preProcess
      obtain ⟨N, hN⟩ := setNoise_fields (u1.align m (here s1)).1 m
      rw [hN, align_first u1 m (here s1) hu.first hu.enabled, e1, e2]
      exact ⟨rfl, rfl, rfl⟩
    · rename_i hz
      exact absurd hz hok
  obtain ⟨g1, g2, g3, -⟩ := C44_life I order cfg F fcfg mem mem' fuel after q.1 s' q.2 u' (.inl hst.2.1) h
  rw [g1, g2, g3, hst.1, hst.2.2]
  refine ⟨hst.2.1, ?_, ?_⟩
  · rw [← Quat.mul_assoc' _ (s1.w.x.att * _), ← Quat.mul_assoc' _ s1.w.x.att, Quat.mul_assoc' _ s1.w.x.att.inv, Quat.inv_mul_self ha, Quat.mul_one', Quat.mul_inv_self hv, Quat.one_mul']
  · ext <;> simp

/-! ## Non-vacuity -/

/-- A filter with a feature and two cameras and its first measured pose, a metre and more away and turned around. -/
example : ∃ z, Rovio.FSt.pose demoFCfg demoMeas demoFilter = some z ∧ z.s.pos = demoFilter.s.pos ∧ (z.s.fea 0).c.nor = (demoFilter.s.fea 0).c.nor ∧ z.u.didAlign = true := by
  have hm : demoMeas.att.IsUnit := by norm_num [demoMeas, Quat.IsUnit, Quat.normSq]
  obtain ⟨z, hz, -⟩ := Rovio.FSt.step_live demoFCfg_ok (cfg := demoFCfg) strictPos_one strictPos_one (e := .pose demoMeas) (x := demoFilter)
    ⟨hm, isCov_one, strictPos_one⟩ demoFilter_live
  obtain ⟨h1, h2, -, h3, -⟩ := C44_first_absorbed demoFCfg rfl demoFilter z demoFilter_ok.unit ⟨rfl, rfl, fun k _ h => by simp [demoFilter, demoNoFeedback] at h, Quat.isUnit_one⟩
    demoMeas hm hz
  exact ⟨z, hz, h1.pos, h2.nor 0, h3⟩

/-- Two poses and a reset, for a pose update that has aligned the frames already. -/
example (F : Full 3 2 1) (C : Fin 2 → Camera) (f : V3 → Nor) (g : V2 → Nor) (fcfg : FCfg 3 2 1) (gate : Gate 2) (R : Matrix (Fin 2) (Fin 2) ℝ) (x : State 3 2 1)
    (prev : Fin 2 → List Level) (P : Cov 3 2 1) (q : MLP) (m : Mem) :
    ∃ r u, lifePose AddArgs.listUSet (fun S => (List.finRange 3).filter (· ∈ S)) (zvCfg true) (fun u => (demoFull F C f g).withFilter fcfg gate R u) fcfg
        (fun _ => m) (fun _ _ => m) 0 [.pose demoMeas, .input (.reset (demoFSt x prev P q) 5), .pose demoMeas] (demoFSt x prev P q, { demoNoFeedback with didAlign := true }) =
          some (r, u) ∧ u.IrIW = 0 := by
  refine ⟨_, _, rfl, ?_⟩
  exact (C44_life AddArgs.listUSet (fun S => (List.finRange 3).filter (· ∈ S)) (zvCfg true) (fun u => (demoFull F C f g).withFilter fcfg gate R u) fcfg (fun _ => m) (fun _ _ => m) 0
    [.pose demoMeas, .input (.reset (demoFSt x prev P q) 5), .pose demoMeas] (demoFSt x prev P q) _ { demoNoFeedback with didAlign := true } _ (.inl rfl) rfl).2.1

/-- The first pose of a filter with three features, then a reset and another pose. -/
example (F : Full 3 2 1) (C : Fin 2 → Camera) (f : V3 → Nor) (g : V2 → Nor) (fcfg : FCfg 3 2 1) (hn : fcfg.NoiseOk) (hv : StrictPos fcfg.velR) (hz : StrictPos fcfg.zeroR) (gate : Gate 2)
    (R : Matrix (Fin 2) (Fin 2) ℝ) (x : State 3 2 1) (hx : UnitState x) (prev : Fin 2 → List Level) (q : MLP) (m : Mem) :
    ∃ r u, lifePose AddArgs.listUSet (fun S => (List.finRange 3).filter (· ∈ S)) (zvCfg true) (fun u => (demoFull F C f g).withFilter fcfg gate R u) fcfg
        (fun _ => m) (fun _ _ => m) 0 [.pose demoMeas, .input (.reset (demoFSt x prev 1 q) 5), .pose ⟨0, Quat.one, 1⟩]
        ({ demoFSt x prev 1 q with fsm := ⟨fun i => ⟨true, i.val, demoSpot, q⟩, 3⟩ }, demoNoFeedback) = some (r, u) ∧ u.didAlign = true := by
  set s : FSt 3 2 1 := { demoFSt x prev 1 q with fsm := ⟨fun i => ⟨true, i.val, demoSpot, q⟩, 3⟩ } with hsdef
  have hs : Sound s := ⟨hx.att, hx.vea, hx.aux, hx.poa, fun i => ⟨demoSpot, rfl, by simp [demoSpot, Quat.IsUnit, Quat.one, Quat.normSq]⟩, fun i h => by simp [hsdef, demoSpot] at h,
      fun i _ => by simp only [hsdef]; exact_mod_cast i.isLt⟩
  have hm : demoMeas.att.IsUnit := by norm_num [demoMeas, Quat.IsUnit, Quat.normSq]
  obtain ⟨z, h, -⟩ := Rovio.FSt.step_live hn (cfg := fcfg) hv hz (e := .pose demoMeas) (x := ⟨here s, 1, demoNoFeedback⟩)
    ⟨hm, isCov_one, strictPos_one⟩ ⟨⟨hs.unit, hs.ready.nor, fun i _ cam hc => by
      rw [show ((here s).fea i).c.cam = some demoEye from known_cam _] at hc
      cases hc; rfl⟩, hs.ready, isCov_one, Quat.isUnit_one⟩
  have hok : Rovio.FSt.pose fcfg demoMeas ⟨here s, s.cov, demoNoFeedback⟩ ≠ none := fun h' => by
    rw [show Rovio.FSt.pose fcfg demoMeas ⟨here s, s.cov, demoNoFeedback⟩ = some z from h] at h'
    cases h'
  exact ⟨_, _, rfl, (C44_life_aligned AddArgs.listUSet (fun S => (List.finRange 3).filter (· ∈ S)) (zvCfg true) (fun u => (demoFull F C f g).withFilter fcfg gate R u) fcfg (fun _ => m)
    (fun _ _ => m) 0 [] [.input (.reset (demoFSt x prev 1 q) 5), .pose ⟨0, Quat.one, 1⟩] (by simp) s s _ demoNoFeedback demoNoFeedback _
    ⟨rfl, rfl, fun k _ h => by simp [demoNoFeedback] at h, Quat.isUnit_one⟩ demoMeas hm rfl hx.att hx.poa hok rfl).1⟩

/-- A filter at rest with three features in use, its frames not yet aligned: IMU, a pose, velocity, image, IMU, the same pose. -/
example (F : Full 3 2 1) (fcfg : FCfg 3 2 1) (hlog : fcfg.log Quat.one = 0) (gate : Gate 2) (R : Matrix (Fin 2) (Fin 2) ℝ)
    (x : State 3 2 1) (hx : UnitState x) (prev : Fin 2 → List Level) (P : Cov 3 2 1) (m : Mem) (q : MLP) :
    ∃ fuel r, lifePose AddArgs.listUSet (fun S => (List.finRange 3).filter (· ∈ S)) (zvCfg true)
        (fun u => Full.withFilter { demoEyes F with reduce := fun _ => some (M2.one, 0) } fcfg gate R u) fcfg (fun _ => m) (fun _ _ => m) fuel
        [.input (.imu ⟨x.acb + x.att.inv.rotate ⟨0, 0, 9.81⟩, x.gyb⟩ 0.1), .pose demoMeas,
          .input (.velocity 0), .input (.image 6), .input (.imu ⟨x.acb + x.att.inv.rotate ⟨0, 0, 9.81⟩, x.gyb⟩ 0.2),
          .pose demoMeas]
        ({ demoFSt { x with vel := 0 } prev P q with fsm := ⟨fun i => ⟨true, i.val, demoSpot, q⟩, 3⟩ }, demoNoFeedback) = some r ∧
      r.1.w.x.pos = x.pos ∧ r.1.w.x.att = x.att ∧ r.1.w.x.vel = 0 := by
  set s : FSt 3 2 1 := { demoFSt { x with vel := 0 } prev P q with fsm := ⟨fun i => ⟨true, i.val, demoSpot, q⟩, 3⟩ } with hsdef
  set F' : Full 3 2 1 := { demoEyes F with reduce := fun _ => some (M2.one, 0) } with hF'
  have hsane : ∀ s c, (F'.detect m s c).Sane := fun s c => ⟨by simp [Full.detect, F', demoEyes], by simp [Full.detect, F', demoEyes], by simp [Full.detect, F', demoEyes],
    by simp [Full.detect, F', demoEyes]; norm_num, by simp [Full.detect, F', demoEyes]; norm_num⟩
  set M : ImuMeas := ⟨x.acb + x.att.inv.rotate ⟨0, 0, 9.81⟩, x.gyb⟩ with hM'
  have h2 : ∃ s2, (∀ fuel, lifePose AddArgs.listUSet (fun S => (List.finRange 3).filter (· ∈ S)) (zvCfg true) (fun u => F'.withFilter fcfg gate R u) fcfg (fun _ => m) (fun _ _ => m) fuel
      [.input (.imu M 0.1), .pose demoMeas, .input (.velocity 0)] (s, demoNoFeedback) = some s2) ∧ WellFormed { s2.1 with t := 6 } := by
    refine ⟨_, fun _ => rfl, ⟨fun i _ => ?_, fun i => (demo_wf 3 2 (fun _ => true) (fun _ => 0) (by simp)).2 i⟩⟩
    simp [Img.predict, St.camID, hsdef, demoSpot]
  obtain ⟨s2, h2, hwf⟩ := h2
  obtain ⟨fuel, s3, h3, _⟩ := C35_image_update_total AddArgs.listUSet_lawful (demo_order 3) (zvCfg true)
    ((F'.withFilter fcfg gate R s2.2).env (fun _ => m) (fun _ _ => m)) (by norm_num) hsane
    (by simp only [zvCfg, demoCfg]; norm_num) (by simp only [zvCfg, demoCfg]; norm_num) (by simp only [zvCfg, demoCfg]; norm_num)
    (by simp only [zvCfg, demoCfg]; norm_num) (by simp only [zvCfg, demoCfg]; norm_num) (by norm_num) { s2.1 with t := 6 } hwf
  have h4 : ∃ r, lifePose AddArgs.listUSet (fun S => (List.finRange 3).filter (· ∈ S)) (zvCfg true) (fun u => F'.withFilter fcfg gate R u) fcfg (fun _ => m) (fun _ _ => m) fuel
      [.input (.imu M 0.1), .pose demoMeas, .input (.velocity 0), .input (.image 6), .input (.imu M 0.2), .pose demoMeas] (s, demoNoFeedback) = some r := by
    have e : ([.input (.imu M 0.1), .pose demoMeas, .input (.velocity 0), .input (.image 6), .input (.imu M 0.2), .pose demoMeas] : List (PInput 3 2 1)) =
      [.input (.imu M 0.1), .pose demoMeas, .input (.velocity 0)] ++ [.input (.image 6), .input (.imu M 0.2), .pose demoMeas] := rfl
    rw [e, lifePose, List.foldlM_append]
    have h2' := h2 fuel
    rw [lifePose] at h2'
    rw [h2']
    simp only [List.foldlM_cons, stepPose, Input.happening, step, Option.bind_eq_bind, Option.bind_some]
    rw [h3 fuel le_rfl]
    exact ⟨_, rfl⟩
  obtain ⟨r, h4⟩ := h4
  refine ⟨fuel, r, h4, ?_⟩
  have hacc : x.att.rotate (x.acb + x.att.inv.rotate ⟨0, 0, 9.81⟩ - x.acb) = ⟨0, 0, 9.81⟩ := by
    have e : x.acb + x.att.inv.rotate ⟨0, 0, 9.81⟩ - x.acb = x.att.inv.rotate ⟨0, 0, 9.81⟩ := by ext <;> simp
    rw [e]; exact Quat.rotate_rotate_inv hx.att _
  obtain ⟨-, h5, -⟩ := C110_life_constant_pose AddArgs.listUSet AddArgs.listUSet_lawful (fun S => (List.finRange 3).filter (· ∈ S)) (by simp) (zvCfg true) F' rfl
    (fun c p => ⟨rfl, by simp [F', demoEyes, demoEye, Quat.IsUnit, Quat.one, Quat.normSq]⟩) fcfg hlog gate R (fun _ => m) (fun _ _ => m) (fun s c => hsane s c) fuel demoMeas
    (by norm_num [demoMeas, Quat.IsUnit, Quat.normSq])
    [.input (.imu M 0.1), .pose demoMeas, .input (.velocity 0), .input (.image 6), .input (.imu M 0.2), .pose demoMeas] s demoNoFeedback
    ⟨hx.att, hx.vea, hx.aux, hx.poa, fun i => ⟨demoSpot, rfl, by simp [demoSpot, Quat.IsUnit, Quat.one, Quat.normSq]⟩, fun i h => by simp [hsdef, demoSpot] at h,
      fun i _ => by simp only [hsdef]; exact_mod_cast i.isLt⟩ rfl
    ⟨rfl, rfl, fun k _ h => by simp [demoNoFeedback] at h, Quat.isUnit_one⟩
    (by
      intro e he
      simp only [List.mem_cons, List.not_mem_nil, or_false] at he
      rcases he with rfl | rfl | rfl | rfl | rfl | rfl
      · exact ⟨by norm_num, rfl, hacc⟩
      · rfl
      · rfl
      · trivial
      · exact ⟨by norm_num, rfl, hacc⟩
      · rfl)
    (fun pre t post s1 u1 _ _ s₁ _ i c _ m f _ => ⟨fun h => by simp [F', demoEyes] at h, fun _ y _ r e A v _ hv => by
      simp only [F', Option.some.injEq, Prod.mk.injEq] at hv; exact hv.2.symm⟩) [] _ s demoNoFeedback r.1 r.2 rfl rfl h4
  exact ⟨h5.pos, h5.att, h5.vel⟩

/-- A filter at rest with three features in use, its frames not yet aligned: IMU, a pose, velocity, image, IMU, the same pose; the image with three iterations per feature. -/
example (F : Full 3 2 1) (fcfg : FCfg 3 2 1) (hlog : fcfg.log Quat.one = 0) (gate : Gate 2) (R : Matrix (Fin 2) (Fin 2) ℝ)
    (x : State 3 2 1) (hx : UnitState x) (prev : Fin 2 → List Level) (P : Cov 3 2 1) (m : Mem) (q : MLP) :
    ∃ fuel r, lifePose AddArgs.listUSet (fun S => (List.finRange 3).filter (· ∈ S)) (zvCfg true)
        (fun u => Full.iterated { demoEyes F with reduce := fun _ => some (M2.one, 0) } { toyCfg with maxIter := 3 } fcfg gate R u) fcfg (fun _ => m) (fun _ _ => m) fuel
        [.input (.imu ⟨x.acb + x.att.inv.rotate ⟨0, 0, 9.81⟩, x.gyb⟩ 0.1), .pose demoMeas,
          .input (.velocity 0), .input (.image 6), .input (.imu ⟨x.acb + x.att.inv.rotate ⟨0, 0, 9.81⟩, x.gyb⟩ 0.2),
          .pose demoMeas]
        ({ demoFSt { x with vel := 0 } prev P q with fsm := ⟨fun i => ⟨true, i.val, demoSpot, q⟩, 3⟩ }, demoNoFeedback) = some r ∧
      r.1.w.x.pos = x.pos ∧ r.1.w.x.att = x.att ∧ r.1.w.x.vel = 0 := by
  set s : FSt 3 2 1 := { demoFSt { x with vel := 0 } prev P q with fsm := ⟨fun i => ⟨true, i.val, demoSpot, q⟩, 3⟩ } with hsdef
  set F' : Full 3 2 1 := { demoEyes F with reduce := fun _ => some (M2.one, 0) } with hF'
  have hsane : ∀ s c, (F'.detect m s c).Sane := fun s c => ⟨by simp [Full.detect, F', demoEyes], by simp [Full.detect, F', demoEyes], by simp [Full.detect, F', demoEyes],
    by simp [Full.detect, F', demoEyes]; norm_num, by simp [Full.detect, F', demoEyes]; norm_num⟩
  set M : ImuMeas := ⟨x.acb + x.att.inv.rotate ⟨0, 0, 9.81⟩, x.gyb⟩ with hM'
  have h2 : ∃ s2, (∀ fuel, lifePose AddArgs.listUSet (fun S => (List.finRange 3).filter (· ∈ S)) (zvCfg true) (fun u => F'.iterated { toyCfg with maxIter := 3 } fcfg gate R u) fcfg (fun _ => m) (fun _ _ => m) fuel
      [.input (.imu M 0.1), .pose demoMeas, .input (.velocity 0)] (s, demoNoFeedback) = some s2) ∧ WellFormed { s2.1 with t := 6 } := by
    refine ⟨_, fun _ => rfl, ⟨fun i _ => ?_, fun i => (demo_wf 3 2 (fun _ => true) (fun _ => 0) (by simp)).2 i⟩⟩
    simp [Img.predict, St.camID, hsdef, demoSpot]
  obtain ⟨s2, h2, hwf⟩ := h2
  obtain ⟨fuel, s3, h3, _⟩ := C35_image_update_total AddArgs.listUSet_lawful (demo_order 3) (zvCfg true)
    ((F'.iterated { toyCfg with maxIter := 3 } fcfg gate R s2.2).env (fun _ => m) (fun _ _ => m)) (by norm_num) hsane
    (by simp only [zvCfg, demoCfg]; norm_num) (by simp only [zvCfg, demoCfg]; norm_num) (by simp only [zvCfg, demoCfg]; norm_num)
    (by simp only [zvCfg, demoCfg]; norm_num) (by simp only [zvCfg, demoCfg]; norm_num) (by norm_num) { s2.1 with t := 6 } hwf
  have h4 : ∃ r, lifePose AddArgs.listUSet (fun S => (List.finRange 3).filter (· ∈ S)) (zvCfg true) (fun u => F'.iterated { toyCfg with maxIter := 3 } fcfg gate R u) fcfg (fun _ => m) (fun _ _ => m) fuel
      [.input (.imu M 0.1), .pose demoMeas, .input (.velocity 0), .input (.image 6), .input (.imu M 0.2), .pose demoMeas] (s, demoNoFeedback) = some r := by
    have e : ([.input (.imu M 0.1), .pose demoMeas, .input (.velocity 0), .input (.image 6), .input (.imu M 0.2), .pose demoMeas] : List (PInput 3 2 1)) =
      [.input (.imu M 0.1), .pose demoMeas, .input (.velocity 0)] ++ [.input (.image 6), .input (.imu M 0.2), .pose demoMeas] := rfl
    rw [e, lifePose, List.foldlM_append]
    have h2' := h2 fuel
    rw [lifePose] at h2'
    rw [h2']
    simp only [List.foldlM_cons, stepPose, Input.happening, step, Option.bind_eq_bind, Option.bind_some]
    rw [h3 fuel le_rfl]
    exact ⟨_, rfl⟩
  obtain ⟨r, h4⟩ := h4
  refine ⟨fuel, r, h4, ?_⟩
  have hacc : x.att.rotate (x.acb + x.att.inv.rotate ⟨0, 0, 9.81⟩ - x.acb) = ⟨0, 0, 9.81⟩ := by
    have e : x.acb + x.att.inv.rotate ⟨0, 0, 9.81⟩ - x.acb = x.att.inv.rotate ⟨0, 0, 9.81⟩ := by ext <;> simp
    rw [e]; exact Quat.rotate_rotate_inv hx.att _
  obtain ⟨-, h5, -⟩ := C110_life_constant_pose_iterated AddArgs.listUSet AddArgs.listUSet_lawful (fun S => (List.finRange 3).filter (· ∈ S)) (by simp) (zvCfg true) F' rfl rfl
    (fun c p => ⟨rfl, by simp [F', demoEyes, demoEye, Quat.IsUnit, Quat.one, Quat.normSq]⟩) { toyCfg with maxIter := 3 } ⟨rfl, fun _ => rfl⟩ rfl (by simp [toyCfg]) fcfg hlog gate R (fun _ => m) (fun _ _ => m) (fun s c => hsane s c) fuel demoMeas
    (by norm_num [demoMeas, Quat.IsUnit, Quat.normSq])
    [.input (.imu M 0.1), .pose demoMeas, .input (.velocity 0), .input (.image 6), .input (.imu M 0.2), .pose demoMeas] s demoNoFeedback
    ⟨hx.att, hx.vea, hx.aux, hx.poa, fun i => ⟨demoSpot, rfl, by simp [demoSpot, Quat.IsUnit, Quat.one, Quat.normSq]⟩, fun i h => by simp [hsdef, demoSpot] at h,
      fun i _ => by simp only [hsdef]; exact_mod_cast i.isLt⟩ rfl
    ⟨rfl, rfl, fun k _ h => by simp [demoNoFeedback] at h, Quat.isUnit_one⟩
    (by
      intro e he
      simp only [List.mem_cons, List.not_mem_nil, or_false] at he
      rcases he with rfl | rfl | rfl | rfl | rfl | rfl
      · exact ⟨by norm_num, rfl, hacc⟩
      · rfl
      · rfl
      · trivial
      · exact ⟨by norm_num, rfl, hacc⟩
      · rfl)
    (fun pre t post s1 u1 _ _ s₁ _ i c _ m f _ r e A v _ hv => by
      simp only [F', Option.some.injEq, Prod.mk.injEq] at hv; exact hv.2.symm) [] _ s demoNoFeedback r.1 r.2 rfl rfl h4
  exact ⟨h5.pos, h5.att, h5.vel⟩

end Rovio.ImgFull
