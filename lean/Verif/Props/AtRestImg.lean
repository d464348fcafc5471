import Verif.Spec.AtRestImg
import Verif.Props.AtRest
import Verif.Props.ImgMoves
import Verif.Lemmas.Slots
import Verif.Props.Unmoved

/-! # C110: an image that shows what the estimate predicts leaves the estimate alone -/

namespace Rovio.ImgFull

open Rovio.Spec Rovio.Img Matrix

variable {n nCam nPose : ℕ}

lemma _root_.Rovio.Spec.SameUpToPixel.refl (a : FC) : SameUpToPixel a a := .inl rfl

lemma _root_.Rovio.Spec.SameUpToPixel.trans {a b c : FC} (h : SameUpToPixel a b) (g : SameUpToPixel b c) : SameUpToPixel a c := by
  have hk : known { known a with validC := false, validNor := true } = { known a with validC := false, validNor := true } := known_of_valid rfl
  rcases h with rfl | rfl | rfl
  · exact g
  · rcases g with rfl | rfl | rfl
    · exact .inr (.inl rfl)
    · exact .inr (.inl (known_known _))
    · exact .inr (.inr (by rw [known_known]))
  · rcases g with rfl | rfl | rfl
    · exact .inr (.inr rfl)
    · exact .inr (.inr hk)
    · exact .inr (.inr (by rw [hk]))

lemma _root_.Rovio.Spec.SameUpToPixel.knownNor {a b : FC} (h : SameUpToPixel a b) : (known b).nor = (known a).nor := by
  rcases h with rfl | rfl | rfl
  · rfl
  · rw [known_known]
  · rw [known_of_valid rfl]

lemma _root_.Rovio.Spec.SameUpToPixel.camID {a b : FC} (h : SameUpToPixel a b) : b.camID = a.camID := by
  rcases h with rfl | rfl | rfl
  · rfl
  · exact known_camID _
  · exact known_camID _

lemma knownNor_samePoint {a b : FC} (h : SamePoint a b) : (known b).nor = (known a).nor := by
  obtain ⟨h1, h2, h3, h4, h5, h6⟩ := h
  unfold known FC.comNor
  rw [h1, h2, h4, h6]
  split
  · exact h3
  · split
    · exact h3
    · split
      · rfl
      · exact h3

lemma getNor_isSome {a : FC} : a.getNor.isSome = (a.validNor || a.cam.isSome) := by
  unfold FC.getNor FC.comNor
  split
  · simp_all
  · cases a.cam with
    | none => simp_all
    | some cam => simp only; split <;> simp_all

lemma getNor_known {a r : FC} {nor : Nor} (h : a.getNor = some (r, nor)) : nor = (known a).nor := by
  unfold FC.getNor at h
  simp only [Option.bind_eq_bind, Option.pure_def] at h
  obtain ⟨⟨q, b⟩, hq, h⟩ := Option.bind_eq_some_iff.mp h
  cases h
  unfold known; rw [hq]; rfl

lemma sameBearing_of {a b : FC} (h : (known b).nor = (known a).nor) (h1 : a.validNor = true → b.validNor = true) (h2 : a.cam.isSome = true → b.validNor = true ∨ b.cam.isSome = true) :
    SameBearing a b := by
  intro r nor hr
  have hs : b.getNor.isSome = true := by
    have : (a.validNor || a.cam.isSome) = true := by rw [← getNor_isSome, hr]; rfl
    rw [getNor_isSome]
    rcases Bool.or_eq_true_iff.mp this with h | h
    · simp [h1 h]
    · rcases h2 h with h | h <;> simp [h]
  obtain ⟨⟨r', nor'⟩, hb⟩ := Option.isSome_iff_exists.mp hs
  refine ⟨r', ?_⟩
  rw [hb, getNor_known hb, h, ← getNor_known hr]

lemma _root_.Rovio.Spec.SameBearing.trans {a b c : FC} (h : SameBearing a b) (g : SameBearing b c) : SameBearing a c := fun r nor hr => by
  obtain ⟨r', h'⟩ := h r nor hr
  exact g r' nor h'

lemma known_withCamID (c : FC) : ({ known c with camID := c.camID } : FC) = known c := by
  have h := known_camID c
  cases hk : known c
  rw [hk] at h
  simp only at h
  rw [h]

lemma known_cam (c : FC) : (known c).cam = c.cam := by
  unfold known FC.comNor
  split
  · rfl
  · split
    · rfl
    · split <;> rfl

lemma known_validNor {c : FC} (h : c.validNor = true) : (known c).validNor = true := by rw [known_of_valid h]; exact h

lemma _root_.Rovio.Spec.SameUpToPixel.bearing {a b : FC} (h : SameUpToPixel a b) : SameBearing a b := by
  refine sameBearing_of h.knownNor (fun hv => ?_) (fun hc => ?_)
  · rcases h with rfl | rfl | rfl
    · exact hv
    · exact known_validNor hv
    · rfl
  · rcases h with rfl | rfl | rfl
    · exact .inr hc
    · exact .inr (by rw [known_cam]; exact hc)
    · exact .inl rfl

lemma _root_.Rovio.Spec.SamePoint.bearing {a b : FC} (h : SamePoint a b) : SameBearing a b :=
  sameBearing_of (knownNor_samePoint h) (fun hv => h.validNor.trans hv) (fun hc => .inr (by rw [h.cam]; exact hc))

lemma _root_.Rovio.Spec.Undisturbed.refl (s : FSt n nCam nPose) : Undisturbed s s :=
  ⟨rfl, rfl, rfl, rfl, fun _ h => h, fun _ => rfl, fun _ => rfl, fun _ => .inl rfl, fun _ => rfl⟩

lemma samePlatform_trans {x y z : State n nCam nPose} (h1 : SamePlatformEstimate x y) (h2 : SamePlatformEstimate y z) : SamePlatformEstimate x z := by
  unfold SamePlatformEstimate at *
  rw [h2, h1]

lemma _root_.Rovio.Spec.Undisturbed.change {s₀ s s' : FSt n nCam nPose} (h : Undisturbed s₀ s) (ht : s'.t = s.t) (hw : s'.w = s.w) (hf : s'.fsm = s.fsm) : Undisturbed s₀ s' := by
  refine ⟨ht.trans h.time, by rw [hw]; exact h.previous, by rw [hw]; exact h.platform, by rw [hf]; exact h.maxIdx, fun i hi => h.valid i ?_, fun i => by rw [hf]; exact h.idx i,
    fun i => by rw [hf]; exact h.patch i, fun i => by rw [hf]; exact h.coord i, fun i => by rw [hw]; exact h.dist i⟩
  unfold St.valid at hi ⊢; rwa [hf] at hi

lemma _root_.Rovio.Spec.Undisturbed.unit {s₀ s : FSt n nCam nPose} (h : Undisturbed s₀ s) (hu : UnitState (here s₀)) : UnitState (here s) := by
  have hp := h.platform
  unfold SamePlatformEstimate at hp
  have e : here s = { here s₀ with fea := (here s).fea } := by unfold here; rw [hp]
  rw [e]
  refine ⟨hu.att, hu.vea, hu.aux, hu.poa, fun i => ?_⟩
  show (known (s.fsm.slots i).coord).nor.q.IsUnit
  rw [(h.coord i).knownNor]
  exact hu.nor i

/-- The image processing with any filter update in place of LWF's (include/rovio/ImgUpdate.hpp:645-1082). -/
noncomputable abbrev Full.withLwf (F : Full n nCam nPose) (L : Callbacks n nCam nPose → State n nCam nPose → Cov n nCam nPose → Scr → State n nCam nPose × Cov n nCam nPose × M2 × Bool)
    (cfg : FCfg n nCam nPose) (u : PoseUpd nPose) : Full n nCam nPose := { F with lwf := L, zvu := zeroUpdate cfg u }

section

variable {F : Full n nCam nPose} {L : Callbacks n nCam nPose → State n nCam nPose → Cov n nCam nPose → Scr → State n nCam nPose × Cov n nCam nPose × M2 × Bool}
  {fcfg : FCfg n nCam nPose} {gate : Gate 2} {R : Matrix (Fin 2) (Fin 2) ℝ} {u : PoseUpd nPose}
  {mem : FSt n nCam nPose → Mem} {mem' : ℝ → Slot MLP → Mem} {cfg : Cfg}

lemma _root_.Rovio.Spec.Undisturbed.remove {s₀ s : FSt n nCam nPose} (h : Undisturbed s₀ s) (i : Fin n) : Undisturbed s₀ (s.remove ((F.withLwf L fcfg u).env mem mem') i) := by
  have hs : ∀ j, ((s.fsm.removeFeature i).slots j).idx = (s.fsm.slots j).idx ∧ ((s.fsm.removeFeature i).slots j).patch = (s.fsm.slots j).patch ∧
      ((s.fsm.removeFeature i).slots j).coord = (s.fsm.slots j).coord ∧ (((s.fsm.removeFeature i).slots j).valid = true → (s.fsm.slots j).valid = true) := fun j => by
    unfold FeatSet.removeFeature
    by_cases hj : j = i
    · subst hj; simp
    · simp [Function.update_of_ne hj]
  exact ⟨h.time, h.previous, h.platform, h.maxIdx, fun j hj => h.valid j ((hs j).2.2.2 hj), fun j => (hs j).1.trans (h.idx j), fun j => (hs j).2.1.trans (h.patch j),
    fun j => by show SameUpToPixel _ ((s.fsm.removeFeature i).slots j).coord; rw [(hs j).2.2.1]; exact h.coord j, h.dist⟩

lemma _root_.Rovio.Spec.Undisturbed.removeNegative {s₀ s : FSt n nCam nPose} (h : Undisturbed s₀ s) : Undisturbed s₀ (Img.removeNegative cfg ((F.withLwf L fcfg u).env mem mem') s) := by
  unfold Img.removeNegative
  split
  · refine foldl_keep (fun s i h => ?_) _ _ h
    split
    · split
      · exact h.remove i
      · exact h
    · exact h
  · exact h

lemma advance_all (s : FSt n nCam nPose) : (advance cfg s).t = s.t ∧ (advance cfg s).w = s.w ∧ (advance cfg s).fsm = s.fsm := by
  unfold advance; split <;> exact ⟨rfl, rfl, rfl⟩

lemma enter_all (s : FSt n nCam nPose) (i : Fin n) : (s.enter i).t = s.t ∧ (s.enter i).w = s.w ∧ (s.enter i).fsm = s.fsm ∧ (s.enter i).id = s.id ∧ (s.enter i).cam = s.cam := by
  unfold St.enter; split <;> exact ⟨rfl, rfl, rfl, rfl, rfl⟩

lemma _root_.Rovio.Spec.Undisturbed.advance {s₀ s : FSt n nCam nPose} (h : Undisturbed s₀ s) : Undisturbed s₀ (Img.advance cfg s) :=
  h.change (advance_all s).1 (advance_all s).2.1 (advance_all s).2.2

lemma _root_.Rovio.Spec.Undisturbed.postVisit {s₀ s : FSt n nCam nPose} (h : Undisturbed s₀ s) (ok : Bool) (i : Fin n) (c : Fin nCam) :
    Undisturbed s₀ (Img.postVisit cfg ((F.withLwf L fcfg u).env mem mem') s ok i c) := by
  unfold Img.postVisit
  dsimp only
  refine Undisturbed.advance ?_
  have h1 := h.removeNegative (cfg := cfg) (F := F) (fcfg := fcfg) (L := L) (u := u) (mem := mem) (mem' := mem')
  split
  · exact h1.change rfl rfl rfl
  · exact h1.change rfl rfl rfl

/-- What the search found agrees with the estimate. -/
def Agreed (F : Full n nCam nPose) (cfg : Cfg) (s : FSt n nCam nPose) (i : Fin n) (c : Fin nCam) : Prop :=
  cfg.direct = false → ∃ x, s.meas i = some x ∧ ∀ f, PredictedIn F s i c f → ∀ r q r' q', x.getC = some (r, q) → f.getC = some (r', q') → q = q'

lemma _root_.Rovio.Spec.Undisturbed.scan {s₀ : FSt n nCam nPose} (hd : F.base.direct = cfg.direct) (ha : ImageAgrees F s₀) :
    ∀ (fuel : ℕ) (s s' : FSt n nCam nPose) (b : Bool), Img.scan cfg ((F.withLwf L fcfg u).env mem mem') fuel s = some (s', b) → Undisturbed s₀ s →
      Undisturbed s₀ s' ∧ (b = true → ∀ (hid : s'.id < n) (c : Fin nCam), Img.activeCam nCam s'.cam (s'.camID ⟨s'.id, hid⟩) = some c →
        s'.valid ⟨s'.id, hid⟩ = true ∧ Agreed F cfg s' ⟨s'.id, hid⟩ c) := by
  intro fuel
  induction fuel with
  | zero => intro s s' b h; cases h
  | succ fuel ih =>
    intro s s' b h hs
    rw [Img.scan] at h
    split at h
    · rename_i hid
      split at h
      · rename_i hv
        split at h
        · cases h
        · rename_i c hc
          obtain ⟨e1, e2, e3, e4, e5⟩ := enter_all s ⟨s.id, hid⟩
          have hse : Undisturbed s₀ (s.enter ⟨s.id, hid⟩) := hs.change e1 e2 e3
          have hve : (s.enter ⟨s.id, hid⟩).valid ⟨s.id, hid⟩ = true := by unfold St.valid at hv ⊢; rwa [e3]
          split at h
          · rename_i s1 hp
            cases h
            unfold probe at hp
            split at hp
            · cases hp
            · split at hp
              · rename_i hdir
                cases hp
                refine ⟨hse, fun _ hid' c' hc' => ⟨?_, fun hf => absurd hdir (by rw [hf]; simp)⟩⟩
                unfold St.valid; simp only [e3, e4]; exact hv
              · rename_i hdir
                split at hp
                · rename_i x hx
                  split at hp
                  · split at hp
                    · cases hp
                    · cases hp
                      refine ⟨hse.change rfl rfl rfl, fun _ hid' c' hc' => ⟨?_, fun hf => ⟨x, ?_, ?_⟩⟩⟩
                      · unfold St.valid; simp only [e3, e4]; exact hv
                      · simp only [e4, Function.update_self]
                      · intro f hf' r q r' q' hq hq'
                        have hcc : c' = c := by
                          have : Img.activeCam nCam s.cam (s.camID ⟨s.id, hid⟩) = some c' := by
                            unfold St.camID at hc' ⊢; simp only [e3, e4, e5] at hc'; exact hc'
                          rw [hc] at this; exact (Option.some.inj this).symm
                        subst hcc
                        have hal : F.align (mem (s.enter ⟨s.id, hid⟩)) (s.enter ⟨s.id, hid⟩) ⟨s.id, hid⟩ c' = some (some x) := by
                          have : ((F.align (mem (s.enter ⟨s.id, hid⟩)) (s.enter ⟨s.id, hid⟩) ⟨s.id, hid⟩ c')).getD none = some x := hx
                          cases h : F.align (mem (s.enter ⟨s.id, hid⟩)) (s.enter ⟨s.id, hid⟩) ⟨s.id, hid⟩ c' with
                          | none => rw [h] at this; cases this
                          | some o => rw [h] at this; simp only [Option.getD_some] at this; rw [this]
                        refine (ha _ hse ⟨s.id, hid⟩ c' hve (mem (s.enter ⟨s.id, hid⟩)) f ?_).1 (by rw [hd]; simpa using hdir) x r q r' q' hal hq hq'
                        obtain ⟨out, g, h1, h2⟩ := hf'
                        simp only [e4] at h1
                        exact ⟨out, g, h1, h2⟩
                  · cases hp
                · cases hp
          · rename_i st hp
            exact ih _ _ _ h (Undisturbed.advance (hse.change rfl rfl rfl))
      · exact ih _ _ _ h hs.advance
    · cases h; exact ⟨hs, fun h => by cases h⟩

/-- The innovation of such a match. -/
lemma innov_agreed {s : FSt n nCam nPose} {i : Fin n} {c : Fin nCam} (hd : F.base.direct = cfg.direct) (hs : ShownAsPredicted F s i c) (ha : Agreed F cfg s i c)
    (hc : Img.activeCam nCam s.cam (s.camID i) = some c) {m : Mem} {r r1 : Scr} {v : V2} {stop : Bool}
    (h : F.innov m (F.imgs s.t) (s.fsm.slots i).patch (s.meas i) i s.cam (here s) 0 r = some (v, stop, r1)) (hst : stop = false) {y : FC} (ht : F.tested m s i c = some (y, true)) : v = 0 := by
  unfold Full.innov at h
  simp only [Option.bind_eq_bind, Option.pure_def] at h
  obtain ⟨⟨b, f⟩, hf, h⟩ := Option.bind_eq_some_iff.mp h
  unfold State.imgFeature at hf
  simp only [Option.bind_eq_bind, Option.pure_def] at hf
  obtain ⟨a, ha', hf⟩ := Option.bind_eq_some_iff.mp hf
  obtain ⟨f', hf', hf⟩ := Option.bind_eq_some_iff.mp hf
  simp only [Option.some.injEq, Prod.mk.injEq] at hf
  obtain ⟨rfl, rfl⟩ := hf
  have hac : Rovio.activeCam s.cam a = c := activeCam_same ((congrArg (camIdx nCam) (known_camID _)).symm.trans ha') hc
  rw [hac] at hf'
  have hp : PredictedIn F s i c f'.c := ⟨_, _, hf', rfl⟩
  have hz : ∀ v : V2, v + 0 = v := fun v => by ext <;> simp
  split at h
  · rename_i hdir
    obtain ⟨⟨r2, e⟩, he, h⟩ := Option.bind_eq_some_iff.mp h
    dsimp only at h he
    rw [hac] at he
    cases hr : F.reduce e with
    | none => rw [hr] at h; cases h; cases hst
    | some Av =>
      obtain ⟨A, w⟩ := Av
      rw [hr] at h
      cases h
      rw [hz]
      exact (hs m _ hp).2 hdir y ht _ _ _ _ he hr
  · rename_i hdir
    obtain ⟨z, hz', h⟩ := Option.bind_eq_some_iff.mp h
    obtain ⟨⟨z1, q⟩, hq, h⟩ := Option.bind_eq_some_iff.mp h
    obtain ⟨⟨z2, q'⟩, hq', h⟩ := Option.bind_eq_some_iff.mp h
    obtain ⟨x, hx, hx'⟩ := ha (by rw [← hd]; simpa using hdir)
    rw [hx] at hz'
    cases hz'
    have := hx' _ hp _ _ _ _ hq hq'
    cases h
    subst this
    rw [hz]
    ext <;> simp

/-- A filter update with a match that agrees with the estimate. -/
lemma ekf_agreed {K : Callbacks n nCam nPose} {x : State n nCam nPose} {P : Cov n nCam nPose} {r : Scr} (hu : UnitState x)
    (hy : ∀ v r1, K.innov x 0 r = some (v, false, r1) → v = 0) :
    (ekf gate R u K x P r).1 = x ∨ (ekf gate R u K x P r).1 = x.fixed := by
  unfold ekf
  simp only [Option.bind_eq_bind, Option.pure_def]
  cases hi : K.innov x 0 r with
  | none => exact .inl rfl
  | some a =>
    obtain ⟨v, stop, r1⟩ := a
    simp only [Option.bind_some]
    cases hJ : K.jac x r1 with
    | none => exact .inl rfl
    | some a =>
      obtain ⟨J, stop', r2⟩ := a
      simp only [Option.bind_some]
      cases hH : colMat fun b => (J (DState.unit b)).map V2.at with
      | none => exact .inl rfl
      | some H =>
        simp only [Option.bind_some]
        cases hz : Rovio.FSt.finish ⟨x, P, u⟩ gate v.at H R id with
        | none => exact .inl rfl
        | some z =>
          simp only [Option.bind_some]
          cases K.check z.s true r2 with
          | none => exact .inl rfl
          | some q =>
            obtain ⟨ok, r3⟩ := q
            simp only [Option.bind_some, Option.getD_some]
            by_cases hc : (ok && !stop && !stop') = true
            · simp only [if_pos hc]
              have hs : stop = false := by cases stop <;> simp_all
              subst hs
              right
              have hv := hy v r1 hi
              subst hv
              have := Rovio.FSt.finish_nothing (x := ⟨x, P, u⟩) (post := id) (a := x.aux) hu (by ext k; fin_cases k <;> simp [V2.at]) (fun _ => rfl) rfl hz
              exact this
            · simp only [if_neg hc]
              exact .inl trivial

lemma here_fixed_scene {s₀ s s' : FSt n nCam nPose} (h : Undisturbed s₀ s) {x : State n nCam nPose} (hx : x = here s ∨ x = (here s).fixed) (ht : s'.t = s.t) (hw : s'.w.x = x)
    (hp : s'.w.prev = s.w.prev) (hf : s'.fsm = { s.fsm with slots := fun j => { s.fsm.slots j with coord := { (x.fea j).c with camID := (s.fsm.slots j).coord.camID } } }) :
    Undisturbed s₀ s' := by
  have hpl : SamePlatformEstimate s.w.x s'.w.x := by rw [hw]; rcases hx with rfl | rfl <;> rfl
  have hc : ∀ j, SameUpToPixel (s.fsm.slots j).coord { (x.fea j).c with camID := (s.fsm.slots j).coord.camID } := fun j => by
    rcases hx with rfl | rfl
    · exact .inr (.inl (known_withCamID (s.fsm.slots j).coord))
    · exact .inr (.inr (by simp [State.fixed, Fea.fixed, FC.setNor, here, known_camID]))
  refine ⟨ht.trans h.time, hp.trans h.previous, samePlatform_trans h.platform hpl, ?_, fun i hi => h.valid i ?_, fun i => ?_, fun i => ?_, fun i => ?_, fun i => ?_⟩
  · rw [hf]; exact h.maxIdx
  · unfold St.valid at hi ⊢; rw [hf] at hi; exact hi
  · rw [hf]; exact h.idx i
  · rw [hf]; exact h.patch i
  · rw [hf]; exact SameUpToPixel.trans (h.coord i) (hc i)
  · rw [hw, ← h.dist i]; rcases hx with rfl | rfl <;> rfl

lemma _root_.Rovio.Spec.Undisturbed.update {s₀ s : FSt n nCam nPose} (h : Undisturbed s₀ s) {i : Fin n} {c : Fin nCam}
    (hL : ∀ f, F.tested (mem s) s i c = some (f, true) →
      (L (F.callbacks (mem s) (F.imgs s.t) (s.fsm.slots i).patch (s.meas i) i s.cam) (here s) s.cov (F.started s i c f, s.w.cJ)).1 = here s ∨
      (L (F.callbacks (mem s) (F.imgs s.t) (s.fsm.slots i).patch (s.meas i) i s.cam) (here s) s.cov (F.started s i c f, s.w.cJ)).1 = (here s).fixed) :
    Undisturbed s₀ (applyUpdate ((F.withLwf L fcfg u).env mem mem') s i c).1 := by
  unfold applyUpdate
  dsimp only
  rw [show ((F.withLwf L fcfg u).env mem mem').update s i c = (F.withLwf L fcfg u).update (mem s) s i c from rfl]
  unfold Full.update
  split
  · rename_i f hf
    exact here_fixed_scene h (hL f hf) rfl rfl rfl rfl
  · exact h.change rfl rfl rfl

/-- A filter update that leaves an estimate alone with which the image agrees. -/
def Leaves (F : Full n nCam nPose) (L : Callbacks n nCam nPose → State n nCam nPose → Cov n nCam nPose → Scr → State n nCam nPose × Cov n nCam nPose × M2 × Bool)
    (cfg : Cfg) (s₀ : FSt n nCam nPose) : Prop :=
  ∀ (s : FSt n nCam nPose) (i : Fin n) (c : Fin nCam) (m : Mem) (f : FC), Undisturbed s₀ s → s.valid i = true → Agreed F cfg s i c → Img.activeCam nCam s.cam (s.camID i) = some c →
    F.tested m s i c = some (f, true) →
      (L (F.callbacks m (F.imgs s.t) (s.fsm.slots i).patch (s.meas i) i s.cam) (here s) s.cov (F.started s i c f, s.w.cJ)).1 = here s ∨
      (L (F.callbacks m (F.imgs s.t) (s.fsm.slots i).patch (s.meas i) i s.cam) (here s) s.cov (F.started s i c f, s.w.cJ)).1 = (here s).fixed

lemma leaves_ekf {s₀ : FSt n nCam nPose} (hu : UnitState (here s₀)) (hd : F.base.direct = cfg.direct) (ha : ImageAgrees F s₀) : Leaves F (ekf gate R u) cfg s₀ :=
  fun s i c m f h hv hag hc hf => ekf_agreed (gate := gate) (R := R) (u := u) (P := s.cov) (r := (F.started s i c f, s.w.cJ))
    (K := F.callbacks m (F.imgs s.t) (s.fsm.slots i).patch (s.meas i) i s.cam) (h.unit hu)
    (fun _ _ hv' => innov_agreed (F := F) hd (ha _ h _ _ hv) hag hc (m := m) hv' rfl hf)

lemma _root_.Rovio.Spec.Undisturbed.loop {s₀ : FSt n nCam nPose} (hL : Leaves F L cfg s₀) (hd : F.base.direct = cfg.direct) (ha : ImageAgrees F s₀) :
    ∀ (fuel : ℕ) (s s' : FSt n nCam nPose), Img.loop cfg ((F.withLwf L fcfg u).env mem mem') fuel s = some s' → Undisturbed s₀ s → Undisturbed s₀ s' := by
  intro fuel
  induction fuel with
  | zero => intro s s' h; cases h
  | succ fuel ih =>
    intro s s' h hs
    rw [Img.loop] at h
    split at h
    · cases h
    · rename_i s1 hsc
      cases h
      exact (Undisturbed.scan hd ha _ _ _ _ hsc hs).1
    · rename_i s1 hsc
      obtain ⟨h1, h2⟩ := Undisturbed.scan hd ha _ _ _ _ hsc hs
      split at h
      · rename_i hid
        split at h
        · cases h
        · rename_i c hc
          obtain ⟨hv, hag⟩ := h2 rfl hid c hc
          exact ih _ _ h (Undisturbed.postVisit (h1.update (fun f hf => hL _ _ _ _ f h1 hv hag hc hf)) _ _ _)
      · cases h

end

/-- A correction with innovation zero, whatever the other features are. -/
lemma finish_nothing_part {k : ℕ} {x x' : Rovio.FSt n nCam nPose} {gate : Gate k} {y : Fin k → ℝ} {H : Matrix (Fin k) (Ix n nCam nPose) ℝ} {R : Matrix (Fin k) (Fin k) ℝ}
    (h1 : x.s.att.IsUnit) (h2 : ∀ c, (x.s.vea c).IsUnit) (h3 : ∀ j, (x.s.poa j).IsUnit) (hy : y = 0) (hf : x.finish gate y H R id = some x') :
    SamePlatformEstimate x.s x'.s ∧ ∀ i, (x.s.fea i).c.nor.q.IsUnit → x'.s.fea i = (x.s.fea i).fixed := by
  unfold Rovio.FSt.finish at hf
  cases hc : correct gate y H R x.P with
  | none => simp [hc] at hf
  | some r =>
    obtain ⟨-, h, -⟩ := correct_some hc
    rw [hy, mulVec_zero, neg_zero] at h
    simp only [hc, Option.bind_eq_bind, Option.bind_some, Option.pure_def, h, boxPlus_nothing, id] at hf
    obtain ⟨z, hz, hf⟩ := Option.bind_eq_some_iff.mp hf
    cases hf
    unfold State.fix at hz
    simp only [Option.bind_eq_bind, Option.pure_def] at hz
    obtain ⟨fea, hfea, hz⟩ := Option.bind_eq_some_iff.mp hz
    cases hz
    refine ⟨?_, fun i hi => ?_⟩
    · unfold SamePlatformEstimate State.fixed
      simp only [Quat.fix_unit h1, Quat.fix_unit (h2 _), Quat.fix_unit (h3 _)]
    · have := optAll_get hfea i
      rw [Fea.fix_of_unit (by simp [State.fixed, Fea.fixed, FC.setNor]) (by simpa [State.fixed, Fea.fixed, FC.setNor] using hi)] at this
      show fea i = _
      rw [← Option.some.inj this]
      simp [State.fixed, Fea.fixed, FC.setNor]

lemma post_kept_lwf {F : Full n nCam nPose} {L : Callbacks n nCam nPose → State n nCam nPose → Cov n nCam nPose → Scr → State n nCam nPose × Cov n nCam nPose × M2 × Bool}
    {fcfg : FCfg n nCam nPose} {u : PoseUpd nPose} {mem : FSt n nCam nPose → Mem} {mem' : ℝ → Slot MLP → Mem} {I : USet} (hI : I.Lawful)
    {order : Finset (Fin n) → List (Fin n)} (ho : ∀ S, ∀ i ∈ order S, i ∈ S) (hF : ∀ s c, (F.detect (mem s) s c).Sane) {s₀ : FSt n nCam nPose}
    (h₀ : ∀ i, s₀.valid i = true → (s₀.fsm.slots i).idx < s₀.fsm.maxIdx) (l : List (Visit n nCam)) :
    Post I order ((F.withLwf L fcfg u).env mem mem') fun s => Kept s₀ s ∧ s.log = l := by
  have h := post_kept (F := F) (fcfg := fcfg) (gate := fun _ _ _ => false) (R := 0) (u := u) (mem := mem) (mem' := mem') hI ho hF h₀ l
  exact ⟨h.remove, h.install, h.detect⟩

lemma image_leaves (I : USet) (hI : I.Lawful) (order : Finset (Fin n) → List (Fin n)) (ho : ∀ S, ∀ i ∈ order S, i ∈ S) (cfg : Cfg) (F : Full n nCam nPose)
    (hd : F.base.direct = cfg.direct) (L : Callbacks n nCam nPose → State n nCam nPose → Cov n nCam nPose → Scr → State n nCam nPose × Cov n nCam nPose × M2 × Bool)
    (fcfg : FCfg n nCam nPose) (u : PoseUpd nPose) (mem : FSt n nCam nPose → Mem)
    (mem' : ℝ → Slot MLP → Mem) (hF : ∀ s c, (F.detect (mem s) s c).Sane) (fuel : ℕ) (s s' : FSt n nCam nPose)
    (hid : ∀ i, s.valid i = true → (s.fsm.slots i).idx < s.fsm.maxIdx) (hu : UnitState (here s)) (ha : ImageAgrees F s) (hL : Leaves F L cfg s)
    (h : imageUpdate I order cfg ((F.withLwf L fcfg u).env mem mem') fuel s = some s') (hz : ZeroVelocityDue cfg s' → s.w.x.vel = 0) :
    SamePlatformEstimate s.w.x s'.w.x ∧
      ∀ i, Survives s s' i → SameBearing (s.fsm.slots i).coord (s'.fsm.slots i).coord ∧ s'.camID i = s.camID i ∧ (s'.w.x.fea i).d = (s.w.x.fea i).d := by
  unfold imageUpdate at h
  simp only [Option.bind_eq_bind] at h
  obtain ⟨s1, h1, h⟩ := Option.bind_eq_some_iff.mp h
  obtain ⟨c1, c2, c3, c4⟩ := commonPre_same (cfg := cfg) (env := (F.withLwf L fcfg u).env mem mem') { s with log := [] }
  have ct : (commonPre cfg ((F.withLwf L fcfg u).env mem mem') { s with log := [] }).t = s.t := by
    unfold commonPre; dsimp only; split
    · split <;> rfl
    · rfl
  have hk : Undisturbed s s1 := Undisturbed.loop hL hd ha _ _ _ h1 ((Undisturbed.refl s).change ct c1 c4)
  -- the end of the update loop with the features it has removed
  let s₀ : FSt n nCam nPose := { s1 with fsm := { s1.fsm with slots := fun i => { s1.fsm.slots i with valid := s.valid i } } }
  have hid1 : ∀ i, s₀.valid i = true → (s₀.fsm.slots i).idx < s₀.fsm.maxIdx := fun i hi => by
    show (s1.fsm.slots i).idx < s1.fsm.maxIdx
    rw [hk.idx, hk.maxIdx]; exact hid i hi
  have hk0 : Kept s₀ s1 := ⟨rfl, le_rfl, fun _ _ => ⟨rfl, rfl, rfl, rfl, rfl, rfl⟩, fun _ _ => rfl, fun _ _ _ _ => rfl⟩
  obtain ⟨s2, ⟨h2, h3⟩, rfl⟩ := (post_kept_lwf (F := F) (fcfg := fcfg) (L := L) (u := u) (mem := mem) (mem' := mem') hI ho hF (s₀ := s₀) hid1 s1.log).common h ⟨hk0, rfl⟩
  obtain ⟨t1, t2, t3⟩ := zeroVelocity_timers cfg ((F.withLwf L fcfg u).env mem mem') { s2 with w := ((F.withLwf L fcfg u).env mem mem').finish s2.t s2.w }
  have hz' : ZeroVelocityDue cfg { s2 with w := ((F.withLwf L fcfg u).env mem mem').finish s2.t s2.w } → s.w.x.vel = 0 := by
    unfold ZeroVelocityDue at hz ⊢; rw [t1, t2] at hz; exact hz
  -- before the zero-velocity update
  have hpl : SamePlatformEstimate s.w.x s2.w.x := samePlatform_trans hk.platform h2.platform
  have hkn : ∀ i, Survives s s2 i → (known (s2.fsm.slots i).coord).nor = (known (s.fsm.slots i).coord).nor := fun i hi =>
    (knownNor_samePoint (h2.point i ⟨hi.1, hi.2.1, by rw [hi.2.2]; exact (hk.idx i).symm⟩)).trans (hk.coord i).knownNor
  have hfe : ∀ i, Survives s s2 i → SameBearing (s.fsm.slots i).coord (s2.fsm.slots i).coord ∧ s2.camID i = s.camID i ∧ (s2.w.x.fea i).d = (s.w.x.fea i).d := fun i hi => by
    have hsv : Survives s₀ s2 i := ⟨hi.1, hi.2.1, by rw [hi.2.2]; exact (hk.idx i).symm⟩
    exact ⟨(hk.coord i).bearing.trans (h2.point i hsv).bearing, (h2.point i hsv).camID.trans (hk.coord i).camID, (h2.dist i hsv).trans (hk.dist i)⟩
  by_cases hdue : ZeroVelocityDue cfg { s2 with w := ((F.withLwf L fcfg u).env mem mem').finish s2.t s2.w }
  · have hvel : (here s2).vel = 0 := by
      have e : s2.w.x.vel = s.w.x.vel := by unfold SamePlatformEstimate at hpl; rw [hpl]
      exact e.trans (hz' hdue)
    have e0 : here s2 = { here s with fea := (here s2).fea } := by unfold here; rw [show s2.w.x = _ from hpl]
    have hzu : SamePlatformEstimate (here s2) (zeroUpdate fcfg u (here s2) s2.cov).1 ∧ ∀ i, ((here s2).fea i).c.nor.q.IsUnit →
        ((zeroUpdate fcfg u (here s2) s2.cov).1.fea i = (here s2).fea i ∨ (zeroUpdate fcfg u (here s2) s2.cov).1.fea i = ((here s2).fea i).fixed) := by
      unfold zeroUpdate keepOr
      cases hq : Rovio.FSt.zeroVel fcfg (fun _ => true) ⟨here s2, s2.cov, u⟩ with
      | none => exact ⟨rfl, fun _ _ => .inl rfl⟩
      | some z =>
        unfold Rovio.FSt.zeroVel at hq
        rw [if_pos rfl] at hq
        have hin : (zeroVelInnov (here s2) 0).at = 0 := by
          unfold zeroVelInnov
          rw [hvel]
          funext k
          fin_cases k <;> simp [V3.at]
        obtain ⟨g1, g2⟩ := finish_nothing_part (x := ⟨here s2, s2.cov, u⟩) (by rw [e0]; exact hu.att) (by rw [e0]; exact hu.vea) (by rw [e0]; exact hu.poa) hin hq
        exact ⟨g1, fun i hi => .inr (g2 i hi)⟩
    have hzv : zeroVelocity cfg ((F.withLwf L fcfg u).env mem mem') { s2 with w := ((F.withLwf L fcfg u).env mem mem').finish s2.t s2.w } =
        { s2 with
          w := { s2.w with prev := F.imgs s2.t, x := (zeroUpdate fcfg u (here s2) s2.cov).1 }
          cov := (zeroUpdate fcfg u (here s2) s2.cov).2
          fsm := { s2.fsm with slots := fun j => { s2.fsm.slots j with
            coord := { ((zeroUpdate fcfg u (here s2) s2.cov).1.fea j).c with camID := (s2.fsm.slots j).coord.camID } } } } := by
      unfold zeroVelocity
      rw [if_pos (by simpa [ZeroVelocityDue, and_assoc] using hdue)]
      rfl
    rw [hzv]
    refine ⟨?_, fun i hi => ?_⟩
    · have := hzu.1
      show SamePlatformEstimate s.w.x (zeroUpdate fcfg u (here s2) s2.cov).1
      have hh : SamePlatformEstimate s2.w.x (here s2) := rfl
      exact samePlatform_trans hpl (samePlatform_trans hh this)
    · have hi2 : Survives s s2 i := hi
      obtain ⟨f1, f2, f3⟩ := hfe i hi2
      have hun : ((here s2).fea i).c.nor.q.IsUnit := by
        show (known (s2.fsm.slots i).coord).nor.q.IsUnit
        rw [hkn i hi2]; exact hu.nor i
      show SameBearing _ { ((zeroUpdate fcfg u (here s2) s2.cov).1.fea i).c with camID := _ } ∧ s2.camID i = _ ∧ ((zeroUpdate fcfg u (here s2) s2.cov).1.fea i).d = _
      rw [← f3]
      refine ⟨f1.trans ?_, f2, ?_⟩
      · refine SameUpToPixel.bearing ?_
        rcases hzu.2 i hun with e | e <;> rw [e]
        · exact .inr (.inl (known_withCamID (s2.fsm.slots i).coord))
        · exact .inr (.inr (by simp [Fea.fixed, FC.setNor, here, known_camID]))
      · rcases hzu.2 i hun with e | e <;> rw [e] <;> rfl
  · rw [zeroVelocity_not_due _ hdue]
    exact ⟨hpl, hfe⟩

/-- C110.  One image in which every feature that is found is found where the estimate predicts it, and after which no zero-velocity update is due or the velocity is zero,
leaves the estimate of the platform as it is, and the bearing, camera and distance of every feature that survives. -/
theorem C110_image (I : USet) (hI : I.Lawful) (order : Finset (Fin n) → List (Fin n)) (ho : ∀ S, ∀ i ∈ order S, i ∈ S) (cfg : Cfg) (F : Full n nCam nPose)
    (hd : F.base.direct = cfg.direct) (fcfg : FCfg n nCam nPose) (gate : Gate 2) (R : Matrix (Fin 2) (Fin 2) ℝ) (u : PoseUpd nPose) (mem : FSt n nCam nPose → Mem)
    (mem' : ℝ → Slot MLP → Mem) (hF : ∀ s c, (F.detect (mem s) s c).Sane) (fuel : ℕ) (s s' : FSt n nCam nPose)
    (hid : ∀ i, s.valid i = true → (s.fsm.slots i).idx < s.fsm.maxIdx) (hu : UnitState (here s)) (ha : ImageAgrees F s)
    (h : imageUpdate I order cfg ((F.withFilter fcfg gate R u).env mem mem') fuel s = some s') (hz : ZeroVelocityDue cfg s' → s.w.x.vel = 0) :
    SamePlatformEstimate s.w.x s'.w.x ∧
      ∀ i, Survives s s' i → SameBearing (s.fsm.slots i).coord (s'.fsm.slots i).coord ∧ s'.camID i = s.camID i ∧ (s'.w.x.fea i).d = (s.w.x.fea i).d :=
  image_leaves I hI order ho cfg F hd (ekf gate R u) fcfg u mem mem' hF fuel s s' hid hu ha (leaves_ekf hu hd ha) h hz

/-- Where the image shows the patch, the errors are zero. -/
lemma seen_zero {F : Full n nCam nPose} (hred : ReducesZero F) (hp : 2 ≤ F.base.p) (hev : F.base.p % 2 = 0)
    (hl : F.base.stop ≤ F.base.start) (hw : F.base.acfg.useWeighting = true → ∀ k, 0 < F.base.acfg.w k) (hg : F.base.acfg.gradExp ≤ 0)
    {s : FSt n nCam nPose} {i : Fin n} {c : Fin nCam} (hr : MLP.Reach F.base.p (s.fsm.slots i).patch) {f : FC} (h : SeesPatch F s i c f) {m : Mem} {r e A v}
    (he : ImgPixel.innovation (F.pix m) (F.imgs s.t c) (s.fsm.slots i).patch f = some (r, e)) (hv : F.reduce e = some (A, v)) : v = 0 := by
  obtain ⟨⟨N, img, cv, hpyr, hcols, hrows, f1, g, g1, g2, gc, gw, hcv, hd, hin⟩, hlev, ht, hnf⟩ := h
  obtain ⟨hin, m0, vis, α, β, hvis, hsame, hα, hβ⟩ := hin (F.pix m).junk
  have hs : g.Settled := ⟨gw, by simp [FC.comC, gc]⟩
  have hd' : g.nearB = true ∨ g.warpC.det ≠ 0 := by
    unfold FC.nearB
    rcases hd with h | h | h
    · left; simp [h]
    · left; simp [h]
    · exact .inr h
  obtain ⟨rows, hrw, hb, -⟩ := equations_shows (ex := (F.pix m).ex) (cfg := F.base.acfg) hp hs gc hl hd' (shows_of hp hev hpyr hcols hrows hs hin hcv hvis hlev hsame) hr hw hg hα hβ ht hnf
  have heq : ImgPixel.innovation (F.pix m) (F.imgs s.t c) (s.fsm.slots i).patch f = some (g, .ok rows) := by
    rw [← hrw]
    unfold ImgPixel.innovation Align.equations
    rw [g1, hs.comC, gc]
    simp only [Option.bind_eq_bind, Option.bind_some, Bool.not_true, Bool.false_eq_true, if_false]
    rw [g2, FC.comWarpC_valid gw]
    rfl
  rw [heq] at he
  cases he
  exact hred rows A v hv hb

/-- C110, direct method: where the image shows the patch, the innovation is zero. -/
theorem C110_seen (F : Full n nCam nPose) (hdir : F.base.direct = true) (hred : ReducesZero F) (hp : 2 ≤ F.base.p) (hev : F.base.p % 2 = 0)
    (hl : F.base.stop ≤ F.base.start) (hw : F.base.acfg.useWeighting = true → ∀ k, 0 < F.base.acfg.w k) (hg : F.base.acfg.gradExp ≤ 0)
    (s : FSt n nCam nPose) (i : Fin n) (c : Fin nCam) (hr : MLP.Reach F.base.p (s.fsm.slots i).patch) 
    (h : ∀ m y f, F.tested m s i c = some (y, true) → PredictedIn F s i c f → SeesPatch F s i c f) :
    ShownAsPredicted F s i c := by
  exact fun m f hf => ⟨fun h => absurd hdir (by rw [h]; simp), fun _ y hy r e A v he hv => seen_zero hred hp hev hl hw hg hr (h m y f hy hf) he hv⟩

/-- C110, direct method, from pixels to estimate: an image that shows the patches of the features (those that were in frame in the previous image) where the estimate predicts them
leaves the estimate of the platform as it is, and the bearing, camera and distance of every feature that survives. -/
theorem C110_unmoved_image (I : USet) (hI : I.Lawful) (order : Finset (Fin n) → List (Fin n)) (ho : ∀ S, ∀ i ∈ order S, i ∈ S) (cfg : Cfg) (F : Full n nCam nPose)
    (hdir : F.base.direct = true) (hd : cfg.direct = true) (hred : ReducesZero F) (hp : 2 ≤ F.base.p) (hev : F.base.p % 2 = 0) (hl : F.base.stop ≤ F.base.start)
    (hw : F.base.acfg.useWeighting = true → ∀ k, 0 < F.base.acfg.w k) (hg : F.base.acfg.gradExp ≤ 0) (fcfg : FCfg n nCam nPose) (gate : Gate 2) (R : Matrix (Fin 2) (Fin 2) ℝ)
    (u : PoseUpd nPose) (mem : FSt n nCam nPose → Mem) (mem' : ℝ → Slot MLP → Mem) (hF : ∀ s c, (F.detect (mem s) s c).Sane) (fuel : ℕ) (s s' : FSt n nCam nPose)
    (hid : ∀ i, s.valid i = true → (s.fsm.slots i).idx < s.fsm.maxIdx) (hr : ∀ i, s.valid i = true → MLP.Reach F.base.p (s.fsm.slots i).patch) (hu : UnitState (here s))
    (ha : ∀ s₁, Undisturbed s s₁ → ∀ i c, s.valid i = true → ∀ m y f, F.tested m s₁ i c = some (y, true) → PredictedIn F s₁ i c f → SeesPatch F s i c f)
    (h : imageUpdate I order cfg ((F.withFilter fcfg gate R u).env mem mem') fuel s = some s') (hz : ZeroVelocityDue cfg s' → s.w.x.vel = 0) :
    SamePlatformEstimate s.w.x s'.w.x ∧
      ∀ i, Survives s s' i → SameBearing (s.fsm.slots i).coord (s'.fsm.slots i).coord ∧ s'.camID i = s.camID i ∧ (s'.w.x.fea i).d = (s.w.x.fea i).d := by
  refine C110_image I hI order ho cfg F (hdir.trans hd.symm) fcfg gate R u mem mem' hF fuel s s' hid hu (fun s₁ h₁ i c hv => ?_) h hz
  have hv0 := h₁.valid i hv
  refine C110_seen F hdir hred hp hev hl hw hg s₁ i c (by rw [h₁.patch]; exact hr i hv0) fun m y f hy hf => ?_
  obtain ⟨h1, h2, h3, h4⟩ := ha s₁ h₁ i c hv0 m y f hy hf
  refine ⟨?_, ?_, ?_, ?_⟩
  · rw [h₁.time, h₁.patch]; exact h1
  · rw [h₁.patch]; exact h2
  · rw [h₁.patch]; exact h3
  · rw [h₁.patch]; exact h4

/-! ## Non-vacuity -/

/-- The reduction of the code meets its contract, whatever the decomposition. -/
example {k : ℕ} (d : Align.QR k) {A v} (h : Align.reduced d 0 = some (A, v)) : v = 0 := by
  unfold Align.reduced at h
  split at h
  · cases h; funext i; simp [mulVec_zero]
  · cases h

/-- Every image with a zero error vector: a filter that moves at 7 m/s, with three features in use, is not disturbed. -/
example (F : Full 3 2 1) (C : Fin 2 → Camera) (f : V3 → Nor) (g : V2 → Nor) (fcfg : FCfg 3 2 1) (gate : Gate 2) (R : Matrix (Fin 2) (Fin 2) ℝ) (u : PoseUpd 1) (x : State 3 2 1)
    (hx : UnitState x) (prev : Fin 2 → List Level) (P : Cov 3 2 1) (q : MLP) (m : Mem) :
    ∃ fuel r, imageUpdate AddArgs.listUSet (fun S => (List.finRange 3).filter (· ∈ S)) (zvCfg false)
        (((demoFull { F with base := { F.base with direct := true }, reduce := fun _ => some (M2.one, 0) } C f g).withFilter fcfg gate R u).env (fun _ => m) (fun _ _ => m)) fuel
          { demoFSt { x with vel := ⟨7, 0, 0⟩ } prev P q with t := 6 } = some r ∧ r.w.x.vel = ⟨7, 0, 0⟩ := by
  obtain ⟨fuel, r, hr⟩ := demo_life { F with base := { F.base with direct := true }, reduce := fun _ => some (M2.one, 0) } C f g fcfg gate R u false m _
    (demoFSt_wf { x with vel := ⟨7, 0, 0⟩ } prev P q 6)
  refine ⟨fuel, r, hr, ?_⟩
  obtain ⟨h1, -⟩ := C110_image AddArgs.listUSet AddArgs.listUSet_lawful (fun S => (List.finRange 3).filter (· ∈ S)) (by simp) (zvCfg false) _ (by rfl) fcfg gate R u
    (fun _ => m) (fun _ _ => m)
    (fun s c => ⟨by simp [Full.detect, demoFull], by simp [Full.detect, demoFull], by simp [Full.detect, demoFull], by simp [Full.detect, demoFull]; norm_num,
      by simp [Full.detect, demoFull]; norm_num⟩) fuel { demoFSt { x with vel := ⟨7, 0, 0⟩ } prev P q with t := 6 } r (fun i _ => by simp only [demoFSt]; exact_mod_cast i.isLt)
    ⟨hx.att, hx.vea, hx.aux, hx.poa, fun i => by simp [here, known, FC.comNor, demoFSt, demoFC, Quat.IsUnit, Quat.one, Quat.normSq]⟩
    (fun s' _ i c _ m f _ => ⟨fun h => by simp [demoFull] at h, fun _ y _ r e A v _ hv => by
      simp only [demoFull, Option.some.injEq, Prod.mk.injEq] at hv; exact hv.2.symm⟩) hr (by rintro ⟨h, -⟩; simp [zvCfg] at h)
  rw [h1]; rfl

/-- On a 6 × 6 image, at the pixel corner (3,3) of coordinates without a warp, the patch of size 2 is the grey values of rows and columns 2–3. -/
lemma demo_shown (f : ℕ → ℕ → ℕ) (junk : FC) (m0 : MLP) {c : FC} (hvc : c.validC = true) (hw : c.validWarpC = true) (h1 : c.warpC = M2.one) (h3 : c.c = ⟨3, 3⟩) : ∃ mp,
    MLP.isMultilevelPatchInFrame 2 junk [⟨img6 f, 0⟩] c 0 false = some (c, true) ∧
    MLP.extractMultilevelPatchFromImage 2 junk m0 [⟨img6 f, 0⟩] c 0 false = some (c, mp) ∧
    (∀ y < 2, ∀ x < 2, Spec.cell 2 (mp.patches 0).patch y x = f (y + 2) (x + 2)) := by
  have hs : c.Settled := ⟨hw, by simp [FC.comC, hvc]⟩
  have hl : ([⟨img6 f, 0⟩] : List Level)[0]? = some ⟨img6 f, 0⟩ := rfl
  have hpyr : computeFromImage 1 (img6 f) none = some [⟨img6 f, 0⟩] := rfl
  obtain ⟨o, ho, hos, hof, hoc, how, hoi⟩ := levelTransform_settled (junk := junk) hl hl hs
  have how1 : o.warpC = M2.one := by rw [how, h1]; split <;> rfl
  have hd1 : M2.one.distOne < 1e-6 := by simp [M2.distOne, M2.one]; norm_num
  have hon : o.nearB = true := by unfold FC.nearB; rw [how1]; simp [hd1]
  have hoc' : o.c = ⟨3, 3⟩ := by rw [hoc, levelPixel_self, h3]
  have hP : Patch.InP 2 (img6 f) o false := by
    unfold Patch.InP
    rw [hon, if_pos rfl, hoc']
    simp only [Patch.PlainIn, halfPatch, img6]
    norm_num
  have hfr := Patch.isPatchInFrame_of (p := 2) (wb := false) (by norm_num) (by norm_num [img6]) (by norm_num [img6]) hos hof hP
  have hin : MLP.isMultilevelPatchInFrame 2 junk [⟨img6 f, 0⟩] c 0 false = some (c, true) := by
    have hf : c.isInFront = true := by simp [FC.isInFront, hvc]
    unfold MLP.isMultilevelPatchInFrame
    simp only [hf, FC.comWarpC_valid hs.warp, ho, hl, hfr, Option.bind_eq_bind, Option.bind_some, Bool.not_true, Bool.false_eq_true, if_false, Option.pure_def]
  obtain ⟨⟨mp, hmp, _⟩, _⟩ := C25_coarsest_decides (p := 2) (by norm_num) hpyr (by norm_num [img6]) (by norm_num [img6]) hin (Or.inl rfl) m0
  obtain ⟨_, _, _, _, hex⟩ := extractAll_inv hs (List.range (0 + 1)) m0 mp c List.nodup_range hmp
  obtain ⟨old, lvl, cl, cl', e1, e2, e3⟩ := hex 0 (by simp)
  rw [hl] at e1
  obtain rfl := Option.some.inj e1
  rw [ho] at e2
  simp only [Option.some.injEq, Prod.mk.injEq, true_and] at e2
  subst e2
  have hvo : o.validC = true := by
    unfold levelTransform at ho
    simp only [hl, hs.getC, Option.bind_eq_bind, Option.bind_some, Option.pure_def] at ho
    cases hcam : c.cam with
    | none => simp only [hcam, Option.some.injEq, Prod.mk.injEq, true_and] at ho; rw [← ho]; rfl
    | some cam =>
      simp only [hcam, FC.comWarpC_valid hs.warp, FC.getWarpC_valid hs.warp, Option.bind_some, if_true, Option.some.injEq, Prod.mk.injEq, true_and] at ho
      rw [← ho]; rfl
  refine ⟨mp, hin, hmp, fun y hy x hx => ?_⟩
  have hu : usedWarp o = M2.one := by
    unfold usedWarp; rw [how1]; split <;> rfl
  have := (C26_integer hvo hos.warp e3 (y := y) (x := x) (v := y + 2) (u := x + 2) hy hx (by
    rw [hu, hoc']
    simp only [samplePos, M2.mulVec, M2.one, halfPatch]
    show V2.mk _ _ = V2.mk _ _
    congr 1 <;> push_cast <;> norm_num <;> ring)).2.2
  simp only [written] at this
  have e : 2 * halfPatch 2 false = 2 := rfl
  rw [e] at this
  simpa [img6] using this

/-- A camera that sees everything at the pixel corner (3,3). -/
def demoEye : CamI := ⟨fun _ => some ⟨3, 3⟩, fun _ => some (⟨3, 3⟩, M2.one), fun _ => (⟨Quat.one⟩, true)⟩

/-- Two such cameras with the image `x · y²`, direct method, gain and offset of the brightness estimated. -/
noncomputable def demoEyes (F : Full 3 2 1) : Full 3 2 1 :=
  { F with
    base := { F.base with p := 2, start := 0, stop := 0, direct := true, acfg := ⟨3, fun _ => 1, false, true, true, 0⟩ }
    mc := { F.mc with cams := fun _ => demoEye }
    imgs := fun _ _ => [⟨img6 fun y x => x * y ^ 2, 0⟩]
    reduce := fun e => match e with | .ok rows => some (M2.one, ⟨(rows.map Row.b).sum, 0⟩) | _ => none
    nb := 100, exponent := 0.25, penaltyDistance := 20, zeroPenalty := 100 }

/-- The coordinates of the features in that image. -/
def demoSpot : FC := ⟨some demoEye, ⟨3, 3⟩, true, ⟨Quat.one⟩, true, 1, M2.one, true, M2.one, true, true, false⟩

/-- The image shows the patch of such a feature wherever the estimate predicts it. -/
lemma demo_sees {F : Full 3 2 1} {s s₁ : FSt 3 2 1} {mp m0 : MLP} (hslot : ∀ i, (s.fsm.slots i).coord = demoSpot) (hpatch : ∀ i, (s.fsm.slots i).patch = mp)
    (hval : ∀ l ∈ List.range (0 + 1), mp.isValidPatch l = true) (h4 : Textured 2 0 0 (fun l => (mp.patches l).patch) (fun l => (mp.patches l).border))
    (h5 : NotFlat 2 0 0 (fun l => (mp.patches l).patch)) (hI : ∀ y < 2, ∀ x < 2, Spec.cell 2 (mp.patches 0).patch y x = (((x + 2) * (y + 2) ^ 2 : ℕ) : ℝ)) (hs₁ : Undisturbed s s₁) {i : Fin 3} {c : Fin 2} {f : FC} (hf : PredictedIn (demoEyes F) s₁ i c f) :
    SeesPatch (demoEyes F) s i c f := by
  -- the predicted coordinates project to the pixel corner (3,3)
  have key : (f.validC = true ∧ f.c = ⟨3, 3⟩ ∨ f.validC = false ∧ f.validNor = true ∧ f.cam = some demoEye) ∧ f.validWarpC = true ∧ f.warpC = M2.one := by
    obtain ⟨out, fo, hfo, rfl⟩ := hf
    have hco := hs₁.coord i
    have hsl := hslot i
    rw [hsl] at hco
    have hks : known demoSpot = demoSpot := known_of_valid rfl
    replace hco : (s₁.fsm.slots i).coord = demoSpot ∨ (s₁.fsm.slots i).coord = { demoSpot with validC := false, validNor := true } := by
      rcases hco with e | e | e
      · exact .inl e
      · exact .inl (e.trans hks)
      · exact .inr (by rw [e, hks])
    have hfe : ((here s₁).fea i).c = (s₁.fsm.slots i).coord := known_of_valid (by rcases hco with e | e <;> rw [e] <;> rfl)
    unfold State.featureOut at hfo
    simp only [Option.bind_eq_bind] at hfo
    obtain ⟨⟨cc, d⟩, ht, hfo⟩ := Option.bind_eq_some_iff.mp hfo
    have htw : ((here s₁).fea i).c.trackWarping = false := by rw [hfe]; rcases hco with e | e <;> rw [e] <;> rfl
    simp only [htw, Bool.false_eq_true, if_false, Option.pure_def, Option.some.injEq] at hfo
    subst hfo
    unfold MultiCamera.transformFeature at ht
    split at ht
    · simp only [Option.bind_eq_bind] at ht
      obtain ⟨a, _, ht⟩ := Option.bind_eq_some_iff.mp ht
      obtain ⟨⟨v, nor⟩, hv, ht⟩ := Option.bind_eq_some_iff.mp ht
      obtain ⟨d', _, ht⟩ := Option.bind_eq_some_iff.mp ht
      have hvn : v = (s₁.fsm.slots i).coord := by
        have hvn : ((here s₁).fea i).c.validNor = true := by rw [hfe]; rcases hco with e | e <;> rw [e] <;> rfl
        simp only [FC.getNor, FC.comNor, hvn, if_true, Option.bind_eq_bind, Option.bind_some, Option.pure_def, Option.some.injEq, Prod.mk.injEq] at hv
        exact hv.1.symm.trans hfe
      have htv : v.trackWarping = false := by rw [hvn]; rcases hco with e | e <;> rw [e] <;> rfl
      have hwv : v.validWarpC = true ∧ v.warpC = M2.one := by rw [hvn]; rcases hco with e | e <;> rw [e] <;> exact ⟨rfl, rfl⟩
      simp only [htv, Bool.false_eq_true, if_false, Option.pure_def, Option.some.injEq, Prod.mk.injEq] at ht
      rw [← ht.1]
      exact ⟨.inr ⟨rfl, rfl, rfl⟩, hwv⟩
    · simp only [Option.some.injEq, Prod.mk.injEq] at ht
      rw [← ht.1, hfe]
      rcases hco with e | e <;> rw [e]
      · exact ⟨.inl ⟨rfl, rfl⟩, rfl, rfl⟩
      · exact ⟨.inr ⟨rfl, rfl, rfl⟩, rfl, rfl⟩
  obtain ⟨hk, kw, k1⟩ := key
  have hg : ∃ g : FC, f.comC = some (g, true) ∧ g.validC = true ∧ g.c = ⟨3, 3⟩ ∧ g.validWarpC = true ∧ g.warpC = M2.one := by
    rcases hk with ⟨a, b⟩ | ⟨a, b, e⟩
    · exact ⟨f, by simp [FC.comC, a], a, b, kw, k1⟩
    · exact ⟨{ f with c := ⟨3, 3⟩, validC := true }, by simp [FC.comC, a, b, e, demoEye], rfl, rfl, kw, k1⟩
  obtain ⟨g, g1, g2, g3, g4, g5⟩ := hg
  have hd1 : M2.one.distOne < 1e-6 := by simp [M2.distOne, M2.one]; norm_num
  refine ⟨⟨1, img6 fun y x => x * y ^ 2, none, rfl, by norm_num [img6], by norm_num [img6], g, g, g1, FC.comWarpC_valid g4, g2, g4, .inl rfl, .inr (.inl (by rw [g5]; exact hd1)),
    fun junk' => ?_⟩, fun l _ b => by rw [hpatch]; exact hval l (List.mem_range.mpr (by simp only [demoEyes] at b; omega)), by rw [hpatch]; exact h4, fun _ => by rw [hpatch]; exact h5⟩
  obtain ⟨vis, v1, v2, v3⟩ := demo_shown (fun y x => x * y ^ 2) junk' m0 g2 g4 g5 g3
  refine ⟨v1, m0, vis, 1, 0, v2, fun l _ b k hk => ?_, by simp [demoEyes]; norm_num, .inr rfl⟩
  have hl0 : l = 0 := by simp only [demoEyes] at b; omega
  subst hl0
  have hk4 : k < 4 := hk
  have e1 := v3 (k / 2) (by omega) (k % 2) (by omega)
  have e2 := hI (k / 2) (by omega) (k % 2) (by omega)
  rw [← e2] at e1
  have e3 : k / 2 * 2 + k % 2 = k := by omega
  simp only [Spec.cell, e3] at e1
  rw [hpatch]
  show _ = 1 * (mp.patches 0).patch k + 0
  rw [e1]; ring

/-- An image that shows the patch of the features where they are predicted, in both cameras: the hypotheses of `C110_unmoved_image` (hence of `C110_seen`) are met. -/
example (F : Full 3 2 1) (fcfg : FCfg 3 2 1) (gate : Gate 2) (R : Matrix (Fin 2) (Fin 2) ℝ) (u : PoseUpd 1) (x : State 3 2 1)
    (hx : UnitState x) (prev : Fin 2 → List Level) (P : Cov 3 2 1) (m : Mem) (junk : FC) (m0 : MLP) (hr : MLP.Reach 2 m0) :
    ∃ mp fuel r, imageUpdate AddArgs.listUSet (fun S => (List.finRange 3).filter (· ∈ S)) (zvCfg false)
        (((demoEyes F).withFilter fcfg gate R u).env (fun _ => m) (fun _ _ => m)) fuel
          { demoFSt { x with vel := ⟨7, 0, 0⟩ } prev P mp with fsm := ⟨fun i => ⟨true, i.val, demoSpot, mp⟩, 3⟩, t := 6 } = some r ∧ r.w.x.vel = ⟨7, 0, 0⟩ := by
  obtain ⟨mp, h1, h2, h3, hB, hI⟩ := demo_taken (fun y x => x * y ^ 2) junk m0
  obtain ⟨h4, h5⟩ := demo_textured hB hI
  have hsc : (FC.constructPixel junk ⟨3, 3⟩).Settled := ⟨rfl, rfl⟩
  obtain ⟨_, hval, _⟩ := extractAll_inv hsc (List.range (0 + 1)) m0 mp _ List.nodup_range h3
  set s : FSt 3 2 1 := { demoFSt { x with vel := ⟨7, 0, 0⟩ } prev P mp with fsm := ⟨fun i => ⟨true, i.val, demoSpot, mp⟩, 3⟩, t := 6 } with hsdef
  obtain ⟨fuel, r, h, _⟩ := C35_image_update_total AddArgs.listUSet_lawful (demo_order 3) (zvCfg false)
    (((demoEyes F).withFilter fcfg gate R u).env (fun _ => m) (fun _ _ => m)) (by norm_num)
    (fun s c => ⟨by simp [Full.env, Full.detect, demoEyes, Full.withFilter], by simp [Full.env, Full.detect, demoEyes, Full.withFilter],
      by simp [Full.env, Full.detect, demoEyes, Full.withFilter],
      by simp [Full.env, Full.detect, demoEyes, Full.withFilter]; norm_num, by simp [Full.env, Full.detect, demoEyes, Full.withFilter]; norm_num⟩)
    (by simp only [zvCfg, demoCfg]; norm_num) (by simp only [zvCfg, demoCfg]; norm_num) (by simp only [zvCfg, demoCfg]; norm_num)
    (by simp only [zvCfg, demoCfg]; norm_num) (by simp only [zvCfg, demoCfg]; norm_num) (by norm_num) s
    ⟨fun i _ => by simp [hsdef, demoSpot, St.camID], fun i => (demo_wf 3 2 (fun _ => true) (fun _ => 0) (by simp)).2 i⟩
  have hr' := h fuel le_rfl
  refine ⟨mp, fuel, r, hr', ?_⟩
  obtain ⟨h1, -⟩ := C110_unmoved_image AddArgs.listUSet AddArgs.listUSet_lawful (fun S => (List.finRange 3).filter (· ∈ S)) (by simp) (zvCfg false) (demoEyes F) rfl rfl
    (fun rows A v hv hb => by
      simp only [demoEyes, Option.some.injEq, Prod.mk.injEq] at hv
      rw [← hv.2]
      have : (rows.map Row.b).sum = 0 := List.sum_eq_zero fun b hb' => by
        obtain ⟨r, hr, rfl⟩ := List.mem_map.mp hb'; exact hb r hr
      rw [this]; rfl)
    (by simp [demoEyes]) (by simp [demoEyes]) (by simp [demoEyes]) (by simp [demoEyes]) (by simp [demoEyes]) fcfg gate R u
    (fun _ => m) (fun _ _ => m)
    (fun s c => ⟨by simp [Full.detect, demoEyes], by simp [Full.detect, demoEyes], by simp [Full.detect, demoEyes], by simp [Full.detect, demoEyes]; norm_num,
      by simp [Full.detect, demoEyes]; norm_num⟩) fuel s r (fun i _ => by simp only [hsdef]; exact_mod_cast i.isLt) (fun i _ => .extract hr h3)
    ⟨hx.att, hx.vea, hx.aux, hx.poa, fun i => by simp [here, known, FC.comNor, hsdef, demoSpot, Quat.IsUnit, Quat.one, Quat.normSq]⟩
    (fun s₁ hs₁ i c _ _ _ _ _ hf => demo_sees (m0 := m0) (fun _ => rfl) (fun _ => rfl) hval h4 h5 hI hs₁ hf)
    hr' (by rintro ⟨h, -⟩; simp [zvCfg] at h)
  rw [h1]; rfl

end Rovio.ImgFull
