import Verif.Lemmas.ImgMoves
import Verif.Props.ImgSees
import Verif.Props.ExtFrame
import Verif.Lemmas.FilterSteps

/-!
# C102: images act on the estimate only through corrections with features that were found

`imageUpdate` with `Full.withFilter` is the processing of one image from pixels to estimate and covariance (include/rovio/ImgUpdate.hpp:406-1082).
-/

namespace Rovio.ImgFull

open Rovio.Spec Rovio.Img Matrix

variable {n nCam nPose : ℕ}

lemma zeroVelocity_timers (cfg : Cfg) (env : Env MLP (World n nCam nPose) (Cov n nCam nPose) n nCam) (s : FSt n nCam nPose) :
    (zeroVelocity cfg env s).sinceImage = s.sinceImage ∧ (zeroVelocity cfg env s).sinceInertial = s.sinceInertial ∧ (zeroVelocity cfg env s).log = s.log := by
  unfold zeroVelocity
  split <;> exact ⟨rfl, rfl, rfl⟩

lemma zeroVelocity_not_due {cfg : Cfg} (env : Env MLP (World n nCam nPose) (Cov n nCam nPose) n nCam) {s : FSt n nCam nPose} (h : ¬ ZeroVelocityDue cfg s) :
    zeroVelocity cfg env s = s := by
  unfold zeroVelocity
  rw [if_neg]
  simpa [ZeroVelocityDue, and_assoc] using h

lemma here_congr {s t : FSt n nCam nPose} (hw : s.w.x = t.w.x) (hf : s.fsm = t.fsm) : here s = here t := by
  unfold here; rw [hw, hf]

open Classical in
lemma zeroVelocity_due (cfg : Cfg) (F : Full n nCam nPose) (fcfg : FCfg n nCam nPose) (gate : Gate 2) (R : Matrix (Fin 2) (Fin 2) ℝ) (u : PoseUpd nPose)
    (mem : FSt n nCam nPose → Mem) (mem' : ℝ → Slot MLP → Mem) (s : FSt n nCam nPose) :
    (here (zeroVelocity cfg ((F.withFilter fcfg gate R u).env mem mem') s), (zeroVelocity cfg ((F.withFilter fcfg gate R u).env mem mem') s).cov) =
      if ZeroVelocityDue cfg s then zeroUpdate fcfg u (here s) s.cov else (here s, s.cov) := by
  rw [zeroVelocity_here]
  congr 1
  simp [ZeroVelocityDue, and_assoc]

open Classical in
/-- C102.  One image takes the estimate and its covariance to the result of two-dimensional Kalman corrections, each with the derivative of the bearing of one feature in one
camera, of changes of features and of resets of their covariance, and at the end of the zero-velocity update if it is due.  The corrections belong to visits that got as
far as the filter, in the order of the visits, at most one for each, and exactly one for each visit that counts as tracked. -/
theorem C102_image (I : USet) (order : Finset (Fin n) → List (Fin n)) (cfg : Cfg) (F : Full n nCam nPose) (fcfg : FCfg n nCam nPose) (gate : Gate 2)
    (R : Matrix (Fin 2) (Fin 2) ℝ) (u : PoseUpd nPose) (mem : FSt n nCam nPose → Mem) (mem' : ℝ → Slot MLP → Mem) (fuel : ℕ) (s s' : FSt n nCam nPose)
    (h : imageUpdate I order cfg ((F.withFilter fcfg gate R u).env mem mem') fuel s = some s') :
    ∃ (l : List (Fin n × Fin nCam)) (x : State n nCam nPose) (P : Cov n nCam nPose), (pairs Tracked s'.log).Sublist l ∧ l.Sublist (pairs Reached s'.log) ∧
      ByMatches F.sfv F.C gate R u (here s) s.cov l x P ∧
      (here s', s'.cov) = if ZeroVelocityDue cfg s' then zeroUpdate fcfg u x P else (x, P) := by
  unfold imageUpdate at h
  simp only [Option.bind_eq_bind] at h
  obtain ⟨s1, h1, h⟩ := Option.bind_eq_some_iff.mp h
  obtain ⟨c1, c2, c3, c4⟩ := commonPre_same (cfg := cfg) (env := (F.withFilter fcfg gate R u).env mem mem') { s with log := [] }
  obtain ⟨l, hl, hb⟩ := Inv.loop (x₀ := here s) (P₀ := s.cov) _ _ _ h1 ⟨[], by rw [c3]; exact ⟨List.Sublist.refl _, List.Sublist.refl _⟩, by
    show ByMatches _ _ _ _ _ _ _ _ (here _) _
    rw [c2, show here (commonPre cfg ((F.withFilter fcfg gate R u).env mem mem') { s with log := [] }) = here s from here_congr (congrArg World.x c1) c4]; exact .start⟩
  obtain ⟨s2, ⟨h2, h3⟩, rfl⟩ := (post_by l s1.log).common h ⟨hb, rfl⟩
  obtain ⟨t1, t2, t3⟩ := zeroVelocity_timers cfg ((F.withFilter fcfg gate R u).env mem mem') { s2 with w := ((F.withFilter fcfg gate R u).env mem mem').finish s2.t s2.w }
  refine ⟨l, here s2, s2.cov, ?_, ?_, h2, ?_⟩
  · rw [t3]; show (pairs Tracked s2.log).Sublist l; rw [h3]; exact hl.1
  · rw [t3]; show l.Sublist (pairs Reached s2.log); rw [h3]; exact hl.2
  · rw [show ZeroVelocityDue cfg (zeroVelocity cfg ((F.withFilter fcfg gate R u).env mem mem') { s2 with w := ((F.withFilter fcfg gate R u).env mem mem').finish s2.t s2.w }) =
        ZeroVelocityDue cfg { s2 with w := ((F.withFilter fcfg gate R u).env mem mem').finish s2.t s2.w } by unfold ZeroVelocityDue; rw [t1, t2]]
    exact zeroVelocity_due cfg F fcfg gate R u mem mem' _

/-- C102.  An image in which no feature gets as far as the filter (covered cameras, darkness, features all out of frame) and after which no zero-velocity update is due leaves
the estimate of the platform as it is, and the features that survive, and the covariance of all of these. -/
theorem C102_blind (I : USet) (hI : I.Lawful) (order : Finset (Fin n) → List (Fin n)) (ho : ∀ S, ∀ i ∈ order S, i ∈ S) (cfg : Cfg) (F : Full n nCam nPose)
    (fcfg : FCfg n nCam nPose) (gate : Gate 2) (R : Matrix (Fin 2) (Fin 2) ℝ) (u : PoseUpd nPose) (mem : FSt n nCam nPose → Mem) (mem' : ℝ → Slot MLP → Mem)
    (hF : ∀ s c, (F.detect (mem s) s c).Sane) (fuel : ℕ) (s s' : FSt n nCam nPose) (hid : ∀ i, s.valid i = true → (s.fsm.slots i).idx < s.fsm.maxIdx)
    (h : imageUpdate I order cfg ((F.withFilter fcfg gate R u).env mem mem') fuel s = some s') (hl : ∀ v ∈ s'.log, Reached v = false) (hz : ¬ ZeroVelocityDue cfg s') :
    SamePlatformEstimate s.w.x s'.w.x ∧
      (∀ i, Survives s s' i → SamePoint (s.fsm.slots i).coord (s'.fsm.slots i).coord ∧ (s'.w.x.fea i).d = (s.w.x.fea i).d) ∧
      ∀ a b, keptRow (Survives s s') a → keptRow (Survives s s') b → s'.cov a b = s.cov a b := by
  unfold imageUpdate at h
  simp only [Option.bind_eq_bind] at h
  obtain ⟨s1, h1, h⟩ := Option.bind_eq_some_iff.mp h
  obtain ⟨c1, c2, c3, c4⟩ := commonPre_same (cfg := cfg) (env := (F.withFilter fcfg gate R u).env mem mem') { s with log := [] }
  have hlog : s'.log = s1.log := by
    obtain ⟨s2, h2, rfl⟩ := (post_by (x₀ := here s1) (P₀ := s1.cov) [] s1.log).common h ⟨.start, rfl⟩
    rw [(zeroVelocity_timers _ _ _).2.2]; exact h2.2
  obtain ⟨l1, l2, l3⟩ := loop_nothing _ _ _ h1 (by rw [← hlog]; exact hl)
  have hf : s1.fsm = s.fsm := l3.trans c4
  have hk : Kept s s1 := by
    refine ⟨?_, by rw [hf], fun i _ => ?_, fun i _ => ?_, fun a b _ _ => by rw [l2, c2]⟩
    · rw [l1, c1]; rfl
    · rw [hf]; exact ⟨rfl, rfl, rfl, rfl, rfl, rfl⟩
    · rw [l1, c1]
  obtain ⟨s2, ⟨h2, h3⟩, rfl⟩ := (post_kept (F := F) (fcfg := fcfg) (gate := gate) (R := R) (u := u) (mem := mem) (mem' := mem') hI ho hF (s₀ := s) hid s1.log).common h ⟨hk, rfl⟩
  obtain ⟨t1, t2, t3⟩ := zeroVelocity_timers cfg ((F.withFilter fcfg gate R u).env mem mem') { s2 with w := ((F.withFilter fcfg gate R u).env mem mem').finish s2.t s2.w }
  have hz' : ¬ ZeroVelocityDue cfg { s2 with w := ((F.withFilter fcfg gate R u).env mem mem').finish s2.t s2.w } := by
    unfold ZeroVelocityDue at hz ⊢; rw [t1, t2] at hz; exact hz
  rw [zeroVelocity_not_due _ hz']
  exact ⟨h2.platform, fun i hi => ⟨h2.point i hi, h2.dist i hi⟩, h2.cov⟩

/-! ## The filter from pixels is an instance of the filter with an arbitrary image processing -/

lemma colMat_eq {ρ : Type} {f : Ix n nCam nPose → Option (ρ → ℝ)} {J : Matrix ρ (Ix n nCam nPose) ℝ} (h : ∀ a, f a = some fun k => J k a) : colMat f = some J := by
  classical
  have hs : ∀ b, (f b).isSome := fun b => by rw [h b]; rfl
  unfold colMat
  rw [dif_pos hs]
  congr 1
  funext k a
  exact congrFun (Option.some.inj ((Option.some_get (hs a)).trans (h a))) k

/-- A chain of steps of the filter, of the kinds that occur without external poses, with the given measurements of other sensors. -/
def Steps (fcfg : FCfg n (nCam + 1) nPose) (gate : Gate 2) (R : Matrix (Fin 2) (Fin 2) ℝ) (u : PoseUpd nPose) (m : List Sensor)
    (x : State n (nCam + 1) nPose) (P : Cov n (nCam + 1) nPose) (x' : State n (nCam + 1) nPose) (P' : Cov n (nCam + 1) nPose) : Prop :=
  ∃ steps : List (Step n (nCam + 1) nPose), Rovio.FSt.run fcfg ⟨x, P, u⟩ steps = some ⟨x', P', u⟩ ∧ (∀ e ∈ steps, FromPixels gate R e) ∧
    (steps.filterMap ofStep).Sublist m

section

variable {fcfg : FCfg n (nCam + 1) nPose} {gate : Gate 2} {R : Matrix (Fin 2) (Fin 2) ℝ} {u : PoseUpd nPose} {m m' : List Sensor}
  {x y z : State n (nCam + 1) nPose} {P Q T : Cov n (nCam + 1) nPose}

lemma Steps.nil : Steps fcfg gate R u [] x P x P := ⟨[], rfl, by simp, List.Sublist.refl _⟩

lemma Steps.trans (h : Steps fcfg gate R u m x P y Q) (h' : Steps fcfg gate R u m' y Q z T) : Steps fcfg gate R u (m ++ m') x P z T := by
  obtain ⟨a, h1, h2, h3⟩ := h
  obtain ⟨b, g1, g2, g3⟩ := h'
  refine ⟨a ++ b, ?_, fun e he => (List.mem_append.mp he).elim (h2 e) (g2 e), by rw [List.filterMap_append]; exact h3.append g3⟩
  unfold Rovio.FSt.run at *
  rw [List.foldlM_append, h1]
  exact g1

lemma Steps.one (e : Step n (nCam + 1) nPose) (he : FromPixels gate R e) (h : Rovio.FSt.step fcfg ⟨x, P, u⟩ e = some ⟨y, Q, u⟩) :
    Steps fcfg gate R u (ofStep e).toList x P y Q := by
  refine ⟨[e], ?_, by simpa using he, ?_⟩
  · unfold Rovio.FSt.run
    rw [List.foldlM_cons, h]; rfl
  · cases h' : ofStep e <;> simp [h']

lemma Steps.less (h : Steps fcfg gate R u m x P y Q) (hm : m.Sublist m') : Steps fcfg gate R u m' x P y Q := by
  obtain ⟨a, h1, h2, h3⟩ := h
  exact ⟨a, h1, h2, h3.trans hm⟩

lemma Steps.features (f : Fin n → Fea) : Steps fcfg gate R u [] x P { x with fea := f } P :=
  Steps.one (.manage fun _ _ => ⟨f, x.aux, []⟩) trivial rfl

lemma Steps.reset (i : Fin n) (C : Matrix (Fin 3) (Fin 3) ℝ) : Steps fcfg gate R u [] x P x (P.resetFeature i C) :=
  Steps.one (.manage fun _ _ => ⟨x.fea, x.aux, [(i, C)]⟩) trivial rfl

lemma finish_u {k : ℕ} {a b : Rovio.FSt n (nCam + 1) nPose} {g : Gate k} {y H R' p} (h : Rovio.FSt.finish a g y H R' p = some b) : b.u = a.u := by
  unfold Rovio.FSt.finish at h
  simp only [Option.bind_eq_bind, Option.pure_def] at h
  obtain ⟨q, _, h⟩ := Option.bind_eq_some_iff.mp h
  obtain ⟨t, _, h⟩ := Option.bind_eq_some_iff.mp h
  cases h; rfl

lemma Steps.matches {C₀ : Matrix (Fin 3) (Fin 3) ℝ} {l : List (Fin n × Fin (nCam + 1))} (h : ByMatches fcfg.sfv C₀ gate R u x P l y Q) : Steps fcfg gate R u [] x P y Q := by
  induction h with
  | start => exact .nil
  | features f _ ih => exact ih.trans (.features f)
  | reset i _ _ ih => exact ih.trans (.reset i _)
  | @correct l x' P' i b A v J w _ hJ hf ih =>
    refine ih.trans (.one (.image fun _ _ => some ⟨2, i, b, { x'.odo with fea := x'.fea }, A, v, R, gate⟩) (fun _ _ => ⟨i, b, _, A, v, rfl⟩) ?_)
    show Rovio.FSt.image fcfg _ _ = _
    unfold Rovio.FSt.image
    rw [show (x'.withOdo { x'.odo with fea := x'.fea }) = x' from rfl, colMat_eq hJ]
    have hu := finish_u hf
    simp only [Option.bind_eq_bind, Option.bind_some]
    rw [hf]
    cases w; cases hu; rfl

lemma Steps.zero : Steps fcfg gate R u [] x P (zeroUpdate fcfg u x P).1 (zeroUpdate fcfg u x P).2 := by
  unfold zeroUpdate keepOr
  cases h : Rovio.FSt.zeroVel fcfg (fun _ => true) ⟨x, P, u⟩ with
  | none => exact .nil
  | some w =>
    refine .one (.zeroVel fun _ => true) trivial ?_
    have hu := finish_u (show Rovio.FSt.finish _ _ _ _ _ _ = some w by unfold Rovio.FSt.zeroVel at h; rwa [if_pos rfl] at h)
    cases w; cases hu; exact h

end

/-- C102.  Whatever IMU measurements, velocities and images a filter from pixels gets, its estimate and covariance are those of the filter with an arbitrary image processing
that gets some of the same IMU measurements and velocities in the same order (all whose processing divides by zero nowhere), two-dimensional corrections with bearings of
features, feature management and zero-velocity updates, and nothing else. -/
theorem C102_life (I : USet) (order : Finset (Fin n) → List (Fin n)) (cfg : Cfg) (F : Full n (nCam + 1) nPose) (fcfg : FCfg n (nCam + 1) nPose) (hsfv : fcfg.sfv = F.sfv)
    (gate : Gate 2) (R : Matrix (Fin 2) (Fin 2) ℝ) (u : PoseUpd nPose) (mem : FSt n (nCam + 1) nPose → Mem) (mem' : ℝ → Slot MLP → Mem) (fuel : ℕ)
    (es : List (Input n (nCam + 1) nPose)) (hf : ∀ i t, Input.reset i t ∉ es) (s s' : FSt n (nCam + 1) nPose)
    (h : life I order cfg F fcfg gate R u mem mem' fuel es s = some s') :
    ∃ steps : List (Step n (nCam + 1) nPose), Rovio.FSt.run fcfg ⟨here s, s.cov, u⟩ steps = some ⟨here s', s'.cov, u⟩ ∧ (∀ e ∈ steps, FromPixels gate R e) ∧
      (steps.filterMap ofStep).Sublist (es.filterMap ofInput) := by
  show Steps fcfg gate R u _ _ _ _ _
  induction es generalizing s with
  | nil => cases h; exact .nil
  | cons e es ih =>
    unfold life run at h
    rw [List.map_cons, List.foldlM_cons] at h
    simp only [Option.bind_eq_bind] at h
    obtain ⟨s1, h1, h2⟩ := Option.bind_eq_some_iff.mp h
    have ih' := ih (fun i t hm => hf i t (List.mem_cons_of_mem _ hm)) s1 h2
    have key : Steps fcfg gate R u (ofInput e).toList (here s) s.cov (here s1) s1.cov := by
      cases e with
      | imu mm dt =>
        have hp : Steps fcfg gate R u [.inl (mm, dt)] (here s) s.cov (keepOr (Rovio.FSt.predict fcfg mm dt ⟨here s, s.cov, u⟩) (here s) s.cov).1
            (keepOr (Rovio.FSt.predict fcfg mm dt ⟨here s, s.cov, u⟩) (here s) s.cov).2 := by
          cases hq : Rovio.FSt.predict fcfg mm dt ⟨here s, s.cov, u⟩ with
          | none => exact Steps.nil.less (List.nil_sublist _)
          | some w =>
            refine .one (.predict mm dt) trivial ?_
            have hu : w.u = u := by
              unfold Rovio.FSt.predict at hq
              simp only [Option.bind_eq_bind, Option.pure_def] at hq
              obtain ⟨_, -, hq⟩ := Option.bind_eq_some_iff.mp hq
              obtain ⟨_, -, hq⟩ := Option.bind_eq_some_iff.mp hq
              obtain ⟨_, -, hq⟩ := Option.bind_eq_some_iff.mp hq
              cases hq; rfl
            cases w; cases hu; exact hq
        have := hp.trans (.features fun j => { (here s1).fea j with c := known (s1.fsm.slots j).coord })
        cases h1
        exact this
      | velocity v =>
        have hp : Steps fcfg gate R u [.inr v] (here s) s.cov (keepOr (Rovio.FSt.velocity fcfg v ⟨here s, s.cov, u⟩) (here s) s.cov).1
            (keepOr (Rovio.FSt.velocity fcfg v ⟨here s, s.cov, u⟩) (here s) s.cov).2 := by
          cases hq : Rovio.FSt.velocity fcfg v ⟨here s, s.cov, u⟩ with
          | none => exact Steps.nil.less (List.nil_sublist _)
          | some w =>
            refine .one (.velocity v) trivial ?_
            have hu := finish_u hq
            cases w; cases hu; exact hq
        have := hp.trans (.features fun j => { (here s1).fea j with c := known (s1.fsm.slots j).coord })
        cases h1
        exact this
      | image t =>
        obtain ⟨l, x, P, -, -, hb, he⟩ := C102_image I order cfg F fcfg gate R u mem mem' fuel _ _ h1
        rw [← hsfv] at hb
        have hb' : Steps fcfg gate R u [] (here s) s.cov x P := .matches hb
        split_ifs at he
        · have := hb'.trans .zero
          rw [← he] at this
          exact this
        · cases he; exact hb'
      | reset i t => exact absurd List.mem_cons_self (hf i t)
    have := key.trans ih'
    refine this.less ?_
    rw [List.filterMap_cons]
    cases ofInput e <;> simp

/-! ## Non-vacuity -/

/-- If no feature can be in frame with what the filter knows of the past, no visit gets as far as the filter. -/
lemma scan_dark {cfg : Cfg} {env : Env MLP (World n nCam nPose) (Cov n nCam nPose) n nCam} {w : World n nCam nPose} (hd : ∀ s i c, s.w = w → env.inPrev s i c = false) :
    ∀ (fuel : ℕ) (s s' : FSt n nCam nPose) (b : Bool), Img.scan cfg env fuel s = some (s', b) → s.w = w → (∀ v ∈ s.log, Reached v = false) →
      b = false ∧ ∀ v ∈ s'.log, Reached v = false := by
  intro fuel
  induction fuel with
  | zero => intro s s' b h; cases h
  | succ fuel ih =>
    intro s s' b h hw hl
    rw [Img.scan] at h
    split at h
    · rename_i hid
      split at h
      · split at h
        · cases h
        · rename_i c hc
          have he := enter_same s ⟨s.id, hid⟩
          have hp : probe cfg env (s.enter ⟨s.id, hid⟩) ⟨s.id, hid⟩ c = .inr .notInFrame := by
            unfold probe
            rw [if_pos (hd _ _ _ (he.1.trans hw))]
          rw [hp] at h
          dsimp only at h
          have ha := advance_same (cfg := cfg) ((s.enter ⟨s.id, hid⟩).setStatus ⟨s.id, hid⟩ c .notInFrame)
          refine ih _ _ _ h (ha.1.trans (he.1.trans hw)) ?_
          rw [ha.2.2]
          intro v hv
          rcases List.mem_append.mp hv with hv | hv
          · rw [he.2.2] at hv; exact hl v hv
          · rw [List.mem_singleton] at hv; subst hv; rfl
      · have ha := advance_same (cfg := cfg) s
        exact ih _ _ _ h (ha.1.trans hw) (by rw [ha.2.2]; exact hl)
    · cases h; exact ⟨rfl, hl⟩

lemma inFrame_empty {e : ImgPixel.Env} {c : FC} {wb : Bool} {v : FC × Bool} (h : ImgPixel.inFrame e [] c wb = some v) : v.2 = false := by
  unfold ImgPixel.inFrame MLP.isMultilevelPatchInFrame at h
  split at h
  · cases h; rfl
  · simp only [Option.bind_eq_bind, Option.pure_def] at h
    obtain ⟨⟨_, b⟩, -, h⟩ := Option.bind_eq_some_iff.mp h
    dsimp only at h
    split at h
    · cases h; rfl
    · obtain ⟨_, -, h⟩ := Option.bind_eq_some_iff.mp h
      simp at h

/-- The three features of a filter that has no previous image are in use, an image comes, none is found: it is processed, and a platform at 7 m/s keeps its velocity and the
covariance of the platform and of the features that survive stays. -/
example (F : Full 3 2 1) (C : Fin 2 → Camera) (f : V3 → Nor) (g : V2 → Nor) (fcfg : FCfg 3 2 1) (gate : Gate 2) (R : Matrix (Fin 2) (Fin 2) ℝ) (u : PoseUpd 1)
    (x : State 3 2 1) (P : Cov 3 2 1) (q : MLP) (m : Mem) :
    ∃ fuel r, imageUpdate AddArgs.listUSet (fun S => (List.finRange 3).filter (· ∈ S)) (zvCfg false)
        (((demoFull F C f g).withFilter fcfg gate R u).env (fun _ => m) (fun _ _ => m)) fuel { demoFSt { x with vel := ⟨7, 0, 0⟩ } (fun _ => []) P q with t := 6 } = some r ∧
      r.w.x.vel = ⟨7, 0, 0⟩ ∧ r.cov (.vel 0) (.pos 1) = P (.vel 0) (.pos 1) := by
  obtain ⟨fuel, r, hr⟩ := demo_life F C f g fcfg gate R u false m _ (demoFSt_wf { x with vel := ⟨7, 0, 0⟩ } (fun _ => []) P q 6)
  have hdark : ∀ v ∈ r.log, Reached v = false := by
    have h := hr
    unfold imageUpdate at h
    simp only [Option.bind_eq_bind] at h
    obtain ⟨s1, h1, h2⟩ := Option.bind_eq_some_iff.mp h
    clear h
    obtain ⟨s2, ⟨-, h3⟩, rfl⟩ := (post_by (x₀ := here s1) (P₀ := s1.cov) [] s1.log).common h2 ⟨.start, rfl⟩
    rw [(zeroVelocity_timers _ _ _).2.2]
    show ∀ v ∈ s2.log, _
    rw [h3]
    obtain ⟨c1, c2, c3, c4⟩ := commonPre_same (cfg := zvCfg false) (env := ((demoFull F C f g).withFilter fcfg gate R u).env (fun _ => m) (fun _ _ => m))
      { demoFSt { x with vel := ⟨7, 0, 0⟩ } (fun _ => []) P q with t := 6, log := [] }
    rw [show 3 * 2 + 1 = 6 + 1 from rfl, Img.loop] at h1
    have hin : ∀ (s : FSt 3 2 1) i c, s.w = (demoFSt { x with vel := ⟨7, 0, 0⟩ } (fun _ => []) P q).w →
        (((demoFull F C f g).withFilter fcfg gate R u).env (fun _ => m) (fun _ _ => m)).inPrev s i c = false := by
      intro s i c hw
      show ((((demoFull F C f g).withFilter fcfg gate R u).tested m s i c).map Prod.snd).getD false = false
      cases hc : ((demoFull F C f g).withFilter fcfg gate R u).tested m s i c with
      | none => rfl
      | some v =>
        unfold Full.tested at hc
        simp only [Option.bind_eq_bind] at hc
        obtain ⟨a, -, hc1⟩ := Option.bind_eq_some_iff.mp hc
        obtain ⟨k, -, hc2⟩ := Option.bind_eq_some_iff.mp hc1
        rw [hw] at hc2
        exact inFrame_empty hc2
    split at h1
    · cases h1
    · rename_i s3 hs
      cases h1
      exact (scan_dark hin _ _ _ _ hs c1 (by rw [c3]; simp)).2
    · rename_i s3 hs
      have := (scan_dark hin _ _ _ _ hs c1 (by rw [c3]; simp)).1
      cases this
  obtain ⟨h1, h2, h3⟩ := C102_blind AddArgs.listUSet AddArgs.listUSet_lawful (fun S => (List.finRange 3).filter (· ∈ S)) (by simp) (zvCfg false) (demoFull F C f g) fcfg gate R u
    (fun _ => m) (fun _ _ => m)
    (fun s c => ⟨by simp [Full.detect, demoFull], by simp [Full.detect, demoFull], by simp [Full.detect, demoFull], by simp [Full.detect, demoFull]; norm_num,
      by simp [Full.detect, demoFull]; norm_num⟩) fuel _ r
    (fun i _ => by simp only [demoFSt]; exact_mod_cast i.isLt) hr hdark (by rintro ⟨h, -⟩; simp [zvCfg] at h)
  refine ⟨fuel, r, hr, ?_, h3 _ _ trivial trivial⟩
  rw [h1]; rfl

/-- A filter with three features in use and previous images gets an IMU measurement and an image: the life is defined and a run of the filter with an arbitrary image
processing. -/
example (F : Full 3 2 1) (C : Fin 2 → Camera) (g : V2 → Nor) (fcfg : FCfg 3 2 1) (gate : Gate 2) (R : Matrix (Fin 2) (Fin 2) ℝ) (u : PoseUpd 1)
    (x : State 3 2 1) (prev : Fin 2 → List Level) (P : Cov 3 2 1) (q : MLP) (m : Mem) (mm : ImuMeas) :
    ∃ fuel r, life AddArgs.listUSet (fun S => (List.finRange 3).filter (· ∈ S)) (zvCfg true) (demoFull { F with sfv := fcfg.sfv } C fcfg.sfv g) fcfg gate R u
        (fun _ => m) (fun _ _ => m) fuel [.imu mm 0.01, .image 6] (demoFSt x prev P q) = some r ∧
      ∃ steps : List (Step 3 2 1), Rovio.FSt.run fcfg ⟨here (demoFSt x prev P q), P, u⟩ steps = some ⟨here r, r.cov, u⟩ ∧ (∀ e ∈ steps, FromPixels gate R e) ∧
        (steps.filterMap ofStep).Sublist [.inl (mm, 0.01)] := by
  obtain ⟨s1, h1, hs1⟩ : ∃ s1, step AddArgs.listUSet (fun S => (List.finRange 3).filter (· ∈ S)) (zvCfg true)
      ((demoFull { F with sfv := fcfg.sfv } C fcfg.sfv g).withFilter fcfg gate R u) (fun _ => m) (fun _ _ => m) 0 (demoFSt x prev P q)
        (Input.happening fcfg u (.imu mm 0.01)) = some s1 ∧ WellFormed { s1 with t := 6 } := by
    have := demoFSt_wf x prev P q 6
    exact ⟨_, rfl, this⟩
  obtain ⟨fuel, r, hr⟩ := demo_life { F with sfv := fcfg.sfv } C fcfg.sfv g fcfg gate R u true m { s1 with t := 6 } hs1
  have hl : life AddArgs.listUSet (fun S => (List.finRange 3).filter (· ∈ S)) (zvCfg true) (demoFull { F with sfv := fcfg.sfv } C fcfg.sfv g) fcfg gate R u
        (fun _ => m) (fun _ _ => m) fuel [.imu mm 0.01, .image 6] (demoFSt x prev P q) = some r := by
    unfold life run
    simp only [List.map_cons, List.map_nil, List.foldlM_cons, Option.bind_eq_bind]
    rw [show step AddArgs.listUSet (fun S => (List.finRange 3).filter (· ∈ S)) (zvCfg true)
      ((demoFull { F with sfv := fcfg.sfv } C fcfg.sfv g).withFilter fcfg gate R u) (fun _ => m) (fun _ _ => m) fuel (demoFSt x prev P q)
        (Input.happening fcfg u (.imu mm 0.01)) = some s1 from h1]
    show (imageUpdate _ _ _ _ fuel { s1 with t := 6 }).bind _ = _
    rw [hr]
    rfl
  exact ⟨fuel, r, hl, C102_life _ _ _ _ fcfg rfl gate R u _ _ fuel _ (by intro i t h; simp at h) _ r hl⟩

end Rovio.ImgFull
