import Verif.Lemmas.ImgSees
import Verif.Props.Brightness
import Verif.Props.Gauge
import Verif.Props.Unseen

/-!
# Property C100: image processing sees features and camera mounting only; C95 and C97 from pixels

The image update is given to the Kalman update (`Model/ImgEkf.lean`), so that the whole filter runs from pixels to estimate and covariance.  Detection, matching, the
decisions on features and the correction of features and mounting depend on the features, the mounting of the cameras and their covariance only.  Hence the choice of
the world frame (C95) and the uncertainty of position and heading (C97) have no influence on image processing either.
-/

namespace Rovio.ImgFull

open Rovio.Spec Rovio.Img

variable {n nCam nPose : ℕ} {RX : State n nCam nPose → State n nCam nPose → Prop} {RP : Cov n nCam nPose → Cov n nCam nPose → Prop}

/-- The same correspondence with patches that agree in all that was written to them. -/
def seenRels (p l : ℕ) (RX : State n nCam nPose → State n nCam nPose → Prop) (RP : Cov n nCam nPose → Cov n nCam nPose → Prop) :
    Rels MLP (World n nCam nPose) (Cov n nCam nPose) nCam := { unnoticedRels RX RP with patch := SameMLP p l }

lemma sameMLP_trans {p l : ℕ} {a b c : MLP} (h1 : SameMLP p l a b) (h2 : SameMLP p l b c) : SameMLP p l a c := by
  refine ⟨fun i hi => by rw [h1.valid i hi, h2.valid i hi], fun i hi => ?_, by rw [h1.H, h2.H], by rw [h1.e0, h2.e0], by rw [h1.e1, h2.e1], by rw [h1.s, h2.s]⟩
  have q1 := h1.patches i hi
  have q2 := h2.patches i hi
  have v : (a.patches i).validGradient = true → (b.patches i).validGradient = true := fun h => q1.validGradient ▸ h
  exact ⟨fun k hk => by rw [q1.patch k hk, q2.patch k hk], fun k hk => by rw [q1.border k hk, q2.border k hk], by rw [q1.validGradient, q2.validGradient],
    fun h k hk => by rw [q1.dx h k hk, q2.dx (v h) k hk], fun h k hk => by rw [q1.dy h k hk, q2.dy (v h) k hk],
    fun h => by rw [q1.H h, q2.H (v h)], fun h => by rw [q1.s h, q2.s (v h)], fun h => by rw [q1.e0 h, q2.e0 (v h)], fun h => by rw [q1.e1 h, q2.e1 (v h)]⟩

lemma seen_trans {p l : ℕ} {a b c d : FSt n nCam nPose} (h1 : SameBy (SameMLP p l) a b) (h2 : SimBy (unnoticedRels RX RP) b c)
    (h3 : SameBy (SameMLP p l) c d) : SimBy (seenRels p l RX RP) a d := by
  refine ⟨by rw [h1.w, ← h3.w]; exact h2.w, by rw [h1.cov, ← h3.cov]; exact h2.cov, ⟨fun i => ⟨?_, ?_, ?_, fun hv => ?_⟩, ?_⟩,
    fun i => ?_, ?_, ?_, ?_, ?_, ?_, ?_, ?_, ?_⟩
  · rw [(h1.fsm.slots i).valid, (h2.fsm.slots i).valid, (h3.fsm.slots i).valid]
  · rw [(h1.fsm.slots i).idx, (h2.fsm.slots i).idx, (h3.fsm.slots i).idx]
  · rw [(h1.fsm.slots i).coord, (h2.fsm.slots i).coord, (h3.fsm.slots i).coord]
  · have v2 : (b.fsm.slots i).valid = true := by rw [← (h1.fsm.slots i).valid]; exact hv
    have v3 : (c.fsm.slots i).valid = true := by rw [← (h2.fsm.slots i).valid]; exact v2
    have e : (b.fsm.slots i).patch = (c.fsm.slots i).patch := (h2.fsm.slots i).patch v2
    exact sameMLP_trans ((h1.fsm.slots i).patch hv) (e ▸ (h3.fsm.slots i).patch v3)
  · rw [h1.fsm.maxIdx, h2.fsm.maxIdx, h3.fsm.maxIdx]
  · have : b.ext i = c.ext i := h2.ext i
    show a.ext i = d.ext i
    rw [h1.ext, this, h3.ext]
  · rw [h1.meas, h2.meas, h3.meas]
  · rw [h1.id, h2.id, h3.id]
  · rw [h1.cam, h2.cam, h3.cam]
  · show a.t = d.t
    have : b.t = c.t := h2.t
    rw [h1.t, this, h3.t]
  · rw [h1.imageCounter, h2.imageCounter, h3.imageCounter]
  · rw [h1.sinceImage, h2.sinceImage, h3.sinceImage]
  · rw [h1.sinceInertial, h2.sinceInertial, h3.sinceInertial]
  · rw [h1.log, h2.log, h3.log]

/-- The second filter with the patches of the first. -/
def withPatches (a b : FSt n nCam nPose) : FSt n nCam nPose :=
  { b with fsm := { b.fsm with slots := fun i => { b.fsm.slots i with patch := (a.fsm.slots i).patch } } }

lemma seen_split {p l : ℕ} {a b : FSt n nCam nPose} (h : SimBy (seenRels p l RX RP) a b) :
    SimBy (unnoticedRels RX RP) a (withPatches a b) ∧ SameBy (SameMLP p l) (withPatches a b) b := by
  refine ⟨⟨h.w, h.cov, ⟨fun i => ⟨(h.fsm.slots i).valid, (h.fsm.slots i).idx, (h.fsm.slots i).coord, fun _ => rfl⟩, h.fsm.maxIdx⟩, h.ext, h.meas, h.id, h.cam, h.t,
      h.imageCounter, h.sinceImage, h.sinceInertial, h.log⟩, ⟨rfl, rfl, ⟨fun i => ⟨rfl, rfl, rfl, fun hv => ?_⟩, rfl⟩, rfl, rfl, rfl, rfl, rfl, rfl, rfl, rfl, rfl⟩⟩
  exact (h.fsm.slots i).patch ((h.fsm.slots i).valid.trans hv)

lemma image_seen {ve : Bool} {OC : Matrix (Fin 3) (Fin 3) ℝ → Prop} (hU : Unnoticed ve OC RX RP) (I : USet) (hI : I.Lawful) (order : Finset (Fin n) → List (Fin n)) (ho : ∀ S, ∀ i ∈ order S, i ∈ S) (cfg : Cfg)
    (hst : -1 ≤ cfg.minAbsST) (F : Full n nCam nPose) (hp : Even F.base.p) (hmc : ∀ c, (F.mc.cams c).WF) (hC : InitOk OC F.C) (hL : UpdateKeeps RX RP F.lwf)
    (hZ : cfg.zeroVelocity = true → StepKeeps RX RP F.zvu F.zvu)
    (mem mem' : FSt n nCam nPose → Mem) (k k' : ℝ → Slot MLP → Mem) (fuel : ℕ) (a b : FSt n nCam nPose)
    (h : SimBy (seenRels F.base.p F.base.start RX RP) a b) :
    Both (SimBy (seenRels F.base.p F.base.start RX RP)) (imageUpdate I order cfg (F.env mem k) fuel a) (imageUpdate I order cfg (F.env mem' k') fuel b) := by
  obtain ⟨hs1, hs2⟩ := seen_split h
  have h1 := C94_image I hI order ho cfg hst F hp hmc mem (fun _ => mem a) k (fun _ _ => mem a) fuel a a (sameBy_refl _ _ a)
  have h2 : Both (SimBy (unnoticedRels RX RP)) (imageUpdate I order cfg (F.env (fun _ => mem a) fun _ _ => mem a) fuel a)
      (imageUpdate I order cfg (F.env (fun _ => mem a) fun _ _ => mem a) fuel (withPatches a b)) := by
    by_cases hz : cfg.zeroVelocity = true
    · exact sim_imageUpdate (cfg := cfg) unnoticed_ok (env_unnoticed hU hC hL (hZ hz) (mem a)) I order ho (.inr fun _ _ h => h) fuel (.inl ⟨hI, hst⟩) hs1
    · have e : ({ F with zvu := fun x P => (x, P) } : Full n nCam nPose).env (fun _ => mem a) (fun _ _ => mem a) =
          { F.env (fun _ => mem a) (fun _ _ => mem a) with zvu := (({ F with zvu := fun x P => (x, P) } : Full n nCam nPose).env (fun _ => mem a) (fun _ _ => mem a)).zvu } := rfl
      have h2 := sim_imageUpdate (cfg := cfg) unnoticed_ok (env_unnoticed (F := { F with zvu := fun x P => (x, P) }) hU hC hL (fun _ _ _ _ hx hP => ⟨hx, hP⟩) (mem a)) I order ho
        (.inr fun _ _ h => h) fuel (.inl ⟨hI, hst⟩) hs1
      rw [e] at h2
      have hz' : cfg.zeroVelocity = false := by simpa using hz
      have e1 := fun s => imageUpdate_zvu (env := F.env (fun _ => mem a) (fun _ _ => mem a))
        (({ F with zvu := fun x P => (x, P) } : Full n nCam nPose).env (fun _ => mem a) (fun _ _ => mem a)).zvu hz' I order fuel s
      rw [e1 a, e1 (withPatches a b)] at h2
      exact h2
  have h3 := C94_image I hI order ho cfg hst F hp hmc (fun _ => mem a) mem' (fun _ _ => mem a) k' fuel (withPatches a b) b hs2
  generalize imageUpdate I order cfg (F.env mem k) fuel a = r1 at h1 ⊢
  generalize imageUpdate I order cfg (F.env (fun _ => mem a) fun _ _ => mem a) fuel a = r2 at h1 h2
  generalize imageUpdate I order cfg (F.env (fun _ => mem a) fun _ _ => mem a) fuel (withPatches a b) = r3 at h2 h3
  generalize imageUpdate I order cfg (F.env mem' k') fuel b = r4 at h3 ⊢
  cases h1 with
  | none => cases h2; cases h3; exact .none
  | some h1 =>
    cases h2 with
    | some h2 => cases h3 with
      | some h3 => exact .some (seen_trans h1 h2 h3)

/-- Happenings that correspond. -/
inductive KeptHappening (RX : State n nCam nPose → State n nCam nPose → Prop) (RP : Cov n nCam nPose → Cov n nCam nPose → Prop) (p l : ℕ) :
    Happening n nCam nPose → Happening n nCam nPose → Prop
  | filter (g g') (dt) (mo mo') (hg : StepKeeps RX RP g g') (hm : ∀ x y, RX x y → mo x = mo' y) : KeptHappening RX RP p l (.filter g dt mo) (.filter g' dt mo')
  | image (t) : KeptHappening RX RP p l (.image t) (.image t)
  | reset (i i') (t) (hi : SimBy (seenRels p l RX RP) i i') (hv : ∀ k, i.valid k = false) : KeptHappening RX RP p l (.reset i t) (.reset i' t)

lemma run_seen {ve : Bool} {OC : Matrix (Fin 3) (Fin 3) ℝ → Prop} (hU : Unnoticed ve OC RX RP) (I : USet) (hI : I.Lawful) (order : Finset (Fin n) → List (Fin n)) (ho : ∀ S, ∀ i ∈ order S, i ∈ S) (cfg : Cfg)
    (hst : -1 ≤ cfg.minAbsST) (F : Full n nCam nPose) (hp : Even F.base.p) (hmc : ∀ c, (F.mc.cams c).WF) (hC : InitOk OC F.C) (hL : UpdateKeeps RX RP F.lwf)
    (hZ : cfg.zeroVelocity = true → StepKeeps RX RP F.zvu F.zvu) (mem mem' : FSt n nCam nPose → Mem) (k k' : ℝ → Slot MLP → Mem) (fuel : ℕ)
    {es es' : List (Happening n nCam nPose)} (hes : List.Forall₂ (KeptHappening RX RP F.base.p F.base.start) es es') :
    ∀ a b : FSt n nCam nPose, SimBy (seenRels F.base.p F.base.start RX RP) a b →
    Both (SimBy (seenRels F.base.p F.base.start RX RP)) (run I order cfg F mem k fuel es a) (run I order cfg F mem' k' fuel es' b) := by
  induction hes with
  | nil => exact fun a b h => .some h
  | @cons e e' es es' he _ ih =>
    intro a b h
    unfold run
    rw [List.foldlM_cons, List.foldlM_cons]
    have hstep : Both (SimBy (seenRels F.base.p F.base.start RX RP)) (step I order cfg F mem k fuel a e) (step I order cfg F mem' k' fuel b e') := by
      cases he with
      | filter g g' dt mo mo' hg hm =>
        simp only [step]
        have hh : RX (here a) (here (withPatches a b)) := here_unnoticed hU (seen_split h).1
        change RX (here a) (here b) at hh
        have hk := hg _ _ _ _ hh h.cov
        have hf : (g' (here b) b.cov).1.fea = (g (here a) a.cov).1.fea := (hU.scene _ _ hk.1).fea.symm
        rw [hf, ← hm _ _ hh]
        exact .some (sim_predict h dt (congrArg (· + dt) h.t) _ (w := { x := (g (here a) a.cov).1, prev := a.w.prev, cJ := a.w.cJ })
          (w' := { x := (g' (here b) b.cov).1, prev := b.w.prev, cJ := b.w.cJ }) ⟨hk.1, h.w.2.1, h.w.2.2⟩ hk.2 _)
      | image t =>
        refine image_seen hU I hI order ho cfg hst F hp hmc hC hL hZ mem mem' k k' fuel _ _ ?_
        exact ⟨h.w, h.cov, h.fsm, h.ext, h.meas, h.id, h.cam, rfl, h.imageCounter, h.sinceImage, h.sinceInertial, h.log⟩
      | reset i i' t hi hv =>
        refine .some ⟨hi.w, hi.cov, ⟨fun j => ⟨(hi.fsm.slots j).valid, (hi.fsm.slots j).idx, (hi.fsm.slots j).coord, fun hj => ?_⟩, hi.fsm.maxIdx⟩, hi.ext, hi.meas,
          hi.id, hi.cam, rfl, hi.imageCounter, hi.sinceImage, hi.sinceInertial, hi.log⟩
        have : i.valid j = true := hj
        rw [hv j] at this
        simp at this
    exact hstep.bind fun x y hxy => ih x y hxy

lemma seenAlike_iff {p l : ℕ} {a b : FSt n nCam nPose} : SeenAlike p l a b ↔ ∃ ve, a.w.x.aux.doVE = ve ∧ SimBy (seenRels p l (SceneX ve) (SameSceneCov ve)) a b := by
  constructor
  · rintro ⟨h1, h2, h⟩
    have e : ({ a.w with x := b.w.x } : World n nCam nPose) = b.w := h.w
    exact ⟨_, rfl, ⟨⟨h1, h1.doVE.symm⟩, by rw [← e], by rw [← e]⟩, h2, h.fsm, fun i => congrFun h.ext i, h.meas, h.id, h.cam, h.t, h.imageCounter, h.sinceImage, h.sinceInertial, h.log⟩
  · rintro ⟨ve, rfl, h⟩
    obtain ⟨h1, h2, h3⟩ := h.w
    refine ⟨h1.1, h.cov, ⟨?_, rfl, h.fsm, funext h.ext, h.meas, h.id, h.cam, h.t, h.imageCounter, h.sinceImage, h.sinceInertial, h.log⟩⟩
    show ({ a.w with x := b.w.x } : World n nCam nPose) = b.w
    dsimp only
    rw [h2, h3]

lemma moved_iff {p l : ℕ} {g : Shift} {a b : FSt n nCam nPose} : SimBy (seenRels p l (MovedX g) (MovedP g)) a b ↔ SameBy (SameMLP p l) (g.filter a) b := by
  constructor
  · intro h
    obtain ⟨h1, h2, h3⟩ := h.w
    refine ⟨?_, h.cov.symm, h.fsm, funext h.ext, h.meas, h.id, h.cam, h.t, h.imageCounter, h.sinceImage, h.sinceInertial, h.log⟩
    show ({ a.w with x := g.state a.w.x } : World n nCam nPose) = b.w
    dsimp only
    rw [← show b.w.x = g.state a.w.x from h1, h2, h3]
  · intro h
    have e : ({ a.w with x := g.state a.w.x } : World n nCam nPose) = b.w := h.w
    exact ⟨⟨by rw [← e]; rfl, by rw [← e], by rw [← e]⟩, h.cov.symm, h.fsm, fun i => congrFun h.ext i, h.meas, h.id, h.cam, h.t, h.imageCounter, h.sinceImage, h.sinceInertial, h.log⟩

/-! ### C100 -/

/-- **C100.** Two filters that agree in features (patches, statistics, matches, coordinates, distances), the mounting of the cameras and the covariance of these, whatever
else they estimate, with whatever uncertainty and correlations, process the same images: position, attitude, velocity, biases and additional poses may all be
different.  Then either both runs are undefined or they agree again in all of that: which features were matched, accepted, updated, removed and added, and how.
(Without zero-velocity updates, whose purpose is to use the velocity.) -/
theorem C100_image (I : USet) (hI : I.Lawful) (order : Finset (Fin n) → List (Fin n)) (ho : ∀ S, ∀ i ∈ order S, i ∈ S) (cfg : Cfg)
    (hst : -1 ≤ cfg.minAbsST) (hz : cfg.zeroVelocity = false) (F : Full n nCam nPose) (hp : Even F.base.p) (hmc : ∀ c, (F.mc.cams c).WF) (fcfg : FCfg n nCam nPose)
    (gate : Gate 2) (R : Matrix (Fin 2) (Fin 2) ℝ) (u : PoseUpd nPose) (mem mem' : FSt n nCam nPose → Mem) (k k' : ℝ → Slot MLP → Mem) (fuel : ℕ)
    (a b : FSt n nCam nPose) (h : SeenAlike F.base.p F.base.start a b) :
    Both (SeenAlike F.base.p F.base.start) (imageUpdate I order cfg ((F.withFilter fcfg gate R u).env mem k) fuel a)
      (imageUpdate I order cfg ((F.withFilter fcfg gate R u).env mem' k') fuel b) := by
  obtain ⟨ve, -, h⟩ := seenAlike_iff.1 h
  have := image_seen (unnoticed_scene ve) I hI order ho cfg hst (F.withFilter fcfg gate R u) hp hmc (initOk_true _) (ekf_keeps (unnoticed_scene ve) (scene_finish ve gate R u))
    (fun h => by rw [hz] at h; simp at h) mem mem' k k' fuel a b h
  exact this.mono fun _ _ h => seenAlike_iff.2 ⟨ve, h.w.1.1.doVE.trans h.w.1.2, h⟩

/-- **C100, any number of images.** -/
theorem C100_images (I : USet) (hI : I.Lawful) (order : Finset (Fin n) → List (Fin n)) (ho : ∀ S, ∀ i ∈ order S, i ∈ S) (cfg : Cfg)
    (hst : -1 ≤ cfg.minAbsST) (hz : cfg.zeroVelocity = false) (F : Full n nCam nPose) (hp : Even F.base.p) (hmc : ∀ c, (F.mc.cams c).WF) (fcfg : FCfg n nCam nPose)
    (gate : Gate 2) (R : Matrix (Fin 2) (Fin 2) ℝ) (u : PoseUpd nPose) (mem mem' : FSt n nCam nPose → Mem) (k k' : ℝ → Slot MLP → Mem) (fuel : ℕ)
    (times : List ℝ) (a b : FSt n nCam nPose) (h : SeenAlike F.base.p F.base.start a b) :
    Both (SeenAlike F.base.p F.base.start) (life I order cfg F fcfg gate R u mem k fuel (times.map .image) a)
      (life I order cfg F fcfg gate R u mem' k' fuel (times.map .image) b) := by
  obtain ⟨ve, -, h⟩ := seenAlike_iff.1 h
  have := run_seen (unnoticed_scene ve) I hI order ho cfg hst (F.withFilter fcfg gate R u) hp hmc (initOk_true _) (ekf_keeps (unnoticed_scene ve) (scene_finish ve gate R u))
    (fun h => by rw [hz] at h; simp at h) mem mem' k k' fuel (es := (times.map .image).map (Input.happening fcfg u)) (es' := (times.map .image).map (Input.happening fcfg u))
    (by
      rw [List.map_map]
      refine List.forall₂_same.2 fun x hx => ?_
      obtain ⟨t, -, rfl⟩ := List.mem_map.1 hx
      exact .image t) a b h
  exact this.mono fun _ _ h => seenAlike_iff.2 ⟨ve, h.w.1.1.doVE.trans h.w.1.2, h⟩

/-! ### C95 from pixels -/

lemma motion_moved {g : Shift} (hg : g.Upright) (cfg : PredCfg) (m : ImuMeas) (dt : ℝ) (x : State n nCam nPose) :
    (((g.state x).evalPrediction cfg m true (g.state x) (DState.ofFn 0) dt).getD (g.state x)).detectInertialMotion cfg m =
      ((x.evalPrediction cfg m true x (DState.ofFn 0) dt).getD x).detectInertialMotion cfg m := by
  have key : ∀ y : State n nCam nPose, (g.state y).detectInertialMotion cfg m = y.detectInertialMotion cfg m := by
    intro y
    have e : (g.state y).att.inv.rotate gravity = y.att.inv.rotate gravity := Shift.att_gravity hg _
    unfold State.detectInertialMotion
    simp only [e]
    rfl
  rw [Shift.evalPrediction_state hg]
  cases x.evalPrediction cfg m true x (DState.ofFn 0) dt with
  | none => exact key x
  | some y => exact key y

/-- **C95, from pixels.** The whole filter, from IMU measurements, velocities and images to estimate and covariance, in any order and number, with resets: started in another
world frame (and reset to states in that frame), either both runs are undefined or it ends in the same state seen from that frame; patches, statistics, matches and
features are the same. -/
theorem C95_pixels (I : USet) (hI : I.Lawful) (order : Finset (Fin n) → List (Fin n)) (ho : ∀ S, ∀ i ∈ order S, i ∈ S) (cfg : Cfg)
    (hst : -1 ≤ cfg.minAbsST) (F : Full n nCam nPose) (hp : Even F.base.p) (hmc : ∀ c, (F.mc.cams c).WF) (fcfg : FCfg n nCam nPose)
    (hq : fcfg.q (.pos 0) = fcfg.q (.pos 1))
    (gate : Gate 2) (R : Matrix (Fin 2) (Fin 2) ℝ) (u : PoseUpd nPose) (mem mem' : FSt n nCam nPose → Mem) (k k' : ℝ → Slot MLP → Mem) (fuel : ℕ)
    (g : Shift) (hg : g.Upright) (es : List (Input n nCam nPose)) (hf : ∀ init t, Input.reset init t ∈ es → ∀ i, init.valid i = false) (s : FSt n nCam nPose) :
    Both (fun x y => SameBy (SameMLP F.base.p F.base.start) (g.filter x) y) (life I order cfg F fcfg gate R u mem k fuel es s)
      (life I order cfg F fcfg gate R u mem' k' fuel (es.map g.input) (g.filter s)) := by
  have := run_seen (unnoticed_moved g) I hI order ho cfg hst (F.withFilter fcfg gate R u) hp hmc (initOk_true _) (ekf_keeps (unnoticed_moved g) (moved_finish hg gate R u))
    (fun _ => moved_zero hg fcfg u) mem mem' k k' fuel (es := es.map (Input.happening fcfg u)) (es' := (es.map g.input).map (Input.happening fcfg u))
    (by
      rw [List.map_map, List.forall₂_map_left_iff, List.forall₂_map_right_iff]
      refine List.forall₂_same.2 fun e he => ?_
      cases e with
      | imu m dt => exact .filter _ _ _ _ _ (moved_imu hg fcfg hq u m dt) fun x y hxy => by rw [show y = g.state x from hxy]; exact (motion_moved hg _ _ _ _).symm
      | velocity v => exact .filter _ _ _ _ _ (moved_velocity hg fcfg u v) fun _ _ _ => rfl
      | image t => exact .image t
      | reset i t => exact .reset _ _ _ (moved_iff.2 (sameBy_refl _ _ _)) (hf i t he))
    s (g.filter s) (moved_iff.2 (sameBy_refl _ _ _))
  exact this.mono fun _ _ h => moved_iff.1 h

/-! ### C97 from pixels -/

/-- **C97, from pixels.** The whole filter with additional uncertainty about position and heading (the columns of `L`) at the start: either both runs are undefined or all
estimates, features, statistics and matches are the same, and at the end that uncertainty is still there, unreduced: the heading uncertainty as it was, that of the
position displaced by the way travelled. -/
theorem C97_pixels {m : ℕ} (I : USet) (hI : I.Lawful) (order : Finset (Fin n) → List (Fin n)) (ho : ∀ S, ∀ i ∈ order S, i ∈ S) (cfg : Cfg)
    (hst : -1 ≤ cfg.minAbsST) (F : Full n nCam nPose) (hp : Even F.base.p) (hmc : ∀ c, (F.mc.cams c).WF) (fcfg : FCfg n nCam nPose)
    (gate : Gate 2) (R : Matrix (Fin 2) (Fin 2) ℝ) (u : PoseUpd nPose) (mem mem' : FSt n nCam nPose → Mem) (k k' : ℝ → Slot MLP → Mem) (fuel : ℕ)
    (es : List (Input n nCam nPose)) (hf : ∀ init t, Input.reset init t ∉ es) (L : Matrix (Ix n nCam nPose) (Fin m) ℝ) (s : FSt n nCam nPose) (Q : Cov n nCam nPose)
    (hQ : Wider L s.cov Q) :
    Both (fun x y => SameBy (SameMLP F.base.p F.base.start) { x with cov := y.cov } y ∧ Wider L x.cov y.cov) (life I order cfg F fcfg gate R u mem k fuel es s)
      (life I order cfg F fcfg gate R u mem' k' fuel es { s with cov := Q }) := by
  have hs : ∀ x y : FSt n nCam nPose, SimBy (seenRels F.base.p F.base.start Eq (Wider L)) x y ↔
      SameBy (SameMLP F.base.p F.base.start) { x with cov := y.cov } y ∧ Wider L x.cov y.cov := by
    intro x y
    constructor
    · intro h
      refine ⟨⟨?_, rfl, h.fsm, funext h.ext, h.meas, h.id, h.cam, h.t, h.imageCounter, h.sinceImage, h.sinceInertial, h.log⟩, h.cov⟩
      obtain ⟨h1, h2, h3⟩ := h.w
      show x.w = y.w
      revert h1 h2 h3
      generalize x.w = w
      generalize y.w = w'
      intro h1 h2 h3
      cases w; cases w'
      simp only at h1 h2 h3
      rw [h1, h2, h3]
    · rintro ⟨h, hw⟩
      have e : x.w = y.w := h.w
      exact ⟨⟨by rw [e], by rw [e], by rw [e]⟩, hw, h.fsm, fun i => congrFun h.ext i, h.meas, h.id, h.cam, h.t, h.imageCounter, h.sinceImage, h.sinceInertial, h.log⟩
  have := run_seen (unnoticed_wider L) I hI order ho cfg hst (F.withFilter fcfg gate R u) hp hmc (initOk_true _) (ekf_keeps (unnoticed_wider L) (wider_finish L gate R u))
    (fun _ => wider_zero L fcfg u) mem mem' k k' fuel (es := es.map (Input.happening fcfg u)) (es' := es.map (Input.happening fcfg u))
    (by
      rw [List.forall₂_map_left_iff, List.forall₂_map_right_iff]
      refine List.forall₂_same.2 fun e he => ?_
      cases e with
      | imu m dt => exact .filter _ _ _ _ _ (wider_imu L fcfg u m dt) fun x y hxy => by rw [hxy]
      | velocity v => exact .filter _ _ _ _ _ (wider_velocity L fcfg u v) fun _ _ _ => rfl
      | image t => exact .image t
      | reset i t => exact absurd he (hf i t))
    s { s with cov := Q } ((hs _ _).2 ⟨sameBy_refl _ _ _, hQ⟩)
  exact this.mono fun _ _ h => (hs _ _).1 h

/-! ## Non-vacuity -/

/-- Settings with or without zero-velocity updates. -/
noncomputable def zvCfg (z : Bool) : Cfg := { demoCfg true true with zeroVelocity := z }

/-- Processing of an image by `demoFull` with the Kalman update, whatever the estimate, is defined. -/
lemma demo_life (F : Full 3 2 1) (C : Fin 2 → Camera) (f : V3 → Nor) (g : V2 → Nor) (fcfg : FCfg 3 2 1) (gate : Gate 2) (R : Matrix (Fin 2) (Fin 2) ℝ) (u : PoseUpd 1)
    (z : Bool) (m : Mem) (s : FSt 3 2 1) (hs : WellFormed s) : ∃ fuel r, imageUpdate AddArgs.listUSet (fun S => (List.finRange 3).filter (· ∈ S)) (zvCfg z)
      (((demoFull F C f g).withFilter fcfg gate R u).env (fun _ => m) (fun _ _ => m)) fuel s = some r := by
  obtain ⟨fuel, r, h1, _⟩ := C35_image_update_total AddArgs.listUSet_lawful (demo_order 3) (zvCfg z)
    (((demoFull F C f g).withFilter fcfg gate R u).env (fun _ => m) (fun _ _ => m)) (by norm_num)
    (fun s c => ⟨by simp [Full.env, Full.detect, demoFull, Full.withFilter], by simp [Full.env, Full.detect, demoFull, Full.withFilter],
      by simp [Full.env, Full.detect, demoFull, Full.withFilter],
      by simp [Full.env, Full.detect, demoFull, Full.withFilter]; norm_num, by simp [Full.env, Full.detect, demoFull, Full.withFilter]; norm_num⟩)
    (by simp only [zvCfg, demoCfg]; norm_num) (by simp only [zvCfg, demoCfg]; norm_num) (by simp only [zvCfg, demoCfg]; norm_num)
    (by simp only [zvCfg, demoCfg]; norm_num) (by simp only [zvCfg, demoCfg]; norm_num) (by norm_num) s hs
  exact ⟨fuel, r, h1 fuel le_rfl⟩

lemma demoFSt_wf (x : State 3 2 1) (prev : Fin 2 → List Level) (P : Cov 3 2 1) (q : MLP) (t : ℝ) : WellFormed { demoFSt x prev P q with t := t } :=
  ⟨fun i _ => by simp [demoFSt, demoFC, St.camID], fun i => (demo_wf 3 2 (fun _ => true) (fun _ => 0) (by simp)).2 i⟩

/-- A filter that stands still at the origin and one that is a hundred metres away, moves at 5 m/s and is that unsure about it: both process the image, with the same
effect on the features. -/
example (F : Full 3 2 1) (C : Fin 2 → Camera) (f : V3 → Nor) (g : V2 → Nor) (fcfg : FCfg 3 2 1) (gate : Gate 2) (R : Matrix (Fin 2) (Fin 2) ℝ) (u : PoseUpd 1)
    (x : State 3 2 1) (prev : Fin 2 → List Level) (P : Cov 3 2 1) (q : MLP) (m m' : Mem) :
    ∃ fuel r r', imageUpdate AddArgs.listUSet (fun S => (List.finRange 3).filter (· ∈ S)) (zvCfg false)
        (((demoFull F C f g).withFilter fcfg gate R u).env (fun _ => m) (fun _ _ => m)) fuel (demoFSt { x with pos := 0, vel := 0 } prev P q) = some r ∧
      imageUpdate AddArgs.listUSet (fun S => (List.finRange 3).filter (· ∈ S)) (zvCfg false)
        (((demoFull F C f g).withFilter fcfg gate R u).env (fun _ => m') (fun _ _ => m')) fuel
        (demoFSt { x with pos := ⟨100, 0, 0⟩, vel := ⟨5, 0, 0⟩ } prev (P + Matrix.single (.vel 0) (.vel 0) 25) q) = some r' ∧
      r.w.x.fea = r'.w.x.fea ∧ r.ext = r'.ext ∧ ∀ i, (r.fsm.slots i).coord = (r'.fsm.slots i).coord := by
  have hsame : SeenAlike 8 3 (demoFSt { x with pos := 0, vel := 0 } prev P q)
      (demoFSt { x with pos := ⟨100, 0, 0⟩, vel := ⟨5, 0, 0⟩ } prev (P + Matrix.single (.vel 0) (.vel 0) 25) q) := by
    refine ⟨⟨rfl, rfl, fun _ => rfl, fun _ => rfl⟩, fun a b ha hb => ?_, sameBy_refl _ _ _⟩
    show P a b = ((P + Matrix.single (.vel 0) (.vel 0) 25 : Cov 3 2 1)) a b
    rw [Matrix.add_apply, Matrix.single_apply_of_ne _ _ _ _ _ (by rintro ⟨rfl, -⟩; cases ha), add_zero]
  obtain ⟨fuel, r, hr⟩ := demo_life F C f g fcfg gate R u false m (demoFSt { x with pos := 0, vel := 0 } prev P q) (demoFSt_wf _ prev P q _)
  have h := C100_image AddArgs.listUSet AddArgs.listUSet_lawful (fun S => (List.finRange 3).filter (· ∈ S)) (by simp) (zvCfg false)
    (by simp only [zvCfg, demoCfg]; norm_num) rfl (demoFull F C f g) (by simp only [demoFull]; decide) (fun c => C09_camera_is_wf _ _ _) fcfg gate R u
    (fun _ => m) (fun _ => m') (fun _ _ => m) (fun _ _ => m') fuel _ _ hsame
  rw [hr] at h
  refine ⟨fuel, r, ?_⟩
  generalize imageUpdate AddArgs.listUSet (fun S => (List.finRange 3).filter (· ∈ S)) (zvCfg false)
        (((demoFull F C f g).withFilter fcfg gate R u).env (fun _ => m') (fun _ _ => m')) fuel
        (demoFSt { x with pos := ⟨100, 0, 0⟩, vel := ⟨5, 0, 0⟩ } prev (P + Matrix.single (.vel 0) (.vel 0) 25) q) = l at h
  cases h with
  | some h => exact ⟨_, hr, rfl, h.scene.fea, h.rest.ext, fun i => (h.rest.fsm.slots i).coord⟩

/-- A filter without features. -/
noncomputable def emptyFSt (x : State 3 2 1) (prev : Fin 2 → List Level) (P : Cov 3 2 1) (q : MLP) : FSt 3 2 1 :=
  { demoFSt x prev P q with fsm := ⟨fun i => ⟨false, i.val, demoFC 1, q⟩, 0⟩ }

/-- A reset and an image, with zero-velocity updates enabled, in the world frame turned by a quarter and moved by three metres. -/
example (F : Full 3 2 1) (C : Fin 2 → Camera) (f : V3 → Nor) (g : V2 → Nor) (fcfg : FCfg 3 2 1) (hq : fcfg.q (.pos 0) = fcfg.q (.pos 1)) (gate : Gate 2)
    (R : Matrix (Fin 2) (Fin 2) ℝ) (u : PoseUpd 1) (x y : State 3 2 1) (prev : Fin 2 → List Level) (P : Cov 3 2 1) (q : MLP) (m m' : Mem) :
    ∃ fuel r r', life AddArgs.listUSet (fun S => (List.finRange 3).filter (· ∈ S)) (zvCfg true) (demoFull F C f g) fcfg gate R u
        (fun _ => m) (fun _ _ => m) fuel [.reset (emptyFSt y prev P q) 5, .image 6] (demoFSt x prev P q) = some r ∧
      life AddArgs.listUSet (fun S => (List.finRange 3).filter (· ∈ S)) (zvCfg true) (demoFull F C f g) fcfg gate R u
        (fun _ => m') (fun _ _ => m') fuel [.reset (quarter.filter (emptyFSt y prev P q)) 5, .image 6] (quarter.filter (demoFSt x prev P q)) = some r' ∧
      r'.w.x = quarter.state r.w.x ∧ r'.cov = quarter.cov r.cov ∧ r'.ext = r.ext := by
  obtain ⟨fuel, r, hr⟩ := demo_life F C f g fcfg gate R u true m { (emptyFSt y prev P q).reset (demoFSt x prev P q) 5 with t := 6 }
    ⟨fun i hi => absurd (show false = true from hi) Bool.false_ne_true, fun i => (demo_wf 3 2 (fun _ => true) (fun _ => 0) (by simp)).2 i⟩
  have hl : life AddArgs.listUSet (fun S => (List.finRange 3).filter (· ∈ S)) (zvCfg true) (demoFull F C f g) fcfg gate R u
        (fun _ => m) (fun _ _ => m) fuel [.reset (emptyFSt y prev P q) 5, .image 6] (demoFSt x prev P q) = some r := by
    unfold life run
    simp only [List.map_cons, List.map_nil, Input.happening, List.foldlM_cons, step, Option.bind_eq_bind, Option.bind_some]
    dsimp only at hr
    rw [hr]
    rfl
  have h := C95_pixels AddArgs.listUSet AddArgs.listUSet_lawful (fun S => (List.finRange 3).filter (· ∈ S)) (by simp) (zvCfg true)
    (by simp only [zvCfg, demoCfg]; norm_num) (demoFull F C f g) (by simp only [demoFull]; decide) (fun c => C09_camera_is_wf _ _ _) fcfg hq gate R u
    (fun _ => m) (fun _ => m') (fun _ _ => m) (fun _ _ => m') fuel quarter quarter_upright [.reset (emptyFSt y prev P q) 5, .image 6]
    (by intro init t h i; simp at h; rw [h.1]; rfl) (demoFSt x prev P q)
  rw [hl] at h
  refine ⟨fuel, r, ?_⟩
  simp only [List.map_cons, List.map_nil, Shift.input] at h
  generalize life AddArgs.listUSet (fun S => (List.finRange 3).filter (· ∈ S)) (zvCfg true) (demoFull F C f g) fcfg gate R u
        (fun _ => m') (fun _ _ => m') fuel [.reset (quarter.filter (emptyFSt y prev P q)) 5, .image 6] (quarter.filter (demoFSt x prev P q)) = l at h
  cases h with
  | some h => exact ⟨_, hl, rfl, h.w ▸ rfl, h.cov.symm, h.ext.symm⟩

/-- One metre of additional uncertainty about the first coordinate of the position. -/
def metre : Matrix (Ix 3 2 1) (Fin 1) ℝ := fun a _ => if a = .pos 0 then 1 else 0

lemma metre_wider (P : Cov 3 2 1) : Wider metre P (P + metre * metre.transpose) := by
  refine ⟨0, metre, fun j => ?_, rfl, fun _ => rfl, fun l j => by simp⟩
  exact ⟨rfl, rfl, fun a ha => if_neg (ha 0).1⟩

/-- An image with and without a metre of additional uncertainty: the same estimate. -/
example (F : Full 3 2 1) (C : Fin 2 → Camera) (f : V3 → Nor) (g : V2 → Nor) (fcfg : FCfg 3 2 1) (gate : Gate 2)
    (R : Matrix (Fin 2) (Fin 2) ℝ) (u : PoseUpd 1) (x : State 3 2 1) (prev : Fin 2 → List Level) (P : Cov 3 2 1) (q : MLP) (m m' : Mem) :
    ∃ fuel r r', life AddArgs.listUSet (fun S => (List.finRange 3).filter (· ∈ S)) (zvCfg true) (demoFull F C f g) fcfg gate R u
        (fun _ => m) (fun _ _ => m) fuel [.image 6] (demoFSt x prev P q) = some r ∧
      life AddArgs.listUSet (fun S => (List.finRange 3).filter (· ∈ S)) (zvCfg true) (demoFull F C f g) fcfg gate R u
        (fun _ => m') (fun _ _ => m') fuel [.image 6] (demoFSt x prev (P + metre * metre.transpose) q) = some r' ∧ r'.w = r.w ∧ Wider metre r.cov r'.cov := by
  obtain ⟨fuel, r, hr⟩ := demo_life F C f g fcfg gate R u true m { demoFSt x prev P q with t := 6 } (demoFSt_wf x prev P q 6)
  have hl : life AddArgs.listUSet (fun S => (List.finRange 3).filter (· ∈ S)) (zvCfg true) (demoFull F C f g) fcfg gate R u
        (fun _ => m) (fun _ _ => m) fuel [.image 6] (demoFSt x prev P q) = some r := by
    unfold life run
    simp only [List.map_cons, List.map_nil, Input.happening, List.foldlM_cons, step, Option.bind_eq_bind]
    dsimp only at hr
    rw [hr]
    rfl
  have h := C97_pixels AddArgs.listUSet AddArgs.listUSet_lawful (fun S => (List.finRange 3).filter (· ∈ S)) (by simp) (zvCfg true)
    (by simp only [zvCfg, demoCfg]; norm_num) (demoFull F C f g) (by simp only [demoFull]; decide) (fun c => C09_camera_is_wf _ _ _) fcfg gate R u
    (fun _ => m) (fun _ => m') (fun _ _ => m) (fun _ _ => m') fuel [.image 6] (by simp) metre (demoFSt x prev P q) _ (metre_wider _)
  rw [hl] at h
  refine ⟨fuel, r, ?_⟩
  change Both _ _ (life AddArgs.listUSet (fun S => (List.finRange 3).filter (· ∈ S)) (zvCfg true) (demoFull F C f g) fcfg gate R u
        (fun _ => m') (fun _ _ => m') fuel [.image 6] (demoFSt x prev (P + metre * metre.transpose) q)) at h
  generalize life AddArgs.listUSet (fun S => (List.finRange 3).filter (· ∈ S)) (zvCfg true) (demoFull F C f g) fcfg gate R u
        (fun _ => m') (fun _ _ => m') fuel [.image 6] (demoFSt x prev (P + metre * metre.transpose) q) = l at h
  cases h with
  | some h => exact ⟨_, hl, rfl, h.1.w.symm, h.2⟩

end Rovio.ImgFull
