import Verif.Model.Filter
import Verif.Lemmas.Covariance
import Verif.Lemmas.ImuPrediction
import Verif.Props.FeatureCovariance

/-! # Lemmas about filter runs: everything that only reads the odometry part agrees on states with the same odometry part -/

namespace Rovio

open Matrix Spec Distance

variable {n nCam nPose : ℕ}

/-- A feature without its pixel cache. -/
def Fea.noPix (f : Fea) : Fea := { f with c := f.c.noPixel }

/-- A stored pixel belongs to a bearing in view: the camera can project the bearing. -/
def FC.Proj (c : FC) : Prop := c.validC = true → ∀ cam, c.cam = some cam → (cam.b2p c.nor).isSome

/-- Coordinates with another pixel cache. -/
def FC.setPix (c : FC) (p : V2) (v : Bool) : FC := { c with c := p, validC := v }
/-- A feature with another pixel cache. -/
def Fea.setPix (f : Fea) (p : V2) (v : Bool) : Fea := { f with c := f.c.setPix p v }

section
variable (c : FC) (f : Fea) (p : V2) (v : Bool)
@[simp] lemma Fea.setPix_c : (f.setPix p v).c = f.c.setPix p v := rfl
@[simp] lemma Fea.setPix_d : (f.setPix p v).d = f.d := rfl
@[simp] lemma FC.setPix_cam : (c.setPix p v).cam = c.cam := rfl
@[simp] lemma FC.setPix_camID : (c.setPix p v).camID = c.camID := rfl
@[simp] lemma FC.setPix_nor : (c.setPix p v).nor = c.nor := rfl
@[simp] lemma FC.setPix_validNor : (c.setPix p v).validNor = c.validNor := rfl
@[simp] lemma FC.setPix_validC : (c.setPix p v).validC = v := rfl
@[simp] lemma FC.setPix_track : (c.setPix p v).trackWarping = c.trackWarping := rfl
end

lemma Fea.noPix_eq {f g : Fea} (h : f.noPix = g.noPix) : ∃ p v, g = f.setPix p v := by
  refine ⟨g.c.c, g.c.validC, ?_⟩
  obtain ⟨⟨⟩, _⟩ := f
  obtain ⟨⟨⟩, _⟩ := g
  simp only [Fea.noPix, Fea.setPix, FC.setPix, FC.noPixel, Fea.mk.injEq, FC.mk.injEq] at h ⊢
  simp_all

lemma Fea.noPix_pix (f : Fea) (p : V2) (v : Bool) : (f.setPix p v).noPix = f.noPix := rfl

lemma FC.warp_congr {c : FC} (hv : c.validNor = true) (hp : c.Proj) {p : V2} {v : Bool} (hp' : (c.setPix p v).Proj) :
    c.getWarpNor.map (·.2) = (c.setPix p v).getWarpNor.map (·.2) := by
  unfold FC.setPix at hp' ⊢
  unfold FC.getWarpNor FC.comWarpNor
  by_cases h1 : c.validWarpNor = true
  · simp [h1]
  by_cases h2 : c.validWarpC = true
  swap
  · simp [h1, h2]
  simp only [h1, h2, Bool.false_eq_true, if_false, if_true]
  cases hcam : c.cam with
  | none =>
    cases hc : c.validC <;> cases v <;> simp [FC.comC, FC.comNor, FC.getJ, hcam, hc, hv]
  | some cam =>
    cases hb : cam.b2p c.nor with
    | none =>
      have hc : c.validC = false := by
        by_contra hne
        have := hp (by simpa using hne) cam hcam
        rw [hb] at this
        cases this
      have hv' : v = false := by
        by_contra hne
        have := hp' (by simpa using hne) cam hcam
        simp only [hb] at this
        cases this
      subst hv'
      simp [FC.comC, hcam, hc, hv, hb]
    | some q =>
      cases hc : c.validC <;> cases v <;> cases hj : cam.b2pJ c.nor <;>
        simp [FC.comC, FC.comNor, FC.getJ, FC.getNor, hcam, hc, hv, hb, hj] <;> split_ifs <;> simp

namespace State

/-- The invariant on the estimate: unit quaternions, bearings computed, stored pixels in view. -/
structure Ok (s : State n nCam nPose) : Prop where
  unit : UnitState s
  nor : ∀ i, (s.fea i).c.validNor = true
  proj : ∀ i, (s.fea i).c.Proj

/-- The fields of two states with the same odometry part. -/
structure Same (s t : State n nCam nPose) : Prop where
  pos : s.pos = t.pos
  vel : s.vel = t.vel
  acb : s.acb = t.acb
  gyb : s.gyb = t.gyb
  att : s.att = t.att
  vep : s.vep = t.vep
  vea : s.vea = t.vea
  fea : ∀ i, (s.fea i).noPix = (t.fea i).noPix
  aux : t.aux = { s.aux with poseMeasRot := t.aux.poseMeasRot, poseMeasLin := t.aux.poseMeasLin }

lemma odo_eq_iff {s t : State n nCam nPose} : s.odo = t.odo ↔ Same s t := by
  constructor
  · intro h
    simp only [odo, State.mk.injEq] at h
    obtain ⟨h1, h2, h3, h4, h5, h6, h7, h8, -, -, h9⟩ := h
    refine ⟨h1, h2, h3, h4, h5, h6, h7, fun i => congrFun h8 i, ?_⟩
    cases hs : s.aux
    cases ht : t.aux
    simp only [hs, ht, Aux.mk.injEq] at h9 ⊢
    simp_all
  · rintro ⟨h1, h2, h3, h4, h5, h6, h7, h8, h9⟩
    simp only [odo, State.mk.injEq]
    refine ⟨h1, h2, h3, h4, h5, h6, h7, funext h8, trivial, trivial, ?_⟩
    rw [h9]

namespace Same

variable {s t : State n nCam nPose}

lemma qCM (h : Same s t) : t.qCM = s.qCM := by
  funext c
  simp only [State.qCM, h.vea, congrArg Aux.doVE h.aux, congrArg Aux.qCM h.aux]

lemma MrMC (h : Same s t) : t.MrMC = s.MrMC := by
  funext c
  simp only [State.MrMC, h.vep, congrArg Aux.doVE h.aux, congrArg Aux.MrMC h.aux]

lemma camRor (h : Same s t) : t.camRor = s.camRor := by
  funext a r
  simp only [State.camRor, h.qCM]

lemma camVel (h : Same s t) : t.camVel = s.camVel := by
  funext a r
  simp only [State.camVel, h.qCM, h.MrMC, h.vel]

lemma doVE (h : Same s t) : t.aux.doVE = s.aux.doVE := by rw [h.aux]

lemma symm (h : Same s t) : Same t s := odo_eq_iff.mp (odo_eq_iff.mpr h).symm

end Same

lemma predictFea_congr {s t : State n nCam nPose} (h : Same s t) (hs : s.Ok) (ht : t.Ok) {ror : V3} {dt : ℝ} {w : DState n nCam nPose} {i : Fin n} {f : Fea}
    (hf : s.predictFea ror dt w i = some f) :
    ∃ g, t.predictFea ror dt w i = some g ∧ f.noPix = g.noPix ∧ f.c.validNor = true ∧ f.c.nor.q.IsUnit := by
  obtain ⟨p, v, e⟩ := Fea.noPix_eq (h.fea i)
  have hv := hs.nor i
  have hp := hs.proj i
  have hp' := ht.proj i
  have hu := hs.unit.nor i
  unfold State.predictFea at hf ⊢
  rw [e] at hp'
  rw [h.camRor, h.camVel, e]
  generalize s.fea i = f₀ at *
  simp only [Fea.setPix_c, Fea.setPix_d, FC.setPix_camID, FC.setPix_track] at hp' ⊢
  cases hc : camIdx nCam f₀.c.camID with
  | none =>
    simp only [hc, Option.some.injEq] at hf ⊢
    subst hf
    exact ⟨_, rfl, (Fea.noPix_pix _ _ _).symm, hv, hu⟩
  | some a =>
    have hw := FC.warp_congr hv hp hp'
    have hn := MultiCamera.getNor_of_valid hv
    have hn' : (f₀.c.setPix p v).getNor = some ((f₀.c.setPix p v), f₀.c.nor) := MultiCamera.getNor_of_valid (c := (f₀.c.setPix p v)) hv
    simp only [hc, hn, hn', Option.bind_eq_bind, Option.bind_some, Option.pure_def] at hf ⊢
    by_cases htr : f₀.c.trackWarping = true
    · simp only [htr, if_true] at hf ⊢
      cases hg : f₀.c.getWarpNor with
      | none => simp [hg] at hf
      | some r =>
        rw [hg] at hw
        cases hg' : (f₀.c.setPix p v).getWarpNor with
        | none => rw [hg'] at hw; simp at hw
        | some r' =>
          rw [hg'] at hw
          simp only [Option.map_some, Option.some.injEq] at hw
          simp only [hg, Option.bind_some, Option.some.injEq] at hf
          simp only [hg', Option.bind_some]
          refine ⟨_, rfl, ?_, ?_, ?_⟩
          · rw [← hf, ← hw]
            simp [Fea.noPix, FC.noPixel, FC.setWarpNor, FC.setNor, FC.setPix, htr]
          · rw [← hf]; simp [FC.setWarpNor, FC.setNor, htr]
          · rw [← hf]; simp only [FC.setWarpNor, FC.setNor, htr, Bool.and_true, if_true]
            exact (Quat.isUnit_exp _).mul hu
    · simp only [htr, Bool.false_eq_true, if_false, Option.some.injEq] at hf ⊢
      refine ⟨_, rfl, ?_, ?_, ?_⟩
      · rw [← hf]
        simp [Fea.noPix, FC.noPixel, FC.setNor, FC.setPix, htr]
      · rw [← hf]; simp [FC.setNor, htr]
      · rw [← hf]; simp only [FC.setNor, htr, Bool.false_and, Bool.false_eq_true, if_false]
        exact (Quat.isUnit_exp _).mul hu

lemma noPix_fields {f g : Fea} (h : f.noPix = g.noPix) : g.c.validNor = f.c.validNor ∧ g.c.nor = f.c.nor := by
  obtain ⟨p, v, rfl⟩ := Fea.noPix_eq h
  exact ⟨rfl, rfl⟩

lemma noPix_setNor {f g : Fea} (h : f.noPix = g.noPix) (m : Nor) (b : Bool) :
    ({ f with c := f.c.setNor m b } : Fea).noPix = ({ g with c := g.c.setNor m b } : Fea).noPix := by
  obtain ⟨p, v, rfl⟩ := Fea.noPix_eq h
  cases ht : f.c.trackWarping <;> cases b <;> simp [Fea.noPix, FC.noPixel, FC.setNor, Fea.setPix, FC.setPix, ht]

/-- A feature whose bearing has been written back, without pixel. -/
def _root_.Rovio.Fea.fixed (f : Fea) : Fea := { f with c := f.c.setNor f.c.nor false }

/-- A state whose bearings have been written back. -/
def fixed (s : State n nCam nPose) : State n nCam nPose := { s with fea := fun i => (s.fea i).fixed }

lemma fix_eq {s : State n nCam nPose} (hu : UnitState s) (hn : ∀ i, (s.fea i).c.validNor = true) : s.fix = some s.fixed := by
  unfold State.fix
  simp only [optAll_some (fun i => Fea.fix_of_unit (hn i) (hu.nor i)), Option.bind_eq_bind, Option.bind_some, Option.pure_def,
    Quat.fix_unit hu.att, Quat.fix_unit (hu.vea _), Quat.fix_unit (hu.poa _)]
  rfl

lemma fixed_ok {s : State n nCam nPose} (hu : UnitState s) : s.fixed.Ok := by
  refine ⟨⟨hu.att, hu.vea, hu.aux, hu.poa, fun i => ?_⟩, fun i => ?_, fun i hv => ?_⟩
  · simpa [fixed, Fea.fixed, FC.setNor] using hu.nor i
  · simp [fixed, Fea.fixed, FC.setNor]
  · simp [fixed, Fea.fixed, FC.setNor] at hv

lemma noPix_fixed {f g : Fea} (h : f.noPix = g.noPix) : f.fixed.noPix = g.fixed.noPix := by
  have := noPix_setNor h f.c.nor false
  unfold Fea.fixed
  rw [(noPix_fields h).2]
  exact this

lemma fixed_congr {s t : State n nCam nPose} (h : Same s t) : Same s.fixed t.fixed :=
  ⟨h.pos, h.vel, h.acb, h.gyb, h.att, h.vep, h.vea, fun i => noPix_fixed (h.fea i), h.aux⟩

lemma fixed_same {s : State n nCam nPose} (hn : ∀ i, (s.fea i).c.validNor = true) : Same s.fixed s := by
  refine ⟨rfl, rfl, rfl, rfl, rfl, rfl, rfl, fun i => ?_, rfl⟩
  have := hn i
  cases ht : (s.fea i).c.trackWarping <;> simp [fixed, Fea.fixed, Fea.noPix, FC.noPixel, FC.setNor, ht, this]

/-- The predicted state before normalisation. -/
noncomputable def rawPred (cfg : PredCfg) (m : ImuMeas) (s : State n nCam nPose) (w : DState n nCam nPose) (dt : ℝ) (g : Fin n → Fea) : State n nCam nPose where
  pos := s.pos - dt • (s.att.rotate s.vel - (1 / Real.sqrt dt) • w.pos)
  vel := (M3.one - M3.skew (dt • (m.gyr - s.gyb + (1 / Real.sqrt dt) • w.att))).mulVec s.vel - dt • (m.acc - s.acb + s.att.inv.rotate gravity - (1 / Real.sqrt dt) • w.vel)
  acb := s.acb + Real.sqrt dt • w.acb
  gyb := s.gyb + Real.sqrt dt • w.gyb
  att := s.att * Quat.exp (dt • (m.gyr - s.gyb + (1 / Real.sqrt dt) • w.att))
  vep := if s.aux.doVE then (fun i => s.MrMC i + Real.sqrt dt • w.vep i) else s.vep
  vea := if s.aux.doVE then (fun i => Quat.exp (Real.sqrt dt • w.vea i) * s.qCM i) else s.vea
  fea := g
  pop := fun i => s.pop i + Real.sqrt dt • w.pop i
  poa := fun i => Quat.exp (Real.sqrt dt • w.poa i) * s.poa i
  aux := { s.aux with
    MwWMmeas := m.gyr
    MwWMest := m.gyr - s.gyb
    MrMC := if s.aux.doVE then s.aux.MrMC else (fun i => s.MrMC i + Real.sqrt dt • w.vep i)
    qCM := if s.aux.doVE then s.aux.qCM else (fun i => Quat.exp (Real.sqrt dt • w.vea i) * s.qCM i)
    wMeasCov := (1 / dt) • cfg.attNoise }

/-- The motion bookkeeping at the end of a prediction. -/
noncomputable def tick (cfg : PredCfg) (m : ImuMeas) (dt : ℝ) (s : State n nCam nPose) : State n nCam nPose :=
  { s with aux := { s.aux with
      tInertial := if s.detectInertialMotion cfg m then 0 else s.aux.tInertial + dt
      tImage := s.aux.tImage + dt } }

lemma evalPrediction_eq {cfg : PredCfg} {m : ImuMeas} {s : State n nCam nPose} {w : DState n nCam nPose} {dt : ℝ} (hdt : ¬ dt ≤ 0) :
    evalPrediction cfg m true s s w dt =
      (optAll (s.predictFea (m.gyr - s.gyb + (1 / Real.sqrt dt) • w.att) dt w)).bind fun g => ((rawPred cfg m s w dt g).fix).map (tick cfg m dt) := by
  unfold evalPrediction
  rw [if_neg hdt]
  simp only [if_true, Option.bind_eq_bind, Option.map_eq_bind, Option.pure_def]
  rfl

lemma rawPred_unit {cfg : PredCfg} {m : ImuMeas} {s : State n nCam nPose} {w : DState n nCam nPose} {dt : ℝ} {g : Fin n → Fea}
    (hu : UnitState s) (hg : ∀ i, (g i).c.nor.q.IsUnit) : UnitState (rawPred cfg m s w dt g) := by
  refine ⟨hu.att.mul (Quat.isUnit_exp _), fun c => ?_, fun c => ?_, fun c => (Quat.isUnit_exp _).mul (hu.poa c), hg⟩
  · simp only [rawPred]; split_ifs
    · exact (Quat.isUnit_exp _).mul (hu.qCM c)
    · exact hu.vea c
  · simp only [rawPred]; split_ifs
    · exact hu.aux c
    · exact (Quat.isUnit_exp _).mul (hu.qCM c)

lemma rawPred_same {cfg : PredCfg} {m : ImuMeas} {s t : State n nCam nPose} {w : DState n nCam nPose} {dt : ℝ} {g g' : Fin n → Fea}
    (h : Same s t) (hg : ∀ i, (g i).noPix = (g' i).noPix) : Same (rawPred cfg m s w dt g) (rawPred cfg m t w dt g') := by
  have hd := h.doVE
  have e1 := congrArg Aux.MrMC h.aux
  have e2 := congrArg Aux.qCM h.aux
  have e3 := congrArg Aux.tInertial h.aux
  have e4 := congrArg Aux.tImage h.aux
  simp only at e1 e2 e3 e4
  constructor <;> simp only [rawPred, h.qCM, h.MrMC, ← h.pos, ← h.vel, ← h.acb, ← h.gyb, ← h.att, ← h.vep, ← h.vea, hd, e1, e2, e3, e4]
  exact hg

lemma tick_same {cfg : PredCfg} {m : ImuMeas} {dt : ℝ} {s t : State n nCam nPose} (h : Same s t) : Same (s.tick cfg m dt) (t.tick cfg m dt) := by
  refine ⟨h.pos, h.vel, h.acb, h.gyb, h.att, h.vep, h.vea, h.fea, ?_⟩
  have e : t.detectInertialMotion cfg m = s.detectInertialMotion cfg m := by simp only [detectInertialMotion, h.gyb, h.acb, h.att]
  have h1 := h.aux
  simp only [tick, e]
  generalize s.detectInertialMotion cfg m = a at *
  cases hs : s.aux
  cases ht : t.aux
  simp only [hs, ht, Aux.mk.injEq] at h1 ⊢
  obtain ⟨rfl, rfl, rfl, rfl, rfl, rfl, rfl, rfl, -⟩ := h1
  simp

lemma tick_ok {cfg : PredCfg} {m : ImuMeas} {dt : ℝ} {s : State n nCam nPose} (h : s.Ok) : (s.tick cfg m dt).Ok :=
  ⟨⟨h.unit.att, h.unit.vea, h.unit.aux, h.unit.poa, h.unit.nor⟩, h.nor, h.proj⟩

lemma evalPrediction_congr {s t : State n nCam nPose} (h : Same s t) (hs : s.Ok) (ht : t.Ok) {cfg : PredCfg} {m : ImuMeas} {w : DState n nCam nPose} {dt : ℝ}
    {r : State n nCam nPose} (hr : evalPrediction cfg m true s s w dt = some r) :
    ∃ r', evalPrediction cfg m true t t w dt = some r' ∧ Same r r' ∧ r.Ok ∧ r'.Ok := by
  by_cases hdt : dt ≤ 0
  · simp [evalPrediction, hdt] at hr
  rw [evalPrediction_eq hdt] at hr ⊢
  cases hf : optAll (s.predictFea (m.gyr - s.gyb + (1 / Real.sqrt dt) • w.att) dt w) with
  | none => rw [hf] at hr; cases hr
  | some g =>
    have hg := optAll_eq_some hf
    choose g' hg' hpix hval hun using fun i => predictFea_congr h hs ht (hg i)
    rw [h.gyb] at hg'
    rw [hf, Option.bind_some] at hr
    rw [optAll_some hg', Option.bind_some]
    have hun' : ∀ i, (g' i).c.nor.q.IsUnit := fun i => by rw [(noPix_fields (hpix i)).2]; exact hun i
    have hval' : ∀ i, (g' i).c.validNor = true := fun i => by rw [(noPix_fields (hpix i)).1]; exact hval i
    have U := rawPred_unit (cfg := cfg) (m := m) (w := w) (dt := dt) hs.unit hun
    have U' := rawPred_unit (cfg := cfg) (m := m) (w := w) (dt := dt) ht.unit hun'
    rw [fix_eq U hval, Option.map_some, Option.some.injEq] at hr
    rw [fix_eq U' hval', Option.map_some]
    subst hr
    exact ⟨_, rfl, tick_same (fixed_congr (rawPred_same h hpix)), tick_ok (fixed_ok U), tick_ok (fixed_ok U')⟩

end State

end Rovio
