import Verif.Spec.Slots
import Verif.Lemmas.Mounting

/-! # Lemmas for C106: slots that are not in use have no influence -/

namespace Rovio

open Spec Matrix

variable {n nCam nPose : ℕ} {L : Fin n → Bool} {x y : State n nCam nPose} {P Q : Cov n nCam nPose}

lemma Spec.SlotX.split (h : SlotX L x y) : ∃ f, x = { y with fea := f } ∧ ∀ i, L i = true → f i = y.fea i := by
  refine ⟨x.fea, ?_, h.fea⟩
  have := h.rest
  cases x; cases y
  simp only [State.mk.injEq] at this ⊢
  simp [this]

lemma Spec.IfBoth.bind {α β γ δ : Type} {R : α → β → Prop} {S : γ → δ → Prop} {o : Option α} {o' : Option β} {f : α → Option γ} {g : β → Option δ} (h : IfBoth R o o')
    (hfg : ∀ a b, o = some a → o' = some b → R a b → IfBoth S (f a) (g b)) : IfBoth S (o.bind f) (o'.bind g) := by
  intro c d hc hd
  obtain ⟨a, ha, hc⟩ := Option.bind_eq_some_iff.mp hc
  obtain ⟨b, hb, hd⟩ := Option.bind_eq_some_iff.mp hd
  exact hfg a b ha hb (h a b ha hb) c d hc hd

lemma optAll_get {α : Type} {f : Fin n → Option α} {r : Fin n → α} (h : optAll f = some r) (i : Fin n) : f i = some (r i) := by
  unfold optAll at h
  split_ifs at h with hs
  rw [← Option.some.inj h]
  simp

lemma optAll_slots {α : Type} {f g : Fin n → Option α} (h : ∀ i, L i = true → f i = g i) : IfBoth (fun r s => ∀ i, L i = true → r i = s i) (optAll f) (optAll g) := by
  intro r s hr hs i hi
  have := optAll_get hr i
  rw [h i hi, optAll_get hs i] at this
  exact (Option.some.inj this).symm

lemma boxPlus_slots (h : SlotX L x y) {δ ε : Ix n nCam nPose → ℝ} (hd : ∀ a, a.unused L = false → δ a = ε a) :
    SlotX L (x.boxPlus (DState.ofFn δ)) (y.boxPlus (DState.ofFn ε)) := by
  obtain ⟨f, rfl, hf⟩ := h.split
  have h1 := fun k => hd (.pos k) rfl
  have h2 := fun k => hd (.vel k) rfl
  have h3 := fun k => hd (.acb k) rfl
  have h4 := fun k => hd (.gyb k) rfl
  have h5 := fun k => hd (.att k) rfl
  have h6 := fun i k => hd (.vep i k) rfl
  have h7 := fun i k => hd (.vea i k) rfl
  have h8 := fun i k => hd (.pop i k) rfl
  have h9 := fun i k => hd (.poa i k) rfl
  refine ⟨?_, fun i hi => ?_⟩
  · simp only [State.boxPlus, DState.ofFn, h1, h2, h3, h4, h5, h6, h7, h8, h9]
  · have h10 := fun k => hd (.nor i k) (by simp [Ix.unused, hi])
    have h11 := hd (.dep i) (by simp [Ix.unused, hi])
    simp only [State.boxPlus, DState.ofFn, h10, h11, hf i hi]

lemma fix_slots (h : SlotX L x y) : IfBoth (SlotX L) x.fix y.fix := by
  obtain ⟨f, rfl, hf⟩ := h.split
  unfold State.fix
  simp only [Option.bind_eq_bind, Option.pure_def]
  refine (optAll_slots (L := L) fun i hi => by rw [hf i hi]).bind fun r s _ _ hrs => ?_
  intro z z' hz hz'
  rw [Option.some.injEq] at hz hz'
  subst hz; subst hz'
  exact ⟨rfl, hrs⟩

lemma symm_slots (h : SlotP L P Q) : SlotP L (symm P) (symm Q) := by
  intro a b ha hb
  simp only [symm, Matrix.smul_apply, Matrix.add_apply, Matrix.transpose_apply, h a b ha hb, h b a hb ha]

lemma mul_slots {ρ σ : Type} (h : SlotP L P Q) {A A' : Matrix ρ (Ix n nCam nPose) ℝ} {B B' : Matrix (Ix n nCam nPose) σ ℝ} {r : ρ} {s : σ}
    (hA : ∀ a, A r a = A' r a) (hA0 : ∀ a, a.unused L = true → A' r a = 0) (hB : ∀ a, B a s = B' a s) (hB0 : ∀ a, a.unused L = true → B' a s = 0) :
    (A * P * B) r s = (A' * Q * B') r s := by
  simp only [Matrix.mul_apply]
  refine Finset.sum_congr rfl fun b _ => ?_
  rw [hB]
  cases hb : b.unused L with
  | true => rw [hB0 b hb, mul_zero, mul_zero]
  | false =>
    congr 1
    refine Finset.sum_congr rfl fun a _ => ?_
    rw [hA]
    cases ha : a.unused L with
    | true => rw [hA0 a ha, zero_mul, zero_mul]
    | false => rw [h a b ha hb]

section

variable {m : ℕ} {gate : Gate m} {v : Fin m → ℝ} {H : Matrix (Fin m) (Ix n nCam nPose) ℝ} {R : Matrix (Fin m) (Fin m) ℝ}

lemma finish_slots (hH : ∀ r b, b.unused L = true → H r b = 0) {u : PoseUpd nPose} {post : State n nCam nPose → State n nCam nPose}
    (hpost : ∀ x y, SlotX L x y → SlotX L (post x) (post y)) (hx : SlotX L x y) (hP : SlotP L P Q) :
    IfBoth (SlotApart L) (FSt.finish ⟨x, P, u⟩ gate v H R post) (FSt.finish ⟨y, Q, u⟩ gate v H R post) := by
  classical
  have hS0 : H * P * Hᵀ = H * Q * Hᵀ := by
    ext r s
    exact mul_slots hP (fun _ => rfl) (fun b hb => hH r b hb) (fun _ => rfl) (fun b hb => hH s b hb)
  have hS : innS gate v H R P = innS gate v H R Q := by unfold innS; rw [hS0]
  have hI : innH gate v H R P = innH gate v H R Q := by unfold innH; rw [hS0]
  have hI0 : ∀ k b, b.unused L = true → innH gate v H R Q k b = 0 := fun k b hb => innH_zero (hH k b hb)
  have hK : ∀ a k, a.unused L = false → gain gate v H R P a k = gain gate v H R Q a k := fun a k ha => by
    unfold gain
    rw [hS, hI]
    simp only [Matrix.mul_apply, Matrix.transpose_apply]
    refine Finset.sum_congr rfl fun l _ => ?_
    congr 1
    refine Finset.sum_congr rfl fun b _ => ?_
    cases hb : b.unused L with
    | true => rw [hI0 l b hb, mul_zero, mul_zero]
    | false => rw [hP a b ha hb]
  unfold FSt.finish
  rw [correct_eq, correct_eq, hS]
  by_cases hd : (innS gate v H R Q).det = 0
  · rw [if_pos hd, if_pos hd]; intro a b ha; cases ha
  · rw [if_neg hd, if_neg hd]
    simp only [Option.bind_eq_bind, Option.bind_some, Option.pure_def]
    have hδ : ∀ a, a.unused L = false → (-((gain gate v H R P).mulVec v)) a = (-((gain gate v H R Q).mulVec v)) a := fun a ha => by
      simp only [Pi.neg_apply, Matrix.mulVec, dotProduct, hK a _ ha]
    have hPQ : SlotP L (symm (P - gain gate v H R P * innS gate v H R Q * (gain gate v H R P)ᵀ))
        (symm (Q - gain gate v H R Q * innS gate v H R Q * (gain gate v H R Q)ᵀ)) := by
      refine symm_slots fun a b ha hb => ?_
      simp only [Matrix.sub_apply, Matrix.mul_apply, Matrix.transpose_apply, hK a _ ha, hK b _ hb, hP a b ha hb]
    refine (fix_slots (hpost _ _ (boxPlus_slots hx hδ))).bind fun s s' _ _ hs => ?_
    intro z z' hz hz'
    rw [Option.some.injEq] at hz hz'
    subst hz; subst hz'
    exact ⟨hs, hPQ, rfl⟩

end

/-! ### Prediction -/

lemma predictFea_slots (h : SlotX L x y) {i : Fin n} (hi : L i = true) (r : V3) (dt : ℝ) (w : DState n nCam nPose) : x.predictFea r dt w i = y.predictFea r dt w i := by
  obtain ⟨f, rfl, hf⟩ := h.split
  unfold State.predictFea
  simp only [hf i hi]
  rfl

lemma evalPrediction_slots (h : SlotX L x y) (cfg : PredCfg) (m : ImuMeas) (w : DState n nCam nPose) (dt : ℝ) :
    IfBoth (SlotX L) (x.evalPrediction cfg m true x w dt) (y.evalPrediction cfg m true y w dt) := by
  unfold State.evalPrediction
  by_cases hdt : dt ≤ 0
  · rw [if_pos hdt]; intro a b ha; cases ha
  · rw [if_neg hdt, if_neg hdt]
    simp only [if_true, Option.bind_eq_bind, Option.pure_def]
    have hg : x.gyb = y.gyb := by obtain ⟨f, rfl, hf⟩ := h.split; rfl
    rw [hg]
    refine (optAll_slots (L := L) fun i hi => predictFea_slots h hi _ _ _).bind fun r s _ _ hrs => ?_
    refine (fix_slots (L := L) ?_).bind fun z z' _ _ hz => ?_
    · obtain ⟨f, rfl, hf⟩ := h.split
      exact ⟨rfl, hrs⟩
    · intro a b ha hb
      rw [Option.some.injEq] at ha hb
      subst ha; subst hb
      obtain ⟨f, rfl, hf⟩ := hz.split
      exact ⟨rfl, hf⟩

lemma feaJac_slots (h : SlotX L x y) {i : Fin n} (hi : L i = true) (m : ImuMeas) (dt : ℝ) (δ : DState n nCam nPose) : x.feaJac m dt i δ = y.feaJac m dt i δ := by
  obtain ⟨f, rfl, hf⟩ := h.split
  unfold State.feaJac State.feaJacVec State.feaJacDep
  simp only [hf i hi]
  rfl

lemma feaNoise_slots (h : SlotX L x y) {i : Fin n} (hi : L i = true) (m : ImuMeas) (dt : ℝ) (δ : DState n nCam nPose) : x.feaNoise m dt i δ = y.feaNoise m dt i δ := by
  obtain ⟨f, rfl, hf⟩ := h.split
  unfold State.feaNoise State.feaNoiseVec State.feaNoiseDep
  simp only [hf i hi]
  rfl

/-- Two increments that agree except for slots that are not in use. -/
structure SlotD (L : Fin n → Bool) (δ ε : DState n nCam nPose) : Prop where
  rest : { δ with nor := ε.nor, dep := ε.dep } = ε
  nor : ∀ i, L i = true → δ.nor i = ε.nor i
  dep : ∀ i, L i = true → δ.dep i = ε.dep i

lemma SlotD.get {δ ε : DState n nCam nPose} (h : SlotD L δ ε) {a : Ix n nCam nPose} (ha : a.unused L = false) : δ.get a = ε.get a := by
  have hr := h.rest
  cases δ; cases ε
  simp only [DState.mk.injEq] at hr
  obtain ⟨h1, h2, h3, h4, h5, h6, h7, -, -, h8, h9⟩ := hr
  cases a with
  | nor i k =>
    have := h.nor i (by simpa [Ix.unused] using ha)
    simp only [DState.get]
    exact congrArg (fun v => V2.at v k) this
  | dep i => exact h.dep i (by simpa [Ix.unused] using ha)
  | _ => simp only [DState.get, h1, h2, h3, h4, h5, h6, h7, h8, h9]

lemma predJac_slots (h : SlotX L x y) (m : ImuMeas) (dt : ℝ) (δ : DState n nCam nPose) : IfBoth (SlotD L) (x.predJac m dt δ) (y.predJac m dt δ) := by
  intro r s hr hs
  unfold State.predJac at hr hs
  rw [Option.map_eq_some_iff] at hr hs
  obtain ⟨f, hf, rfl⟩ := hr
  obtain ⟨g, hg, rfl⟩ := hs
  have hfg := optAll_slots (L := L) (fun i hi => feaJac_slots h hi m dt δ) f g hf hg
  obtain ⟨e, rfl, -⟩ := h.split
  exact ⟨rfl, fun i hi => by simp only [State.predJacOf, hfg i hi], fun i hi => by simp only [State.predJacOf, hfg i hi]⟩

lemma noiseJac_slots (h : SlotX L x y) (m : ImuMeas) (dt : ℝ) (δ : DState n nCam nPose) : IfBoth (SlotD L) (x.noiseJac m dt δ) (y.noiseJac m dt δ) := by
  intro r s hr hs
  unfold State.noiseJac at hr hs
  rw [Option.map_eq_some_iff] at hr hs
  obtain ⟨f, hf, rfl⟩ := hr
  obtain ⟨g, hg, rfl⟩ := hs
  have hfg := optAll_slots (L := L) (fun i hi => feaNoise_slots h hi m dt δ) f g hf hg
  obtain ⟨e, rfl, -⟩ := h.split
  exact ⟨rfl, fun i hi => by simp only [State.noiseJacOf, hfg i hi], fun i hi => by simp only [State.noiseJacOf, hfg i hi]⟩

/-- Increments of slots that are not in use only. -/
structure DState.Idle (L : Fin n → Bool) (δ : DState n nCam nPose) : Prop where
  pos : δ.pos = 0
  vel : δ.vel = 0
  acb : δ.acb = 0
  gyb : δ.gyb = 0
  att : δ.att = 0
  vep : ∀ c, δ.vep c = 0
  vea : ∀ c, δ.vea c = 0
  nor : ∀ i, L i = true → δ.nor i = 0
  dep : ∀ i, L i = true → δ.dep i = 0
  pop : ∀ k, δ.pop k = 0
  poa : ∀ k, δ.poa k = 0

lemma DState.idle_unit {b : Ix n nCam nPose} (h : b.unused L = true) : (DState.unit b).Idle L := by
  have hn : ∀ i, L i = true → b ≠ .dep i ∧ ∀ k, b ≠ .nor i k := fun i hi => by
    constructor
    · rintro rfl; simp [Ix.unused, hi] at h
    · rintro k rfl; simp [Ix.unused, hi] at h
  constructor
  case nor =>
    intro i hi
    have := (hn i hi).2
    simp only [DState.unit, DState.ofFn, Pi.single_apply]
    rw [if_neg (Ne.symm (this 0)), if_neg (Ne.symm (this 1))]; rfl
  case dep =>
    intro i hi
    have := (hn i hi).1
    simp only [DState.unit, DState.ofFn, Pi.single_apply]
    rw [if_neg (Ne.symm this)]
  all_goals
    cases b <;> first | (cases h) | (intros; simp [DState.unit, DState.ofFn, Pi.single_apply]; rfl)

lemma predJac_unused {m : ImuMeas} {dt : ℝ} {δ r : DState n nCam nPose} (hδ : δ.Idle L) (h : y.predJac m dt δ = some r) : r.Idle L := by
  unfold State.predJac at h
  rw [Option.map_eq_some_iff] at h
  obtain ⟨f, hf, h⟩ := h
  have h0 : ∀ i, L i = true → f i = (0, 0) := fun i hi => by
    have hz := optAll_get hf i
    unfold State.feaJac at hz
    cases hc : camIdx nCam (y.fea i).c.camID with
    | none => simp only [hc, Option.some.injEq] at hz; exact hz.symm
    | some a =>
      simp only [hc, Option.bind_eq_bind, Option.pure_def] at hz
      obtain ⟨⟨c, nor⟩, -, hz⟩ := Option.bind_eq_some_iff.mp hz
      rw [Option.some.injEq] at hz
      rw [← hz]
      have h1 := hδ.nor i hi
      have h2 := hδ.dep i hi
      simp only [State.feaJacVec, State.feaJacDep, h1, h2, hδ.vel, hδ.gyb, hδ.vep, hδ.vea, M3.mulVec_zero', V3.smul_zero', Nor.M_zero', V3.zero_smul', V3.add_zero',
        V3.sub_zero', Nor.Mt_zero', V3.dot_zero', ite_self, mul_zero, add_zero]
  rw [← h]
  constructor
  case nor => intro i hi; simp only [State.predJacOf, h0 i hi]
  case dep => intro i hi; simp only [State.predJacOf, h0 i hi]
  all_goals
    intros
    simp only [State.predJacOf, hδ.pos, hδ.vel, hδ.acb, hδ.gyb, hδ.att, hδ.vep, hδ.vea, hδ.pop, hδ.poa, M3.mulVec_zero', V3.add_zero']

lemma noiseJac_unused {m : ImuMeas} {dt : ℝ} {δ r : DState n nCam nPose} (hδ : δ.Idle L) (h : y.noiseJac m dt δ = some r) : r.Idle L := by
  unfold State.noiseJac at h
  rw [Option.map_eq_some_iff] at h
  obtain ⟨f, hf, h⟩ := h
  have h0 : ∀ i, L i = true → f i = (0, 0) := fun i hi => by
    have hz := optAll_get hf i
    unfold State.feaNoise at hz
    cases hc : camIdx nCam (y.fea i).c.camID with
    | none => simp only [hc, Option.some.injEq] at hz; exact hz.symm
    | some a =>
      simp only [hc, Option.bind_eq_bind, Option.pure_def] at hz
      obtain ⟨⟨c, nor⟩, -, hz⟩ := Option.bind_eq_some_iff.mp hz
      rw [Option.some.injEq] at hz
      rw [← hz]
      have h1 := hδ.nor i hi
      have h2 := hδ.dep i hi
      simp only [State.feaNoiseVec, State.feaNoiseDep, h1, h2, hδ.att, M3.mulVec_zero', V3.smul_zero', Nor.N_zero', V3.add_zero',
        Nor.Mt_zero', V3.dot_zero', mul_zero, add_zero]
  rw [← h]
  constructor
  case nor => intro i hi; simp only [State.noiseJacOf, h0 i hi]
  case dep => intro i hi; simp only [State.noiseJacOf, h0 i hi]
  all_goals
    intros
    simp only [State.noiseJacOf, hδ.pos, hδ.vel, hδ.acb, hδ.gyb, hδ.att, hδ.vep, hδ.vea, hδ.pop, hδ.poa, M3.mulVec_zero', V3.add_zero']

lemma DState.Idle.get {δ : DState n nCam nPose} (h : δ.Idle L) {a : Ix n nCam nPose} (ha : a.unused L = false) : δ.get a = 0 := by
  cases a with
  | nor i k => simp only [DState.get, h.nor i (by simpa [Ix.unused] using ha), V2.at_zero]
  | dep i => exact h.dep i (by simpa [Ix.unused] using ha)
  | _ => simp only [DState.get, h.pos, h.vel, h.acb, h.gyb, h.att, h.vep, h.vea, h.pop, h.poa, V3.at_zero]

lemma colMat_slots {f g : DState n nCam nPose → Option (DState n nCam nPose)} (hfg : ∀ δ, IfBoth (SlotD L) (f δ) (g δ))
    (hg : ∀ δ r, δ.Idle L → g δ = some r → r.Idle L) {F G : Matrix (Ix n nCam nPose) (Ix n nCam nPose) ℝ}
    (hF : colMat (fun b => (f (DState.unit b)).map DState.get) = some F) (hG : colMat (fun b => (g (DState.unit b)).map DState.get) = some G)
    {a : Ix n nCam nPose} (ha : a.unused L = false) (b : Ix n nCam nPose) : F a b = G a b ∧ (b.unused L = true → G a b = 0) := by
  have h1 := colMat_some hF b
  have h2 := colMat_some hG b
  rw [Option.map_eq_some_iff] at h1 h2
  obtain ⟨r, hr, he⟩ := h1
  obtain ⟨s, hs, he'⟩ := h2
  rw [← congrFun he a, ← congrFun he' a]
  exact ⟨(hfg _ _ _ hr hs).get ha, fun hb => (hg _ _ (DState.idle_unit hb) hs).get ha⟩

lemma predict_slots (cfg : FCfg n nCam nPose) (m : ImuMeas) (dt : ℝ) {a b : FSt n nCam nPose} (h : SlotApart L a b) :
    IfBoth (SlotApart L) (a.predict cfg m dt) (b.predict cfg m dt) := by
  unfold FSt.predict
  simp only [Option.bind_eq_bind, Option.pure_def]
  refine IfBoth.bind (R := fun _ _ => True) (fun _ _ _ _ => trivial) fun F F' hF hF' _ => ?_
  refine IfBoth.bind (R := fun _ _ => True) (fun _ _ _ _ => trivial) fun G G' hG hG' _ => ?_
  refine (evalPrediction_slots h.x cfg.pred m (DState.ofFn 0) dt).bind fun s s' _ _ hs => ?_
  intro z z' hz hz'
  rw [Option.some.injEq] at hz hz'
  subst hz; subst hz'
  have hF0 := fun {a} ha b => colMat_slots (L := L) (a := a) (fun δ => predJac_slots h.x m dt δ) (fun δ r hδ hr => predJac_unused hδ hr) hF hF' ha b
  have hG0 := fun {a} ha b => colMat_slots (L := L) (a := a) (fun δ => noiseJac_slots h.x m dt δ) (fun δ r hδ hr => noiseJac_unused hδ hr) hG hG' ha b
  refine ⟨hs, symm_slots fun c d hc hd => ?_, h.u⟩
  have hq : SlotP L (Matrix.diagonal cfg.q) (Matrix.diagonal cfg.q) := fun _ _ _ _ => rfl
  rw [Matrix.add_apply, Matrix.add_apply,
    mul_slots h.P (fun b => (hF0 hc b).1) (fun b => (hF0 hc b).2) (B := Fᵀ) (B' := F'ᵀ) (fun b => (hF0 hd b).1) (fun b => (hF0 hd b).2),
    mul_slots hq (fun b => (hG0 hc b).1) (fun b => (hG0 hc b).2) (B := Gᵀ) (B' := G'ᵀ) (fun b => (hG0 hd b).1) (fun b => (hG0 hd b).2)]

lemma velocity_slots (cfg : FCfg n nCam nPose) (meas : V3) {a b : FSt n nCam nPose} (h : SlotApart L a b) :
    IfBoth (SlotApart L) (a.velocity cfg meas) (b.velocity cfg meas) := by
  obtain ⟨x, P, u⟩ := a
  obtain ⟨y, Q, u'⟩ := b
  obtain ⟨hx, hP, rfl⟩ := h
  unfold FSt.velocity
  have e : velInnov cfg.qAM meas x 0 = velInnov cfg.qAM meas y 0 := by obtain ⟨f, e, -⟩ := SlotX.split hx; dsimp only at e; subst e; rfl
  simp only [e]
  refine finish_slots (fun r b hb => ?_) (fun _ _ h => h) hx hP
  simp only [Matrix.of_apply, velJac, (DState.idle_unit hb).vel, M3.mulVec_zero', V3.at_zero]

lemma odo_slots (h : SlotX L x y) : SlotX L x.odo y.odo := by
  obtain ⟨f, rfl, hf⟩ := h.split
  exact ⟨rfl, fun i hi => by simp only [State.odo, hf i hi]⟩

lemma odoCov_slots (h : SlotP L P Q) : SlotP L P.odo Q.odo := fun a b ha hb =>
  h _ _ (by cases a <;> first | exact ha | rfl | (rename_i j _; exact j.elim0)) (by cases b <;> first | exact hb | rfl | (rename_i j _; exact j.elim0))

lemma zeroVel_slots (cfg : FCfg n nCam nPose) {trigger : State n nCam 0 → Bool} (ht : ∀ x y, SlotX L x y → trigger x = trigger y) {a b : FSt n nCam nPose}
    (h : SlotApart L a b) : IfBoth (SlotApart L) (a.zeroVel cfg trigger) (b.zeroVel cfg trigger) := by
  obtain ⟨x, P, u⟩ := a
  obtain ⟨y, Q, u'⟩ := b
  obtain ⟨hx, hP, rfl⟩ := h
  unfold FSt.zeroVel
  dsimp only at hx ⊢
  have e : zeroVelInnov x 0 = zeroVelInnov y 0 := by obtain ⟨f, rfl, -⟩ := SlotX.split hx; rfl
  rw [ht _ _ (odo_slots hx)]
  split_ifs
  · simp only [e]
    refine finish_slots (fun r b hb => ?_) (fun _ _ h => h) hx hP
    simp only [Matrix.of_apply, zeroVelJac, (DState.idle_unit hb).vel, M3.mulVec_zero', V3.at_zero]
  · intro z z' hz hz'
    rw [Option.some.injEq] at hz hz'
    subst hz; subst hz'
    exact ⟨hx, hP, rfl⟩

lemma preProcess_slots {u : PoseUpd nPose} {meas : PoseMeas} {x y : State n nCam nPose} (h : SlotX L x y) :
    (u.preProcess meas x).1 = (u.preProcess meas y).1 ∧ SlotX L (u.preProcess meas x).2 (u.preProcess meas y).2 := by
  obtain ⟨f, rfl, hf⟩ := h.split
  unfold PoseUpd.preProcess PoseUpd.align
  by_cases hd : u.didAlign = false ∧ u.doAlign = true
  · simp only [if_pos hd]
    cases u with
    | mk inertial body =>
      cases inertial <;> cases body <;> exact ⟨rfl, rfl, hf⟩
  · simp only [if_neg hd]
    exact ⟨trivial, h⟩

lemma pose_slots (cfg : FCfg n (nCam + 1) nPose) (meas : PoseMeas) {a b : FSt n (nCam + 1) nPose} (h : SlotApart L a b) :
    IfBoth (SlotApart L) (a.pose cfg meas) (b.pose cfg meas) := by
  obtain ⟨x, P, u⟩ := a
  obtain ⟨y, Q, u'⟩ := b
  obtain ⟨hx, hP, rfl⟩ := h
  obtain ⟨h1, h2⟩ := preProcess_slots (u := u) (meas := meas) hx
  unfold FSt.pose
  dsimp only at h1 h2 hP ⊢
  rw [h1]
  generalize (u.preProcess meas x).2 = s at h2 ⊢
  generalize (u.preProcess meas y).2 = s' at h2 ⊢
  generalize (u.preProcess meas y).1 = u'
  have e1 : u'.innov meas s = u'.innov meas s' := by obtain ⟨f, rfl, -⟩ := h2.split; rfl
  have e2 : u'.jacState s = u'.jacState s' := by obtain ⟨f, rfl, -⟩ := h2.split; rfl
  rw [e1, e2]
  refine finish_slots (fun r b hb => ?_) (fun z z' hz => ?_) h2 hP
  · have hm := DState.idle_unit hb
    have ht : ∀ (A B : M3) (δ : Fin nPose → V3), (∀ k, δ k = 0) → PoseUpd.twoBlocks u'.inertial u'.body A B δ = 0 := fun A B δ h => by
      unfold PoseUpd.twoBlocks
      cases u'.inertial <;> cases u'.body <;> simp only [h, M3.mulVec_zero', ite_self, V3.add_zero']
    have ho : ∀ (A : M3) (δ : Fin nPose → V3), (∀ k, δ k = 0) → PoseUpd.oneBlock u'.inertial A δ = 0 := fun A δ h => by
      unfold PoseUpd.oneBlock
      cases u'.inertial <;> simp only [h, M3.mulVec_zero']
    simp only [Matrix.of_apply, PoseUpd.jacState, ht _ _ _ hm.pop, ht _ _ _ hm.poa, ho _ _ hm.poa, hm.pos, hm.att, M3.mulVec_zero', V3.add_zero', ite_self]
    unfold DPose.row
    cases poseRow r <;> exact V3.at_zero _
  · obtain ⟨f, rfl, hf⟩ := hz.split
    exact ⟨rfl, hf⟩

lemma featureJac_unused {sfv : V3 → Nor} {ig : Bool} {i : Fin n} (hi : L i = true) {b : Fin nCam} {a : Ix n nCam nPose} (ha : a.unused L = true) {r : V2 × ℝ}
    (h : x.featureJac sfv ig i b (DState.unit a) = some r) : r = (0, 0) := by
  have hδ := DState.idle_unit ha
  revert h
  generalize DState.unit a = δ at hδ
  intro h
  have h1 := hδ.nor i hi
  have h2 := hδ.dep i hi
  unfold State.featureJac at h
  by_cases hc : (x.fea i).c.camID ≠ b.val
  · rw [if_pos hc] at h
    simp only [Option.bind_eq_bind, Option.pure_def] at h
    obtain ⟨a, -, h⟩ := Option.bind_eq_some_iff.mp h
    obtain ⟨⟨c, nor⟩, -, h⟩ := Option.bind_eq_some_iff.mp h
    rw [Option.some.injEq] at h
    rw [← h]
    simp only [h1, h2, hδ.vep, hδ.vea, M3.mulVec_zero', V3.smul_zero', Nor.M_zero', V3.zero_smul', V3.add_zero', Nor.Mt_zero', V3.dot_zero', ite_self]
  · rw [if_neg hc, Option.some.injEq] at h
    rw [← h, h1, h2]

lemma withOdo_slots (h : SlotX L x y) (o : State n nCam 0) : x.withOdo o = y.withOdo o := by
  obtain ⟨f, rfl, hf⟩ := h.split
  rfl

lemma image_slots (cfg : FCfg n nCam nPose) (c : ImgCorr n nCam) (hc : L c.i = true) {a b : FSt n nCam nPose} (h : SlotApart L a b) :
    IfBoth (SlotApart L) (a.image cfg c) (b.image cfg c) := by
  obtain ⟨x, P, u⟩ := a
  obtain ⟨y, Q, u'⟩ := b
  obtain ⟨hx, hP, rfl⟩ := h
  unfold FSt.image
  dsimp only at hx hP ⊢
  rw [withOdo_slots hx]
  simp only [Option.bind_eq_bind]
  refine IfBoth.bind (R := Eq) (fun a b ha hb => by rw [ha] at hb; exact Option.some.inj hb) fun J J' hJ _ e => ?_
  subst e
  refine finish_slots (fun r b hb => ?_) (fun _ _ h => h) hx hP
  rw [Matrix.mul_apply]
  refine Finset.sum_eq_zero fun k _ => ?_
  have := colMat_some hJ b
  rw [Option.map_eq_some_iff] at this
  obtain ⟨d, hd, he⟩ := this
  rw [← congrFun he k, featureJac_unused hc hb hd]
  simp only [V2.at_zero, mul_zero]

end Rovio
