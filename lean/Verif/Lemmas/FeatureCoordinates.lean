import Verif.Model.FeatureCoordinates
import Verif.Lemmas.Camera

namespace Rovio

/-- What a camera interface has to satisfy: projection succeeds exactly in front of the camera, and
the overload with Jacobian returns the same pixel. -/
structure CamI.WF (cam : CamI) : Prop where
  front : ∀ n, (cam.b2p n).isSome ↔ 0 < n.vec.z
  same : ∀ n, (cam.b2pJ n).map Prod.fst = cam.b2p n

/-- The Jacobian returned by `get_J` for a bearing. -/
def CamI.J (cam : CamI) (n : Nor) : M2 :=
  match cam.b2pJ n with
  | some (_, J) => J
  | none => M2.zero

namespace FC

/-- Two states with the same camera and the same warp information. -/
structure SameWarp (s s' : FC) : Prop where
  cam : s'.cam = s.cam
  warpC : s'.warpC = s.warpC
  validWarpC : s'.validWarpC = s.validWarpC
  warpNor : s'.warpNor = s.warpNor
  validWarpNor : s'.validWarpNor = s.validWarpNor
  isWarpIdentity : s'.isWarpIdentity = s.isWarpIdentity
  trackWarping : s'.trackWarping = s.trackWarping

lemma SameWarp.refl (s : FC) : SameWarp s s := ⟨rfl, rfl, rfl, rfl, rfl, rfl, rfl⟩

lemma SameWarp.trans {a b c : FC} (h : SameWarp a b) (h' : SameWarp b c) : SameWarp a c :=
  ⟨h'.1.trans h.1, h'.2.trans h.2, h'.3.trans h.3, h'.4.trans h.4, h'.5.trans h.5, h'.6.trans h.6, h'.7.trans h.7⟩

lemma comC_spec {s s' : FC} {b : Bool} (h : s.comC = some (s', b)) :
    SameWarp s s' ∧ s'.nor = s.nor ∧ s'.validNor = s.validNor ∧ s'.validC = b ∧ (s.validC = true → s' = s) := by
  unfold comC at h
  split at h
  · simp only [Option.some.injEq, Prod.mk.injEq] at h
    obtain ⟨rfl, rfl⟩ := h
    exact ⟨SameWarp.refl _, rfl, rfl, by assumption, fun _ => rfl⟩
  · rename_i hv
    have hv' : s.validC = false := by simpa using hv
    split at h
    · simp at h
    · split at h
      · split at h
        · simp only [Option.some.injEq, Prod.mk.injEq] at h
          obtain ⟨rfl, rfl⟩ := h
          exact ⟨⟨rfl, rfl, rfl, rfl, rfl, rfl, rfl⟩, rfl, rfl, rfl, fun h => absurd h hv⟩
        · simp only [Option.some.injEq, Prod.mk.injEq] at h
          obtain ⟨rfl, rfl⟩ := h
          exact ⟨SameWarp.refl _, rfl, rfl, hv', fun _ => rfl⟩
      · simp only [Option.some.injEq, Prod.mk.injEq] at h
        obtain ⟨rfl, rfl⟩ := h
        exact ⟨SameWarp.refl _, rfl, rfl, hv', fun _ => rfl⟩

lemma comNor_spec {s s' : FC} {b : Bool} (h : s.comNor = some (s', b)) :
    SameWarp s s' ∧ s'.c = s.c ∧ s'.validC = s.validC ∧ s'.validNor = b ∧ (s.validNor = true → s' = s) := by
  unfold comNor at h
  split at h
  · simp only [Option.some.injEq, Prod.mk.injEq] at h
    obtain ⟨rfl, rfl⟩ := h
    exact ⟨SameWarp.refl _, rfl, rfl, by assumption, fun _ => rfl⟩
  · rename_i hv
    have hv' : s.validNor = false := by simpa using hv
    split at h
    · simp at h
    · split at h
      · simp only [Option.some.injEq, Prod.mk.injEq] at h
        obtain ⟨rfl, rfl⟩ := h
        exact ⟨⟨rfl, rfl, rfl, rfl, rfl, rfl, rfl⟩, rfl, rfl, rfl, fun h => absurd h hv⟩
      · simp only [Option.some.injEq, Prod.mk.injEq] at h
        obtain ⟨rfl, rfl⟩ := h
        exact ⟨SameWarp.refl _, rfl, rfl, hv', fun _ => rfl⟩

lemma getC_spec {s s' : FC} {c : V2} (h : s.getC = some (s', c)) :
    ∃ b, s.comC = some (s', b) ∧ c = s'.c := by
  unfold getC at h
  cases hc : s.comC with
  | none => simp [hc] at h
  | some p =>
    obtain ⟨t, b⟩ := p
    simp [hc] at h
    exact ⟨b, by rw [h.1], by rw [← h.2, h.1]⟩

lemma getNor_spec {s s' : FC} {n : Nor} (h : s.getNor = some (s', n)) :
    ∃ b, s.comNor = some (s', b) ∧ n = s'.nor := by
  unfold getNor at h
  cases hc : s.comNor with
  | none => simp [hc] at h
  | some p =>
    obtain ⟨t, b⟩ := p
    simp [hc] at h
    exact ⟨b, by rw [h.1], by rw [← h.2, h.1]⟩

lemma getJ_spec {s s' : FC} {J : M2} (h : s.getJ = some (s', J)) :
    SameWarp s s' ∧ s'.validC = s.validC ∧ (s.validNor = true → s'.nor = s.nor ∧ s'.validNor = true) ∧
    ∃ cam, s.cam = some cam ∧ J = cam.J s'.nor := by
  unfold getJ at h
  split at h
  · simp at h
  · rename_i cam hcam
    cases hn : s.getNor with
    | none => simp [hn] at h
    | some p =>
      obtain ⟨t, n⟩ := p
      obtain ⟨b, hc, rfl⟩ := getNor_spec hn
      obtain ⟨h1, h2, h3, h4, h5⟩ := comNor_spec hc
      simp only [hn, Option.bind_eq_bind, Option.bind_some] at h
      split at h
      · rename_i c J' hJ
        simp at h
        obtain ⟨rfl, rfl⟩ := h
        refine ⟨⟨h1.1, h1.2, h1.3, h1.4, h1.5, h1.6, h1.7⟩, h3, fun hv => ?_, cam, hcam, ?_⟩
        · have := h5 hv; subst this; exact ⟨rfl, hv⟩
        · simp [CamI.J, hJ]
      · rename_i hJ
        simp at h
        obtain ⟨rfl, rfl⟩ := h
        refine ⟨h1, h3, fun hv => ?_, cam, hcam, ?_⟩
        · have := h5 hv; subst this; exact ⟨rfl, hv⟩
        · simp [CamI.J, hJ]

/-- Outcome of `com_warp_c`. -/
lemma comWarpC_spec {s s' : FC} {b : Bool} (h : s.comWarpC = some (s', b)) :
    (s.validNor = true → s'.nor = s.nor ∧ s'.validNor = true) ∧ s'.cam = s.cam ∧
    s'.trackWarping = s.trackWarping ∧ s'.isWarpIdentity = s.isWarpIdentity ∧
    s'.validWarpC = b ∧
    ((SameWarp s s') ∨
     (s.validWarpC = false ∧ s.validWarpNor = true ∧ s'.validWarpC = true ∧ s'.validNor = true ∧
      s'.warpNor = s.warpNor ∧ s'.validWarpNor = true ∧ ∃ cam, s.cam = some cam ∧ s'.warpC = (cam.J s'.nor).mul s'.warpNor)) := by
  unfold comWarpC at h
  by_cases hv : s.validWarpC = true
  · rw [if_pos hv] at h
    simp only [Option.some.injEq, Prod.mk.injEq] at h
    obtain ⟨rfl, rfl⟩ := h
    exact ⟨fun h => ⟨rfl, h⟩, rfl, rfl, rfl, hv, Or.inl (SameWarp.refl _)⟩
  rw [if_neg hv] at h
  have hvf : s.validWarpC = false := by simpa using hv
  by_cases hn : s.validWarpNor = true
  · rw [if_pos hn] at h
    cases hc : s.comC with
    | none => simp [hc] at h
    | some p =>
      obtain ⟨s1, b1⟩ := p
      obtain ⟨e1, e2, e3, e4, e5⟩ := comC_spec hc
      simp only [hc, Option.bind_eq_bind, Option.bind_some] at h
      cases b1 with
      | false =>
        simp at h
        obtain ⟨rfl, rfl⟩ := h
        exact ⟨fun h => ⟨e2, e3.trans h⟩, e1.cam, e1.trackWarping, e1.isWarpIdentity, rfl, Or.inl e1⟩
      | true =>
        simp only [Bool.not_true, Bool.false_eq_true, if_false] at h
        cases hc2 : s1.comNor with
        | none => simp [hc2] at h
        | some p2 =>
          obtain ⟨s2, b2⟩ := p2
          obtain ⟨f1, f2, f3, f4, f5⟩ := comNor_spec hc2
          simp only [hc2, Option.bind_some] at h
          have hnor : s.validNor = true → s2.nor = s.nor ∧ s2.validNor = true := by
            intro hv1
            have : s1.validNor = true := e3.trans hv1
            have h2 := f5 this
            subst h2
            exact ⟨e2, this⟩
          cases b2 with
          | false =>
            simp at h
            obtain ⟨rfl, rfl⟩ := h
            have := e1.trans f1
            exact ⟨hnor, this.cam, this.trackWarping, this.isWarpIdentity, rfl, Or.inl this⟩
          | true =>
            simp only [Bool.not_true, Bool.false_eq_true, if_false] at h
            cases hc3 : s2.getJ with
            | none => simp [hc3] at h
            | some p3 =>
              obtain ⟨s3, J⟩ := p3
              obtain ⟨g1, g2, g3, cam, g4, g5⟩ := getJ_spec hc3
              simp only [hc3, Option.bind_some] at h
              simp at h
              obtain ⟨rfl, rfl⟩ := h
              have hall := (e1.trans f1).trans g1
              have hs2 : s2.validNor = true := f4
              refine ⟨fun hv1 => ?_, hall.cam, hall.trackWarping, hall.isWarpIdentity, rfl, Or.inr ⟨hvf, hn, rfl, (g3 hs2).2, hall.warpNor, hall.validWarpNor.trans hn, cam, ?_, ?_⟩⟩
              · exact ⟨(g3 hs2).1.trans (hnor hv1).1, (g3 hs2).2⟩
              · rw [← (e1.trans f1).cam, g4]
              · simp [g5]
  · rw [if_neg hn] at h
    simp only [Option.some.injEq, Prod.mk.injEq] at h
    obtain ⟨rfl, rfl⟩ := h
    exact ⟨fun h => ⟨rfl, h⟩, rfl, rfl, rfl, hvf, Or.inl (SameWarp.refl _)⟩

/-- Outcome of `com_warp_nor`. -/
lemma comWarpNor_spec {s s' : FC} {b : Bool} (h : s.comWarpNor = some (s', b)) :
    (s.validNor = true → s'.nor = s.nor ∧ s'.validNor = true) ∧ s'.cam = s.cam ∧
    s'.trackWarping = s.trackWarping ∧ s'.isWarpIdentity = s.isWarpIdentity ∧
    s'.validWarpNor = b ∧
    ((SameWarp s s') ∨
     (s.validWarpNor = false ∧ s.validWarpC = true ∧ s'.validWarpC = true ∧ s'.validNor = true ∧
      s'.warpC = s.warpC ∧ s'.validWarpNor = true ∧ ∃ cam, s.cam = some cam ∧ (cam.J s'.nor).det ≠ 0 ∧
        s'.warpNor = (cam.J s'.nor).inv.mul s'.warpC)) := by
  unfold comWarpNor at h
  by_cases hv : s.validWarpNor = true
  · rw [if_pos hv] at h
    simp only [Option.some.injEq, Prod.mk.injEq] at h
    obtain ⟨rfl, rfl⟩ := h
    exact ⟨fun h => ⟨rfl, h⟩, rfl, rfl, rfl, hv, Or.inl (SameWarp.refl _)⟩
  rw [if_neg hv] at h
  have hvf : s.validWarpNor = false := by simpa using hv
  by_cases hn : s.validWarpC = true
  · rw [if_pos hn] at h
    cases hc : s.comC with
    | none => simp [hc] at h
    | some p =>
      obtain ⟨s1, b1⟩ := p
      obtain ⟨e1, e2, e3, e4, e5⟩ := comC_spec hc
      simp only [hc, Option.bind_eq_bind, Option.bind_some] at h
      cases b1 with
      | false =>
        simp at h
        obtain ⟨rfl, rfl⟩ := h
        exact ⟨fun h => ⟨e2, e3.trans h⟩, e1.cam, e1.trackWarping, e1.isWarpIdentity, rfl, Or.inl e1⟩
      | true =>
        simp only [Bool.not_true, Bool.false_eq_true, if_false] at h
        cases hc2 : s1.comNor with
        | none => simp [hc2] at h
        | some p2 =>
          obtain ⟨s2, b2⟩ := p2
          obtain ⟨f1, f2, f3, f4, f5⟩ := comNor_spec hc2
          simp only [hc2, Option.bind_some] at h
          have hnor : s.validNor = true → s2.nor = s.nor ∧ s2.validNor = true := by
            intro hv1
            have : s1.validNor = true := e3.trans hv1
            have h2 := f5 this
            subst h2
            exact ⟨e2, this⟩
          cases b2 with
          | false =>
            simp at h
            obtain ⟨rfl, rfl⟩ := h
            have := e1.trans f1
            exact ⟨hnor, this.cam, this.trackWarping, this.isWarpIdentity, rfl, Or.inl this⟩
          | true =>
            simp only [Bool.not_true, Bool.false_eq_true, if_false] at h
            cases hc3 : s2.getJ with
            | none => simp [hc3] at h
            | some p3 =>
              obtain ⟨s3, J⟩ := p3
              obtain ⟨g1, g2, g3, cam, g4, g5⟩ := getJ_spec hc3
              simp only [hc3, Option.bind_some] at h
              have hall := (e1.trans f1).trans g1
              have hs2 : s2.validNor = true := f4
              have hnor3 : s.validNor = true → s3.nor = s.nor ∧ s3.validNor = true := fun hv1 =>
                ⟨(g3 hs2).1.trans (hnor hv1).1, (g3 hs2).2⟩
              by_cases hd : J.det ≠ 0
              · rw [if_pos hd] at h
                simp at h
                obtain ⟨rfl, rfl⟩ := h
                refine ⟨hnor3, hall.cam, hall.trackWarping, hall.isWarpIdentity, rfl, Or.inr ⟨hvf, hn, hall.validWarpC.trans hn, (g3 hs2).2, hall.warpC, rfl, cam, ?_, ?_, ?_⟩⟩
                · rw [← (e1.trans f1).cam, g4]
                · simpa [g5] using hd
                · simp [g5]
              · rw [if_neg hd] at h
                simp at h
                obtain ⟨rfl, rfl⟩ := h
                exact ⟨hnor3, hall.cam, hall.trackWarping, hall.isWarpIdentity, rfl, Or.inl hall⟩
  · rw [if_neg hn] at h
    simp only [Option.some.injEq, Prod.mk.injEq] at h
    obtain ⟨rfl, rfl⟩ := h
    exact ⟨fun h => ⟨rfl, h⟩, rfl, rfl, rfl, hvf, Or.inl (SameWarp.refl _)⟩

lemma getWarpC_spec {s s' : FC} {w : M2} (h : s.getWarpC = some (s', w)) :
    ∃ b, s.comWarpC = some (s', b) ∧ w = s'.warpC := by
  unfold getWarpC at h
  cases hc : s.comWarpC with
  | none => simp [hc] at h
  | some p =>
    obtain ⟨t, b⟩ := p
    simp [hc] at h
    exact ⟨b, by rw [h.1], by rw [← h.2, h.1]⟩

lemma getWarpNor_spec {s s' : FC} {w : M2} (h : s.getWarpNor = some (s', w)) :
    ∃ b, s.comWarpNor = some (s', b) ∧ w = s'.warpNor := by
  unfold getWarpNor at h
  cases hc : s.comWarpNor with
  | none => simp [hc] at h
  | some p =>
    obtain ⟨t, b⟩ := p
    simp [hc] at h
    exact ⟨b, by rw [h.1], by rw [← h.2, h.1]⟩

lemma isNear_spec {s s' : FC} {b : Bool} (h : s.isNearIdentityWarping = some (s', b)) :
    (s.isWarpIdentity = true ∧ s' = s ∧ b = true) ∨
    (s.isWarpIdentity = false ∧ ∃ b', s.comWarpC = some (s', b') ∧ (b = true → b' = true ∧ s'.warpC.distOne < 1e-6)) := by
  unfold isNearIdentityWarping at h
  by_cases hi : s.isWarpIdentity = true
  · rw [if_pos hi] at h
    simp only [Option.some.injEq, Prod.mk.injEq] at h
    exact Or.inl ⟨hi, h.1.symm, h.2.symm⟩
  · rw [if_neg hi] at h
    refine Or.inr ⟨by simpa using hi, ?_⟩
    cases hc : s.comWarpC with
    | none => simp [hc] at h
    | some p =>
      obtain ⟨s1, b1⟩ := p
      have hs := comWarpC_spec hc
      simp only [hc, Option.bind_eq_bind, Option.bind_some] at h
      cases b1 with
      | false =>
        simp at h
        obtain ⟨rfl, rfl⟩ := h
        exact ⟨false, rfl, by simp⟩
      | true =>
        have hv : s1.validWarpC = true := hs.2.2.2.2.1
        have : s1.getWarpC = some (s1, s1.warpC) := by
          simp [getWarpC, comWarpC, hv]
        simp [this] at h
        obtain ⟨rfl, rfl⟩ := h
        exact ⟨true, rfl, fun h => ⟨rfl, of_decide_eq_true h⟩⟩

/-- With a camera attached no operation is undefined. -/
lemma comC_total {s : FC} {cam : CamI} (h : s.cam = some cam) : ∃ p, s.comC = some p := by
  unfold comC; simp only [h]
  split
  · exact ⟨_, rfl⟩
  · split
    · split <;> exact ⟨_, rfl⟩
    · exact ⟨_, rfl⟩

lemma comNor_total {s : FC} {cam : CamI} (h : s.cam = some cam) : ∃ p, s.comNor = some p := by
  unfold comNor; simp only [h]
  split
  · exact ⟨_, rfl⟩
  · split <;> exact ⟨_, rfl⟩

lemma getJ_total {s : FC} {cam : CamI} (h : s.cam = some cam) : ∃ p, s.getJ = some p := by
  obtain ⟨p, hp⟩ := comNor_total h
  simp only [getJ, h, getNor, hp, Option.bind_eq_bind, Option.bind_some, Option.pure_def]
  split <;> exact ⟨_, rfl⟩

lemma comWarpC_total {s : FC} {cam : CamI} (h : s.cam = some cam) : ∃ p, s.comWarpC = some p := by
  obtain ⟨⟨s1, b1⟩, hp⟩ := comC_total h
  have c1 := (comC_spec hp).1.cam
  obtain ⟨⟨s2, b2⟩, hp2⟩ := comNor_total (c1.trans h)
  have c2 := (comNor_spec hp2).1.cam
  obtain ⟨⟨s3, J⟩, hp3⟩ := getJ_total (c2.trans (c1.trans h))
  unfold comWarpC
  simp only [hp, hp2, hp3, Option.bind_eq_bind, Option.bind_some]
  split
  · exact ⟨_, rfl⟩
  · split
    · split
      · exact ⟨_, rfl⟩
      · split <;> exact ⟨_, rfl⟩
    · exact ⟨_, rfl⟩

lemma comWarpNor_total {s : FC} {cam : CamI} (h : s.cam = some cam) : ∃ p, s.comWarpNor = some p := by
  obtain ⟨⟨s1, b1⟩, hp⟩ := comC_total h
  have c1 := (comC_spec hp).1.cam
  obtain ⟨⟨s2, b2⟩, hp2⟩ := comNor_total (c1.trans h)
  have c2 := (comNor_spec hp2).1.cam
  obtain ⟨⟨s3, J⟩, hp3⟩ := getJ_total (c2.trans (c1.trans h))
  unfold comWarpNor
  simp only [hp, hp2, hp3, Option.bind_eq_bind, Option.bind_some]
  split
  · exact ⟨_, rfl⟩
  · split
    · split
      · exact ⟨_, rfl⟩
      · split
        · exact ⟨_, rfl⟩
        · split <;> exact ⟨_, rfl⟩
    · exact ⟨_, rfl⟩

lemma isNear_total {s : FC} {cam : CamI} (h : s.cam = some cam) : ∃ p, s.isNearIdentityWarping = some p := by
  obtain ⟨⟨s1, b1⟩, hp⟩ := comWarpC_total h
  have c1 := (comWarpC_spec hp).2.1
  obtain ⟨⟨s2, b2⟩, hp2⟩ := comWarpC_total (c1.trans h)
  unfold isNearIdentityWarping
  simp only [hp, getWarpC, hp2, Option.bind_eq_bind, Option.bind_some]
  split
  · exact ⟨_, rfl⟩
  · split <;> exact ⟨_, rfl⟩

lemma step_total {s : FC} {cam : CamI} (h : s.cam = some cam) (op : Op) :
    ∃ s', s.step op = some s' := by
  obtain ⟨p1, h1⟩ := comC_total h
  obtain ⟨p2, h2⟩ := comNor_total h
  obtain ⟨p3, h3⟩ := getJ_total h
  obtain ⟨p4, h4⟩ := comWarpC_total h
  obtain ⟨p5, h5⟩ := comWarpNor_total h
  obtain ⟨p6, h6⟩ := isNear_total h
  cases op <;> simp [step, getC, getNor, getWarpC, getWarpNor, h1, h2, h3, h4, h5, h6]

lemma setC_cam (s : FC) (c : V2) (r : Bool) : (s.setC c r).cam = s.cam := by
  unfold setC; simp only; split <;> rfl

lemma setNor_cam (s : FC) (n : Nor) (r : Bool) : (s.setNor n r).cam = s.cam := by
  unfold setNor; simp only; split <;> rfl

lemma map_fst_eq {α β : Type} {o : Option (α × β)} {a : α} (h : o.map Prod.fst = some a) : ∃ b, o = some (a, b) := by
  cases o with
  | none => simp at h
  | some p => obtain ⟨x, y⟩ := p; simp at h; exact ⟨y, by rw [h]⟩

lemma step_cam {s s' : FC} {op : Op} (h : s.step op = some s') : s'.cam = s.cam := by
  cases op <;> simp only [step] at h
  case setC c r => simp at h; rw [← h, setC_cam]
  case setNor n r => simp at h; rw [← h, setNor_cam]
  case setWarpC => simp at h; rw [← h]; rfl
  case setWarpNor => simp at h; rw [← h]; rfl
  case setWarpIdentity => simp at h; rw [← h]; rfl
  case resetCoordinates => simp at h; rw [← h]; rfl
  case comC => obtain ⟨b, hb⟩ := map_fst_eq h; exact (comC_spec hb).1.cam
  case getC => obtain ⟨b, hb⟩ := map_fst_eq h; obtain ⟨b, hb, _⟩ := getC_spec hb; exact (comC_spec hb).1.cam
  case comNor => obtain ⟨b, hb⟩ := map_fst_eq h; exact (comNor_spec hb).1.cam
  case getNor => obtain ⟨b, hb⟩ := map_fst_eq h; obtain ⟨b, hb, _⟩ := getNor_spec hb; exact (comNor_spec hb).1.cam
  case getJ => obtain ⟨b, hb⟩ := map_fst_eq h; exact (getJ_spec hb).1.cam
  case comWarpC => obtain ⟨b, hb⟩ := map_fst_eq h; exact (comWarpC_spec hb).2.1
  case getWarpC => obtain ⟨b, hb⟩ := map_fst_eq h; obtain ⟨b, hb, _⟩ := getWarpC_spec hb; exact (comWarpC_spec hb).2.1
  case comWarpNor => obtain ⟨b, hb⟩ := map_fst_eq h; exact (comWarpNor_spec hb).2.1
  case getWarpNor => obtain ⟨b, hb⟩ := map_fst_eq h; obtain ⟨b, hb, _⟩ := getWarpNor_spec hb; exact (comWarpNor_spec hb).2.1
  case isNearIdentityWarping =>
    obtain ⟨b, hb⟩ := map_fst_eq h
    rcases isNear_spec hb with ⟨_, rfl, _⟩ | ⟨_, b', hb', _⟩
    · rfl
    · exact (comWarpC_spec hb').2.1

lemma getJ_full {s s' : FC} {J : M2} (h : s.getJ = some (s', J)) :
    ∃ cam s1 b, s.cam = some cam ∧ s.comNor = some (s1, b) ∧
      ((∃ c, cam.b2pJ s1.nor = some (c, J) ∧ s' = { s1 with c := c }) ∨
       (cam.b2pJ s1.nor = none ∧ s' = s1 ∧ J = M2.zero)) := by
  unfold getJ at h
  split at h
  · simp at h
  · rename_i cam hcam
    cases hn : s.getNor with
    | none => simp [hn] at h
    | some p =>
      obtain ⟨t, n⟩ := p
      obtain ⟨b, hc, rfl⟩ := getNor_spec hn
      simp only [hn, Option.bind_eq_bind, Option.bind_some] at h
      refine ⟨cam, t, b, hcam, hc, ?_⟩
      split at h
      · rename_i c J' hJ
        simp at h
        exact Or.inl ⟨c, by rw [hJ, h.2], h.1.symm⟩
      · rename_i hJ
        simp at h
        exact Or.inr ⟨hJ, h.1.symm, h.2.symm⟩

/-- Is the operation a query / conversion (a `const` member function)? -/
def Op.isQuery : Op → Bool
  | .comC | .getC | .comNor | .getNor | .getJ | .comWarpC | .getWarpC | .comWarpNor | .getWarpNor
  | .isNearIdentityWarping => true
  | _ => false

/-- A predicate preserved by the three elementary conversions and insensitive to the warp members is
preserved by all queries. -/
lemma query_pres {P : FC → Prop}
    (hC : ∀ s s' b, P s → s.comC = some (s', b) → P s')
    (hN : ∀ s s' b, P s → s.comNor = some (s', b) → P s')
    (hJ : ∀ s s' J, P s → s.getJ = some (s', J) → P s')
    (hW : ∀ s s' : FC, P s → s'.cam = s.cam → s'.c = s.c → s'.validC = s.validC → s'.nor = s.nor →
      s'.validNor = s.validNor → P s')
    (s : FC) (op : Op) (s' : FC) (hop : op.isQuery = true) (hP : P s) (h : s.step op = some s') : P s' := by
  have hWC : ∀ s s' b, P s → s.comWarpC = some (s', b) → P s' := by
    intro s s' b hP h
    unfold comWarpC at h
    by_cases hv : s.validWarpC = true
    · rw [if_pos hv] at h
      simp only [Option.some.injEq, Prod.mk.injEq] at h
      exact h.1 ▸ hP
    rw [if_neg hv] at h
    by_cases hn : s.validWarpNor = true
    · rw [if_pos hn] at h
      cases hc : s.comC with
      | none => simp [hc] at h
      | some p =>
        obtain ⟨s1, b1⟩ := p
        simp only [hc, Option.bind_eq_bind, Option.bind_some] at h
        have P1 := hC _ _ _ hP hc
        cases b1 with
        | false => simp at h; exact h.1 ▸ P1
        | true =>
          simp only [Bool.not_true, Bool.false_eq_true, if_false] at h
          cases hc2 : s1.comNor with
          | none => simp [hc2] at h
          | some p2 =>
            obtain ⟨s2, b2⟩ := p2
            simp only [hc2, Option.bind_some] at h
            have P2 := hN _ _ _ P1 hc2
            cases b2 with
            | false => simp at h; exact h.1 ▸ P2
            | true =>
              simp only [Bool.not_true, Bool.false_eq_true, if_false] at h
              cases hc3 : s2.getJ with
              | none => simp [hc3] at h
              | some p3 =>
                obtain ⟨s3, J⟩ := p3
                simp only [hc3, Option.bind_some] at h
                have P3 := hJ _ _ _ P2 hc3
                simp at h
                exact hW _ _ P3 (by rw [← h.1]) (by rw [← h.1]) (by rw [← h.1]) (by rw [← h.1]) (by rw [← h.1])
    · rw [if_neg hn] at h
      simp only [Option.some.injEq, Prod.mk.injEq] at h
      exact h.1 ▸ hP
  have hWN : ∀ s s' b, P s → s.comWarpNor = some (s', b) → P s' := by
    intro s s' b hP h
    unfold comWarpNor at h
    by_cases hv : s.validWarpNor = true
    · rw [if_pos hv] at h
      simp only [Option.some.injEq, Prod.mk.injEq] at h
      exact h.1 ▸ hP
    rw [if_neg hv] at h
    by_cases hn : s.validWarpC = true
    · rw [if_pos hn] at h
      cases hc : s.comC with
      | none => simp [hc] at h
      | some p =>
        obtain ⟨s1, b1⟩ := p
        simp only [hc, Option.bind_eq_bind, Option.bind_some] at h
        have P1 := hC _ _ _ hP hc
        cases b1 with
        | false => simp at h; exact h.1 ▸ P1
        | true =>
          simp only [Bool.not_true, Bool.false_eq_true, if_false] at h
          cases hc2 : s1.comNor with
          | none => simp [hc2] at h
          | some p2 =>
            obtain ⟨s2, b2⟩ := p2
            simp only [hc2, Option.bind_some] at h
            have P2 := hN _ _ _ P1 hc2
            cases b2 with
            | false => simp at h; exact h.1 ▸ P2
            | true =>
              simp only [Bool.not_true, Bool.false_eq_true, if_false] at h
              cases hc3 : s2.getJ with
              | none => simp [hc3] at h
              | some p3 =>
                obtain ⟨s3, J⟩ := p3
                simp only [hc3, Option.bind_some] at h
                have P3 := hJ _ _ _ P2 hc3
                by_cases hd : J.det ≠ 0
                · rw [if_pos hd] at h
                  simp at h
                  exact hW _ _ P3 (by rw [← h.1]) (by rw [← h.1]) (by rw [← h.1]) (by rw [← h.1]) (by rw [← h.1])
                · rw [if_neg hd] at h
                  simp at h
                  exact h.1 ▸ P3
    · rw [if_neg hn] at h
      simp only [Option.some.injEq, Prod.mk.injEq] at h
      exact h.1 ▸ hP
  cases op <;> simp only [step] at h <;> simp only [Op.isQuery, Bool.false_eq_true] at hop
  case comC => obtain ⟨b, hb⟩ := map_fst_eq h; exact hC _ _ _ hP hb
  case getC => obtain ⟨b, hb⟩ := map_fst_eq h; obtain ⟨b, hb, _⟩ := getC_spec hb; exact hC _ _ _ hP hb
  case comNor => obtain ⟨b, hb⟩ := map_fst_eq h; exact hN _ _ _ hP hb
  case getNor => obtain ⟨b, hb⟩ := map_fst_eq h; obtain ⟨b, hb, _⟩ := getNor_spec hb; exact hN _ _ _ hP hb
  case getJ => obtain ⟨b, hb⟩ := map_fst_eq h; exact hJ _ _ _ hP hb
  case comWarpC => obtain ⟨b, hb⟩ := map_fst_eq h; exact hWC _ _ _ hP hb
  case getWarpC => obtain ⟨b, hb⟩ := map_fst_eq h; obtain ⟨b, hb, _⟩ := getWarpC_spec hb; exact hWC _ _ _ hP hb
  case comWarpNor => obtain ⟨b, hb⟩ := map_fst_eq h; exact hWN _ _ _ hP hb
  case getWarpNor => obtain ⟨b, hb⟩ := map_fst_eq h; obtain ⟨b, hb, _⟩ := getWarpNor_spec hb; exact hWN _ _ _ hP hb
  case isNearIdentityWarping =>
    obtain ⟨b, hb⟩ := map_fst_eq h
    rcases isNear_spec hb with ⟨_, rfl, _⟩ | ⟨_, b', hb', _⟩
    · exact hP
    · exact hWC _ _ _ hP hb'

/-- An invariant of single steps is an invariant of histories. -/
lemma run_induct {P : FC → Prop} (ok : Op → Prop)
    (hstep : ∀ s op s', ok op → P s → s.step op = some s' → P s') :
    ∀ (ops : List Op) (s s' : FC), (∀ op ∈ ops, ok op) → P s → s.run ops = some s' → P s' := by
  intro ops
  induction ops with
  | nil => intro s s' _ hP h; simp [run] at h; exact h ▸ hP
  | cons op ops ih =>
    intro s s' hok hP h
    simp only [run] at h
    cases hs : s.step op with
    | none => simp [hs] at h
    | some t =>
      rw [hs] at h
      exact ih t s' (fun o ho => hok o (List.mem_cons_of_mem _ ho)) (hstep s op t (hok op List.mem_cons_self) hP hs) h

lemma run_total {s : FC} {cam : CamI} (h : s.cam = some cam) (ops : List Op) : ∃ s', s.run ops = some s' := by
  induction ops generalizing s with
  | nil => exact ⟨s, rfl⟩
  | cons op ops ih =>
    obtain ⟨t, ht⟩ := step_total h op
    obtain ⟨s', hs'⟩ := ih ((step_cam ht).trans h)
    exact ⟨s', by simp [run, ht, hs']⟩

end FC

end Rovio
