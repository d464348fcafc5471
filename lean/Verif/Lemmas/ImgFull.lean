import Verif.Model.ImgFull
import Verif.Lemmas.Scratch
import Verif.Lemmas.FeatureCoordinates

/-! # Lemmas for C94: scratch memory has no influence on the assembled image update -/

namespace Rovio

open Spec

/-! ### Coordinates that agree in what is known -/

/-- Coordinates that agree in everything but pixels and warps that are not known. -/
def Agree (x y : FC) : Prop :=
  ∃ c w m, y = { x with c := c, warpC := w, warpNor := m } ∧ (x.validC = true → x.c = c) ∧ (x.validWarpC = true → x.warpC = w) ∧
    (x.validWarpC = true ∨ x.validWarpNor = true → x.warpNor = m)

namespace Agree

lemma refl (x : FC) : Agree x x := ⟨x.c, x.warpC, x.warpNor, rfl, fun _ => rfl, fun _ => rfl, fun _ => rfl⟩

lemma eq {x y : FC} (h : Agree x y) (hc : x.validC = true) (hw : x.validWarpC = true) : x = y := by
  obtain ⟨c, w, m, rfl, h1, h2, h3⟩ := h
  rw [← h1 hc, ← h2 hw, ← h3 (.inl hw)]

lemma front {x y : FC} (h : Agree x y) : x.isInFront = y.isInFront := by
  obtain ⟨c, w, m, rfl, h1, h2, h3⟩ := h
  rfl

lemma view {x y : FC} (h : Agree x y) : x.view = y.view := by
  obtain ⟨c, w, m, rfl, h1, h2, h3⟩ := h
  unfold FC.view
  simp only [FCView.mk.injEq, true_and, and_true]
  constructor
  · split_ifs with hw
    · rw [h3 (.inr hw)]
    · rfl
  · split_ifs with hw
    · rw [h2 hw]
    · rfl

lemma comC {x y : FC} (h : Agree x y) : Both (fun u v => Agree u.1 v.1 ∧ u.2 = v.2 ∧ u.2 = u.1.validC) x.comC y.comC := by
  obtain ⟨c, w, m, rfl, h1, h2, h3⟩ := h
  unfold FC.comC
  dsimp only
  by_cases hc : x.validC = true
  · simp only [if_pos hc]
    exact .some ⟨⟨c, w, m, rfl, h1, h2, h3⟩, rfl, hc.symm⟩
  · simp only [if_neg hc]
    have hf : x.validC = false := by simpa using hc
    cases hcam : x.cam with
    | none => exact .none
    | some cam =>
      simp only
      split_ifs
      · cases cam.b2p x.nor with
        | none => exact .some ⟨⟨c, w, m, by simp [hcam], h1, h2, h3⟩, rfl, hf.symm⟩
        | some q => exact .some ⟨⟨q, w, m, rfl, fun _ => rfl, h2, h3⟩, rfl, rfl⟩
      · exact .some ⟨⟨c, w, m, by simp [hcam], h1, h2, h3⟩, rfl, hf.symm⟩

lemma getC {x y : FC} (h : Agree x y) : Both (fun u v => Agree u.1 v.1 ∧ (u.1.validC = true → u.2 = v.2)) x.getC y.getC := by
  unfold FC.getC
  simp only [Option.bind_eq_bind, Option.pure_def]
  refine h.comC.bind ?_
  rintro ⟨u, b⟩ ⟨v, b'⟩ ⟨h1, -, -⟩
  obtain ⟨c, w, m, rfl, h1, h2, h3⟩ := h1
  exact .some ⟨⟨c, w, m, rfl, h1, h2, h3⟩, h1⟩

lemma comNor {x y : FC} (h : Agree x y) : Both (fun u v => Agree u.1 v.1 ∧ u.2 = v.2 ∧ u.2 = u.1.validNor) x.comNor y.comNor := by
  obtain ⟨c, w, m, rfl, h1, h2, h3⟩ := h
  unfold FC.comNor
  dsimp only
  by_cases hn : x.validNor = true
  · simp only [if_pos hn]
    exact .some ⟨⟨c, w, m, rfl, h1, h2, h3⟩, rfl, hn.symm⟩
  · simp only [if_neg hn]
    have hf : x.validNor = false := by simpa using hn
    cases hcam : x.cam with
    | none => exact .none
    | some cam =>
      simp only
      by_cases hc : x.validC = true
      · simp only [if_pos hc]
        have := h1 hc
        subst this
        exact .some ⟨⟨x.c, w, m, rfl, h1, h2, h3⟩, rfl, rfl⟩
      · simp only [if_neg hc]
        exact .some ⟨⟨c, w, m, by simp [hcam], h1, h2, h3⟩, rfl, hf.symm⟩

end Agree

/-! What the getters leave as it is. -/

lemma FC.comC_keep {x u : FC} {b : Bool} (h : x.comC = some (u, b)) :
    u = x ∨ ∃ q, u = { x with c := q, validC := true } := by
  unfold FC.comC at h
  by_cases hc : x.validC = true
  · simp only [if_pos hc, Option.some.injEq, Prod.mk.injEq] at h
    exact .inl h.1.symm
  · simp only [if_neg hc] at h
    revert h
    cases hcam : x.cam with
    | none => simp
    | some cam =>
      simp only
      split_ifs
      · cases cam.b2p x.nor with
        | none =>
          simp only [Option.some.injEq, Prod.mk.injEq]
          exact fun h => .inl h.1.symm
        | some q =>
          simp only [Option.some.injEq, Prod.mk.injEq]
          exact fun h => .inr ⟨q, h.1.symm⟩
      · simp only [Option.some.injEq, Prod.mk.injEq]
        exact fun h => .inl h.1.symm

lemma Both.and_left {α : Type} {R : α → α → Prop} {x y : Option α} (h : Both R x y) : Both (fun a b => R a b ∧ x = some a ∧ y = some b) x y := by
  cases h with
  | none => exact .none
  | some h => exact .some ⟨h, rfl, rfl⟩

namespace Agree

lemma comWarpC {x y : FC} (h : Agree x y) :
    Both (fun u v => Agree u.1 v.1 ∧ u.2 = v.2 ∧ u.2 = u.1.validWarpC ∧ (x.validC = true → u.1.validC = true)) x.comWarpC y.comWarpC := by
  have hC := Both.and_left h.comC
  have hv : y.validWarpC = x.validWarpC ∧ y.validWarpNor = x.validWarpNor := by
    obtain ⟨c, w, m, rfl, h1, h2, h3⟩ := h
    exact ⟨rfl, rfl⟩
  unfold FC.comWarpC
  rw [hv.1, hv.2]
  by_cases hw : x.validWarpC = true
  · simp only [if_pos hw]
    exact .some ⟨h, rfl, hw.symm, fun h => h⟩
  · simp only [if_neg hw]
    have hf : x.validWarpC = false := by simpa using hw
    by_cases hn : x.validWarpNor = true
    · simp only [if_pos hn, Option.bind_eq_bind, Option.pure_def]
      refine hC.bind ?_
      rintro ⟨u, b⟩ ⟨v, b'⟩ ⟨⟨h1, h2, h3⟩, hx, hy⟩
      simp only at h1 h2 h3
      subst h2
      have hu : u.validWarpC = false ∧ u.validWarpNor = true ∧ (x.validC = true → u.validC = true) := by
        rcases FC.comC_keep hx with h | ⟨q, h⟩ <;> rw [h]
        · exact ⟨hf, hn, fun h => h⟩
        · exact ⟨hf, hn, fun _ => rfl⟩
      cases b
      · simp only [Bool.not_false, if_true]
        obtain ⟨c, w, m, rfl, g1, g2, g3⟩ := h1
        exact .some ⟨⟨c, w, m, rfl, g1, g2, g3⟩, rfl, rfl, hu.2.2⟩
      · simp only [Bool.not_true, Bool.false_eq_true, if_false]
        have huc := h3.symm
        obtain ⟨c, w, m, rfl, g1, g2, g3⟩ := h1
        have e1 := g1 huc
        have e2 := g3 (.inr hu.2.1)
        subst e1 e2
        unfold FC.comNor FC.getJ FC.getNor FC.comNor
        dsimp only
        cases hcam : u.cam with
        | none =>
          by_cases hvn : u.validNor = true
          · simp only [if_pos hvn, Option.bind_some, Bool.not_true, Bool.false_eq_true, if_false, hcam, Option.bind_none]
            exact .none
          · simp only [if_neg hvn, Option.bind_none]
            exact .none
        | some cam =>
          by_cases hvn : u.validNor = true
          · simp only [if_pos hvn, Option.bind_eq_bind, Option.bind_some, Option.pure_def, Bool.not_true, Bool.false_eq_true, if_false, hcam]
            cases cam.b2pJ u.nor with
            | none =>
              simp only [Option.bind_some]
              exact .some ⟨⟨u.c, M2.zero.mul u.warpNor, u.warpNor, by simp [hcam], fun _ => rfl, fun _ => rfl, fun _ => rfl⟩, rfl, rfl, fun _ => huc⟩
            | some q =>
              simp only [Option.bind_some]
              exact .some ⟨⟨q.1, q.2.mul u.warpNor, u.warpNor, by simp, fun _ => rfl, fun _ => rfl, fun _ => rfl⟩, rfl, rfl, fun _ => huc⟩
          · simp only [if_neg hvn, huc, if_true, Option.bind_some]
            cases hp : (cam.p2b u.c).2
            · simp only [Bool.not_false, if_true]
              exact .some ⟨⟨u.c, w, u.warpNor, by simp, fun _ => rfl, g2, fun _ => rfl⟩, rfl, rfl, fun _ => rfl⟩
            · simp only [Bool.not_true, Bool.false_eq_true, if_false, if_true, Option.bind_eq_bind, Option.bind_some, Option.pure_def]
              cases cam.b2pJ (cam.p2b u.c).1 with
              | none =>
                simp only [Option.bind_some]
                exact .some ⟨⟨u.c, M2.zero.mul u.warpNor, u.warpNor, by simp, fun _ => rfl, fun _ => rfl, fun _ => rfl⟩, rfl, rfl, fun _ => rfl⟩
              | some q =>
                simp only [Option.bind_some]
                exact .some ⟨⟨q.1, q.2.mul u.warpNor, u.warpNor, by simp, fun _ => rfl, fun _ => rfl, fun _ => rfl⟩, rfl, rfl, fun _ => rfl⟩
    · simp only [if_neg hn]
      exact .some ⟨h, rfl, hf.symm, fun h => h⟩

end Agree

/-! ### In-frame test and alignment -/

/-- The camera, if there is one, projects what is in front of it. -/
def CamOk (x : FC) : Prop := ∀ cam, x.cam = some cam → cam.WF

lemma FC.comWarpC_keep {x u : FC} {b : Bool} (h : x.comWarpC = some (u, b)) (hf : x.isInFront = true) :
    u.isInFront = true ∧ u.cam = x.cam ∧ u.validWarpC = b := by
  have h1 := FC.comWarpC_spec h
  have h2 : x.validC = true → u.validC = true := by
    have := (Agree.refl x).comWarpC
    rw [h] at this
    cases this with
    | some hh => exact hh.2.2.2
  refine ⟨?_, h1.2.1, h1.2.2.2.2.1⟩
  unfold FC.isInFront at hf ⊢
  simp only [Bool.or_eq_true, Bool.and_eq_true, decide_eq_true_eq] at hf ⊢
  rcases hf with hf | ⟨hf, hz⟩
  · exact .inl (h2 hf)
  · obtain ⟨h3, h4⟩ := h1.1 hf
    exact .inr ⟨h4, by rw [h3]; exact hz⟩

namespace Agree

lemma getC_eq {x y : FC} (h : Agree x y) (hw : x.validWarpC = true) (hf : x.isInFront = true) (hcam : CamOk x) : x.getC = y.getC := by
  refine Both.eq (Both.mono (Both.and_left h.getC) ?_)
  rintro ⟨u, q⟩ ⟨v, q'⟩ ⟨⟨h1, h2⟩, h3, -⟩
  simp only at h1 h2
  obtain ⟨b, h4, -⟩ := FC.getC_spec h3
  obtain ⟨h5, h6, h7, h8, h9⟩ := FC.comC_spec h4
  have hc : u.validC = true := by
    unfold FC.isInFront at hf
    unfold FC.comC at h4
    simp only [Bool.or_eq_true, Bool.and_eq_true, decide_eq_true_eq] at hf
    by_cases hc : x.validC = true
    · rw [h9 hc]; exact hc
    · rcases hf with hf | ⟨hn, hz⟩
      · exact absurd hf hc
      · simp only [if_neg hc] at h4
        cases hx : x.cam with
        | none => rw [hx] at h4; cases h4
        | some cam =>
          rw [hx] at h4
          have := ((hcam cam hx).front x.nor).2 hz
          obtain ⟨q, hq⟩ := Option.isSome_iff_exists.1 this
          simp only [if_pos hn, hq, Option.some.injEq, Prod.mk.injEq] at h4
          rw [← h4.1]
  have hu : u.validWarpC = true := by rw [h5.validWarpC]; exact hw
  rw [h1.eq hc hu, h2 hc]

lemma inFrame {x y : FC} (h : Agree x y) (hcam : CamOk x) (p : ℕ) (j : FC) (pyr : List Level) (l : ℕ) (wb : Bool) :
    Both (fun u v => u.2 = v.2 ∧ (u.2 = true → u = v)) (MLP.isMultilevelPatchInFrame p j pyr x l wb) (MLP.isMultilevelPatchInFrame p j pyr y l wb) := by
  unfold MLP.isMultilevelPatchInFrame
  rw [← h.front]
  by_cases hf : x.isInFront = true
  · simp only [hf, Bool.not_true, Bool.false_eq_true, if_false, Option.bind_eq_bind, Option.pure_def]
    refine (Both.and_left h.comWarpC).bind ?_
    rintro ⟨u, b⟩ ⟨v, b'⟩ ⟨⟨h1, h2, h3, -⟩, h4, -⟩
    simp only at h1 h2 h3
    subst h2
    cases b
    · simp only [Bool.not_false, if_true]
      exact .some ⟨rfl, by simp⟩
    · simp only [Bool.not_true, Bool.false_eq_true, if_false]
      obtain ⟨k1, k2, -⟩ := FC.comWarpC_keep h4 hf
      have hcu : CamOk u := fun cam hc => hcam cam (by rw [← k2]; exact hc)
      have e : levelTransform j pyr u 0 l = levelTransform j pyr v 0 l := by
        unfold levelTransform
        rw [h1.getC_eq h3.symm k1 hcu]
      rw [e]
      exact Both.refl (fun _ => ⟨rfl, fun _ => rfl⟩) _
  · simp only [hf, Bool.not_false, if_true]
    exact .some ⟨rfl, by simp⟩

lemma equations {x y : FC} (h : Agree x y) (p : ℕ) (cfg : AlignCfg) (j : FC) (ex : ℕ → Patch) (pyr : List Level) (mp : MLP) (l1 l2 : ℕ) :
    Both (fun u v => u = v ∨ (u.2 = .fail ∧ v.2 = .fail)) (Align.equations p cfg j ex pyr mp x l1 l2) (Align.equations p cfg j ex pyr mp y l1 l2) := by
  unfold Align.equations
  simp only [Option.bind_eq_bind, Option.pure_def]
  refine h.comC.bind ?_
  rintro ⟨u, b⟩ ⟨v, b'⟩ ⟨h1, h2, h3⟩
  simp only at h1 h2 h3
  subst h2
  cases b
  · simp only [Bool.not_false, if_true]
    exact .some (.inr ⟨rfl, rfl⟩)
  · simp only [Bool.not_true, Bool.false_eq_true, if_false]
    refine h1.comWarpC.bind ?_
    rintro ⟨u', b⟩ ⟨v', b'⟩ ⟨h4, h5, h6, h7⟩
    simp only at h4 h5 h6 h7
    subst h5
    cases b
    · simp only [Bool.not_false, if_true]
      exact .some (.inr ⟨rfl, rfl⟩)
    · simp only [Bool.not_true, Bool.false_eq_true, if_false]
      have := h4.eq (h7 h3.symm) h6.symm
      subst this
      exact Both.refl (fun _ => .inl rfl) _

lemma align2D {x y : FC} (h : Agree x y) (p : ℕ) (cfg : AlignCfg) (j : FC) (ex : ℕ → Patch) (solve : Option (List Row) → Align.SolveRes)
    (pyr : List Level) (mp : MLP) (l1 l2 : ℕ) :
    Both (fun o o' => o = o' ∨ (o.ok = false ∧ o'.ok = false)) (Align.align2D p cfg j ex solve pyr mp x l1 l2)
      (Align.align2D p cfg j ex solve pyr mp y l1 l2) := by
  unfold Align.align2D
  generalize (10 : ℕ) = fuel
  cases fuel with
  | zero => exact .some (.inr ⟨rfl, rfl⟩)
  | succ fuel =>
  simp only [Align.loop, Option.bind_eq_bind, Option.pure_def]
  refine h.getC.bind ?_
  rintro ⟨u, q⟩ ⟨v, q'⟩ ⟨h1, -⟩
  simp only at h1
  refine (h1.equations p cfg j ex pyr mp l1 l2).bind ?_
  rintro ⟨u', r⟩ ⟨v', r'⟩ (h2 | ⟨h2, h3⟩)
  · cases h2
    exact Both.refl (fun _ => .inl rfl) _
  · simp only at h2 h3
    subst h2 h3
    exact .some (.inr ⟨rfl, rfl⟩)

end Agree

lemma seedCount_zero (coverage range : ℝ) (lowest : ℕ) (maxUni : ℤ) : Align.seedCount 0 coverage range lowest maxUni = some (min 0 maxUni) := by
  unfold Align.seedCount
  have : (⌈(0 * coverage) / Align.seedStep range lowest - 0.5⌉ : ℤ) = 0 := by
    rw [zero_mul, zero_div, Int.ceil_eq_zero_iff]
    constructor <;> norm_num
  rw [this]
  simp [cInt, truncZ]

lemma Agree.stereo {x y : FC} (h : Agree x y) (env : ImgPixel.Env) (pyr : List Level) (mp : MLP) :
    ImgPixel.stereo env pyr mp x ImgFull.Full.noCov = ImgPixel.stereo env pyr mp y ImgFull.Full.noCov := by
  unfold ImgPixel.stereo
  simp only [Option.bind_eq_bind, Option.pure_def]
  refine Both.eq (Both.bind (R := fun o o' => o = o' ∨ (o.ok = false ∧ o'.ok = false)) ?_ ?_)
  · unfold ImgPixel.align Align.align2DAdaptive
    simp only [ImgFull.Full.noCov, seedCount_zero, Option.bind_eq_bind, Option.bind_some, Option.pure_def]
    by_cases hm : min 0 env.maxUni = 0
    · simp only [if_pos hm]
      exact h.align2D _ _ _ _ _ _ _ _ _
    · have hs : Align.seeds (min 0 env.maxUni) = [] := by
        unfold Align.seeds
        have : min 0 env.maxUni ≤ 0 := min_le_left _ _
        have : (2 * min 0 env.maxUni + 1).toNat = 0 := by omega
        rw [this]
        rfl
      simp only [if_neg hm, if_pos hs]
      exact .some (.inr ⟨rfl, rfl⟩)
  · rintro o o' (rfl | ⟨h1, h2⟩)
    · exact Both.refl (fun _ => rfl) _
    · simp only [h1, h2, Bool.false_eq_true, if_false]
      exact .some rfl

/-! ### The feature in a camera -/

/-- The same coordinates, or coordinates in another camera that agree in what is known. -/
def OutRel (x y : FC) : Prop := x = y ∨ (Agree x y ∧ CamOk x)

namespace OutRel

lemma front {x y : FC} (h : OutRel x y) : x.isInFront = y.isInFront := by
  rcases h with rfl | ⟨h, -⟩
  · rfl
  · exact h.front

lemma view {x y : FC} (h : OutRel x y) : x.view = y.view := by
  rcases h with rfl | ⟨h, -⟩
  · rfl
  · exact h.view

lemma inFrame {x y : FC} (h : OutRel x y) (p : ℕ) (j : FC) (pyr : List Level) (l : ℕ) (wb : Bool) :
    Both (fun u v => u.2 = v.2 ∧ (u.2 = true → u = v)) (MLP.isMultilevelPatchInFrame p j pyr x l wb) (MLP.isMultilevelPatchInFrame p j pyr y l wb) := by
  rcases h with rfl | ⟨h, hc⟩
  · exact Both.refl (fun _ => ⟨rfl, fun _ => rfl⟩) _
  · exact h.inFrame hc p j pyr l wb

/-- The pixel of coordinates in front of the camera. -/
lemma pixel {x y : FC} (h : OutRel x y) (hf : x.isInFront = true) : (x.getC).map Prod.snd = (y.getC).map Prod.snd := by
  rcases h with rfl | ⟨h, hc⟩
  · rfl
  · obtain ⟨c, w, m, rfl, h1, h2, h3⟩ := h
    unfold FC.getC FC.comC
    dsimp only
    unfold FC.isInFront at hf
    simp only [Bool.or_eq_true, Bool.and_eq_true, decide_eq_true_eq] at hf
    by_cases hv : x.validC = true
    · simp only [if_pos hv, Option.bind_eq_bind, Option.bind_some, Option.pure_def, Option.map_some, h1 hv]
    · rcases hf with hf | ⟨hn, hz⟩
      · exact absurd hf hv
      · simp only [if_neg hv]
        cases hx : x.cam with
        | none => rfl
        | some cam =>
          obtain ⟨q, hq⟩ := Option.isSome_iff_exists.1 (((hc cam hx).front x.nor).2 hz)
          simp only [if_pos hn, hq, Option.bind_eq_bind, Option.bind_some, Option.pure_def, Option.map_some]

end OutRel

variable {n nCam nPose : ℕ}

lemma transformFeature_rel (mc : MultiCamera nCam) (hmc : ∀ c, (mc.cams c).WF) (sfv : V3 → Nor) (b : Fin nCam) (v : FC) (d : Distance.FeatureDistance) (o o' : FC)
    (dO : Distance.FeatureDistance) :
    Both (fun r r' => OutRel r.1 r'.1 ∧ r.2 = r'.2) (mc.transformFeature sfv b v d o dO) (mc.transformFeature sfv b v d o' dO) := by
  unfold MultiCamera.transformFeature
  split_ifs with hb
  · simp only [Option.bind_eq_bind, Option.pure_def]
    cases camIdx nCam v.camID with
    | none => exact .none
    | some a =>
      simp only [Option.bind_some]
      cases v.getNor with
      | none => exact .none
      | some vn =>
        obtain ⟨w, nor⟩ := vn
        simp only [Option.bind_some]
        cases Distance.setParameter dO (mc.moved a b (Distance.getDistance d • nor.vec)).norm with
        | none => exact .none
        | some d' =>
          simp only [Option.bind_some]
          refine .some ⟨.inr ⟨?_, ?_⟩, rfl⟩
          · split_ifs
            · exact ⟨o'.c, o'.warpC, o'.warpNor, rfl, by simp, by simp, by simp⟩
            · exact ⟨o'.c, w.warpC, w.warpNor, rfl, by simp, fun _ => rfl, fun _ => rfl⟩
          · intro cam hc
            have : cam = mc.cams b := by
              split_ifs at hc <;> exact (Option.some.inj hc).symm
            rw [this]
            exact hmc b
  · exact .some ⟨.inl rfl, rfl⟩

lemma featureOut_rel (s : State n nCam nPose) (mc : MultiCamera nCam) (hmc : ∀ c, (mc.cams c).WF) (sfv : V3 → Nor) (i : Fin n) (b : Fin nCam)
    (out out' : Fea) (hd : out.d = out'.d) :
    Both (fun f f' => OutRel f.c f'.c ∧ f.d = f'.d) (s.featureOut mc sfv i b out) (s.featureOut mc sfv i b out') := by
  unfold State.featureOut
  simp only [Option.bind_eq_bind, Option.pure_def]
  rw [← hd]
  have hmc' : ∀ c, ((s.updateMultiCamera mc).cams c).WF := hmc
  refine (transformFeature_rel (s.updateMultiCamera mc) hmc' sfv b (s.fea i).c (s.fea i).d out.c out'.c out.d).bind ?_
  rintro ⟨x, d⟩ ⟨y, d'⟩ ⟨h1, h2⟩
  simp only at h1 h2
  subst h2
  split_ifs
  · cases (s.fea i).c.comWarpNor with
    | none => exact .none
    | some fo =>
      obtain ⟨fc, ok⟩ := fo
      simp only [Option.bind_some]
      split_ifs
      · cases camIdx nCam fc.camID with
        | none => exact .none
        | some a =>
          simp only [Option.bind_some]
          cases fc.getNor with
          | none => exact .none
          | some g =>
            simp only [Option.bind_some]
            cases g.1.getWarpNor with
            | none => exact .none
            | some w =>
              simp only [Option.bind_some]
              refine .some ⟨?_, rfl⟩
              rcases h1 with rfl | ⟨⟨c, w', m, rfl, g1, g2, g3⟩, hc⟩
              · exact .inl rfl
              · exact .inr ⟨⟨c, w', _, rfl, g1, by simp [FC.setWarpNor], fun _ => rfl⟩, hc⟩
      · exact .some ⟨h1, rfl⟩
  · exact .some ⟨h1, rfl⟩

lemma medianDepth_same (s : State n nCam nPose) (P : Cov n nCam nPose) (mc : MultiCamera nCam) (hmc : ∀ c, (mc.cams c).WF) (sfv : V3 → Nor)
    (valid : Fin n → Bool) (init ratio : ℝ) (out out' : Fea) (hd : out.d = out'.d) :
    s.medianDepth P mc sfv valid init ratio out = s.medianDepth P mc sfv valid init ratio out' := by
  have key : Both (fun a b => a.1.d = b.1.d ∧ a.2 = b.2) (s.medianCollect P mc sfv valid ratio out) (s.medianCollect P mc sfv valid ratio out') := by
    unfold State.medianCollect
    refine foldlM_rel (R := fun (a b : Fea × (Fin nCam → List ℝ)) => a.1.d = b.1.d ∧ a.2 = b.2) ?_ _ _ _ ⟨hd, rfl⟩
    intro a b i hab
    split_ifs
    · refine foldlM_rel (R := fun (a b : Fea × (Fin nCam → List ℝ)) => a.1.d = b.1.d ∧ a.2 = b.2) ?_ _ _ _ hab
      intro a b c hab
      unfold State.medianStep
      simp only [Option.bind_eq_bind, Option.pure_def]
      refine (featureOut_rel s mc hmc sfv i c a.1 b.1 hab.1).bind ?_
      rintro f f' ⟨h1, h2⟩
      rw [← h1.front, ← h2, ← hab.2]
      split_ifs
      · cases s.distVar P sfv i c with
        | none => exact .none
        | some v =>
          simp only [Option.bind_some]
          split_ifs
          · exact .some ⟨h2, rfl⟩
          · exact .some ⟨h2, rfl⟩
      · exact .some ⟨h2, rfl⟩
    · exact .some hab
  unfold State.medianDepth
  simp only [Option.bind_eq_bind]
  exact Both.eq (key.bind fun a b h => by rw [h.2]; exact Both.refl (fun _ => rfl) _)

/-! ### The assembled image processing -/

namespace ImgFull

open Rovio.Img

variable {F : Full n nCam nPose}

lemma forall₂_at {α β : Type} {R : α → β → Prop} : ∀ {l : List α} {l' : List β}, List.Forall₂ R l l' → ∀ k : ℕ,
    (l[k]? = none ∧ l'[k]? = none) ∨ ∃ x y, l[k]? = some x ∧ l'[k]? = some y ∧ R x y
  | [], [], _, _ => .inl ⟨rfl, rfl⟩
  | a :: _, b :: _, .cons h1 _, 0 => .inr ⟨a, b, rfl, rfl, h1⟩
  | _ :: _, _ :: _, .cons _ h2, k + 1 => forall₂_at h2 k

lemma Both.map_eq {α β : Type} {R : α → α → Prop} {f g : α → β} {x y : Option α} (h : Both R x y) (hfg : ∀ a b, R a b → f a = g b) :
    x.map f = y.map g := by
  cases h with
  | none => rfl
  | some h => simp only [Option.map_some, hfg _ _ h]

/-- The agreement of patches the update works with. -/
abbrev Full.Rel (F : Full n nCam nPose) : MLP → MLP → Prop := SameMLP F.base.p F.base.start

lemma here_same {R : MLP → MLP → Prop} {a b : FSt n nCam nPose} (h : SameBy R a b) : here a = here b := by
  unfold here
  rw [h.w]
  simp only [(h.fsm.slots _).coord]

lemma camID_same {R : MLP → MLP → Prop} {a b : FSt n nCam nPose} (h : SameBy R a b) (i : Fin n) : a.camID i = b.camID i := by
  unfold St.camID
  rw [(h.fsm.slots i).coord]

lemma valid_same {R : MLP → MLP → Prop} {a b : FSt n nCam nPose} (h : SameBy R a b) : a.valid = b.valid := by
  funext i
  exact (h.fsm.slots i).valid

lemma pix_inFrame (m m' : Mem) (pyr : List Level) (c : FC) (wb : Bool) : ImgPixel.inFrame (F.pix m) pyr c wb = ImgPixel.inFrame (F.pix m') pyr c wb :=
  ImgPixel.inFrame_same _ _ _ _ _

lemma inFrame_rel {x y : FC} (h : OutRel x y) (m m' : Mem) (pyr : List Level) (wb : Bool) :
    Both (fun u v => u.2 = v.2 ∧ (u.2 = true → u = v)) (ImgPixel.inFrame (F.pix m) pyr x wb) (ImgPixel.inFrame (F.pix m') pyr y wb) := by
  rw [pix_inFrame m m']
  exact h.inFrame _ _ _ _ _

lemma tested_same (hmc : ∀ c, (F.mc.cams c).WF) {a b : FSt n nCam nPose} (h : SameBy F.Rel a b) (m m' : Mem) (i : Fin n) (c : Fin nCam) :
    Both (fun u v => u.2 = v.2 ∧ (u.2 = true → u = v)) (F.tested m a i c) (F.tested m' b i c) := by
  unfold Full.tested
  rw [here_same h, camID_same h, h.w]
  simp only [Option.bind_eq_bind]
  cases camIdx nCam (b.camID i) with
  | none => exact .none
  | some k =>
    simp only [Option.bind_some]
    exact (featureOut_rel (here b) F.mc hmc F.sfv i c (F.outOf m.out) (F.outOf m'.out) rfl).bind fun f f' hf => inFrame_rel hf.1 m m' _ _

lemma pixelCov_same {a b : FSt n nCam nPose} (h : SameBy F.Rel a b) (i : Fin n) (c : Fin nCam) (f : FC) : F.pixelCov a i c f = F.pixelCov b i c f := by
  unfold Full.pixelCov
  rw [here_same h, h.cov]

lemma align_same (hp : Even F.base.p) (hmc : ∀ c, (F.mc.cams c).WF) {a b : FSt n nCam nPose} (h : SameBy F.Rel a b) (m m' : Mem) (i : Fin n) (c : Fin nCam)
    (hv : a.valid i = true) : F.align m a i c = F.align m' b i c := by
  unfold Full.align
  simp only [Option.bind_eq_bind, Option.pure_def]
  refine Both.eq ((tested_same hmc h m m' i c).bind ?_)
  rintro ⟨u, k⟩ ⟨v, k'⟩ ⟨h1, h2⟩
  simp only at h1 h2
  subst h1
  cases k
  · exact .some rfl
  · have := h2 rfl
    simp only [Prod.mk.injEq, and_true] at this
    subst this
    simp only [if_true]
    rw [pixelCov_same h]
    cases F.pixelCov b i c u with
    | none => exact .none
    | some fq =>
      simp only [Option.bind_some]
      have : ImgPixel.align (F.pix m) (F.imgs a.t c) (a.fsm.slots i).patch fq.1 fq.2 = ImgPixel.align (F.pix m') (F.imgs b.t c) (b.fsm.slots i).patch fq.1 fq.2 := by
        rw [h.t]
        exact ImgPixel.align_same hp ((h.fsm.slots i).patch hv) _ _ _ _ _
      rw [this]
      exact Both.refl (fun _ => rfl) _

lemma err_same (hp : Even F.base.p) {a b : FSt n nCam nPose} (h : SameBy F.Rel a b) (m m' : Mem) (i : Fin n) (c : Fin nCam) (x : FC)
    (hv : a.valid i = true) : F.err m a i c x = F.err m' b i c x := by
  unfold Full.err
  rw [h.t, pix_inFrame m m']
  simp only [Option.bind_eq_bind, Option.pure_def]
  cases ImgPixel.inFrame (F.pix m') (F.imgs b.t c) x false with
  | none => rfl
  | some xk =>
    obtain ⟨x, k⟩ := xk
    simp only [Option.bind_some]
    cases k
    · rfl
    · simp only [if_true]
      refine Both.eq ((ImgPixel.extract_same hp m.toMem m'.toMem _ _ _ x false).bind ?_)
      rintro ⟨u, q⟩ ⟨v, q'⟩ ⟨-, h2⟩
      refine .some ?_
      exact ImgPixel.upto_diff ((h.fsm.slots i).patch hv) h2

lemma callbacks_same (hp : Even F.base.p) {mp mp' : MLP} (h : F.Rel mp mp') (m m' : Mem) (cur : Fin nCam → List Level) (meas : Option FC) (i : Fin n)
    (counter : ℕ) : F.callbacks m cur mp meas i counter = F.callbacks m' cur mp' meas i counter := by
  have hi : ∀ b c, ImgPixel.innovation (F.pix m) (cur b) mp c = ImgPixel.innovation (F.pix m') (cur b) mp' c :=
    fun b c => ImgPixel.innovation_same hp h _ _ _ _
  have ho : ∀ b c k, ImgPixel.outlierCheck (F.pix m) (cur b) mp c k = ImgPixel.outlierCheck (F.pix m') (cur b) mp' c k :=
    fun b c k => ImgPixel.outlierCheck_same hp h _ _ _ _ _
  have e1 : F.innov m cur mp meas i counter = F.innov m' cur mp' meas i counter := by
    funext x v r
    unfold Full.innov
    simp only [hi]
  have e2 : F.jac m cur mp i counter = F.jac m' cur mp' i counter := by
    funext x r
    unfold Full.jac
    simp only [hi]
  have e3 : F.check m cur mp i counter = F.check m' cur mp' i counter := by
    funext x k r
    unfold Full.check
    simp only [ho, pix_inFrame m m']
  unfold Full.callbacks
  rw [e1, e2, e3]

lemma update_same (hp : Even F.base.p) (hmc : ∀ c, (F.mc.cams c).WF) {a b : FSt n nCam nPose} (h : SameBy F.Rel a b) (m m' : Mem) (i : Fin n) (c : Fin nCam)
    (hv : a.valid i = true) : F.update m a i c = F.update m' b i c := by
  unfold Full.update
  have hst : ∀ f, F.started a i c f = F.started b i c f := fun f => by unfold Full.started; rw [pixelCov_same h]
  simp only [hst]
  rw [h.t, h.meas, here_same h, h.cov, h.w, h.cam, callbacks_same hp ((h.fsm.slots i).patch hv) m m' _ _ _ _]
  simp only [(h.fsm.slots _).coord]
  have := tested_same hmc h m m' i c
  revert this
  cases F.tested m a i c with
  | none =>
    intro hh
    generalize F.tested m' b i c = r at hh
    cases hh
    rfl
  | some u =>
    intro hh
    generalize F.tested m' b i c = r at hh
    cases hh with
    | @some _ v hh =>
    obtain ⟨u, k⟩ := u
    obtain ⟨v, k'⟩ := v
    obtain ⟨h1, h2⟩ := hh
    simp only at h1 h2
    subst h1
    cases k
    · rfl
    · have := h2 rfl
      simp only [Prod.mk.injEq, and_true] at this
      subst this
      rfl

lemma inPost_same (hmc : ∀ c, (F.mc.cams c).WF) {a b : FSt n nCam nPose} (h : SameBy F.Rel a b) (m m' : Mem) (i : Fin n) (c : Fin nCam) :
    F.inPost m a i c = F.inPost m' b i c := by
  unfold Full.inPost
  rw [here_same h, camID_same h, h.t]
  simp only [Option.bind_eq_bind]
  cases camIdx nCam (b.camID i) with
  | none => rfl
  | some k =>
    simp only [Option.bind_some]
    refine Both.eq ((featureOut_rel (here b) F.mc hmc F.sfv i c (F.outOf m.out) (F.outOf m'.out) rfl).bind fun f f' hf => ?_)
    unfold ImgPixel.verdict
    exact Both.refl' (Both.map_eq (inFrame_rel (F := F) hf.1 m m' (F.imgs b.t k) false) fun u v h => h.1)

lemma view_same (hmc : ∀ c, (F.mc.cams c).WF) {a b : FSt n nCam nPose} (h : SameBy F.Rel a b) (m m' : Mem) (c : Fin nCam) {x y : Slot MLP}
    (hxy : SameSlotBy F.Rel x y) : F.view m a c x = F.view m' b c y := by
  unfold Full.view
  rw [here_same h, h.w, hxy.coord, hxy.idx]
  simp only [(h.fsm.slots _).valid, (h.fsm.slots _).idx, Option.bind_eq_bind, Option.pure_def]
  cases (List.finRange n).find? fun j => (b.fsm.slots j).valid && decide ((b.fsm.slots j).idx = y.idx) with
  | none => rfl
  | some j =>
    simp only [Option.bind_some]
    refine Both.eq ((transformFeature_rel ((here b).updateMultiCamera F.mc) hmc F.sfv c y.coord (b.w.x.fea j).d _ _ _).bind ?_)
    rintro ⟨f, d⟩ ⟨f', d'⟩ ⟨h1, -⟩
    simp only at h1
    simp only [← h1.front]
    by_cases hf : f.isInFront = true
    · simp only [if_pos hf]
      refine Both.refl' ?_
      have := h1.pixel hf
      revert this
      cases f.getC <;> cases f'.getC <;> simp
    · simp only [if_neg hf]
      exact .none

lemma detect_same (hp : Even F.base.p) (hmc : ∀ c, (F.mc.cams c).WF) {a b : FSt n nCam nPose} (h : SameBy F.Rel a b) (m m' : Mem) (c : Fin nCam) :
    SameArgs F.Rel (F.detect m a c) (F.detect m' b c) := by
  have key := ImgPixel.detect_same hp m.toMem m'.toMem (F.imgs b.t c) (F.corners b.t c) (F.radius c)
  have hh : ∃ u v, (ImgPixel.detect (F.pix m) m.mjunk (F.imgs a.t c) (F.corners a.t c) (F.radius c)).getD ([], []) = u ∧
      (ImgPixel.detect (F.pix m') m'.mjunk (F.imgs b.t c) (F.corners b.t c) (F.radius c)).getD ([], []) = v ∧
      List.Forall₂ Lvl u.1 v.1 ∧ List.Forall₂ (ImgPixel.SameCand F.base.p F.base.start) u.2 v.2 := by
    refine ⟨_, _, rfl, rfl, ?_⟩
    rw [h.t]
    unfold Full.pix
    revert key
    generalize ImgPixel.detect (F.base.withMem m.toMem) m.mjunk (F.imgs b.t c) (F.corners b.t c) (F.radius c) = r
    generalize ImgPixel.detect (F.base.withMem m'.toMem) m'.mjunk (F.imgs b.t c) (F.corners b.t c) (F.radius c) = r'
    intro key
    cases key with
    | none => exact ⟨.nil, .nil⟩
    | some hh => exact hh
  obtain ⟨u, v, hu, hv, h1, h2⟩ := hh
  unfold Full.detect
  rw [hu, hv]
  have g1 : ∀ k : ℕ, (u.1[k]?).map (fun x : FC => x.c) = (v.1[k]?).map fun x : FC => x.c := by
    intro k
    rcases forall₂_at h1 k with ⟨e1, e2⟩ | ⟨x, y, e1, e2, h⟩
    · rw [e1, e2]
    · simp only [e1, e2, Option.map_some, h.c]
  have g2 : ∀ k : ℕ, (u.2[k]?).map Prod.snd = (v.2[k]?).map Prod.snd := by
    intro k
    rcases forall₂_at h2 k with ⟨e1, e2⟩ | ⟨x, y, e1, e2, h⟩
    · rw [e1, e2]
    · simp only [e1, e2, Option.map_some, h.1]
  have g3 : ∀ k : ℕ, ((u.2[k]?).map Prod.snd).getD false = true → ∃ x y, u.2[k]? = some x ∧ v.2[k]? = some y ∧ F.Rel x.1 y.1 := by
    intro k hk
    rcases forall₂_at h2 k with ⟨e1, e2⟩ | ⟨x, y, e1, e2, h⟩
    · simp [e1] at hk
    · refine ⟨x, y, e1, e2, h.2 ?_⟩
      simpa [e1] using hk
  refine ⟨h1.length_eq, ?_, ?_, ?_, ?_, fun x y hxy _ => view_same hmc h m m' c hxy, rfl, rfl, rfl, rfl, rfl⟩
  · funext k
    simp only [g1]
  · funext k
    simp only [g2]
  · intro k hk
    obtain ⟨x, y, hx, hy, hr⟩ := g3 k hk
    simp only [hx, hy, Option.map_some, Option.getD_some]
    exact hr.s
  · intro k hk
    obtain ⟨x, y, hx, hy, hr⟩ := g3 k hk
    simp only [hx, hy, Option.map_some, Option.getD_some]
    exact hr

lemma ofView_agree (m m' : Mem) (c : Fin nCam) (v : FCView) : Agree (F.ofView m c v) (F.ofView m' c v) := by
  refine ⟨m'.out.c, v.warpC.getD m'.out.warpC, v.warpNor.getD (if v.warpC.isSome then M2.zero else m'.out.warpNor), rfl, by simp [Full.ofView], ?_, ?_⟩
  · unfold Full.ofView
    cases v.warpC <;> simp
  · unfold Full.ofView
    cases v.warpC <;> cases v.warpNor <;> simp

lemma newCfg_same (hp : Even F.base.p) {a b : FSt n nCam nPose} (h : SameBy F.Rel a b) (m m' : Mem) (c : Fin nCam) (i : Fin n) (hv : a.valid i = true) (v : FCView) :
    (F.newCfg m a c).found i v = (F.newCfg m' b c).found i v := by
  unfold Full.newCfg
  simp only
  rw [h.t]
  congr 1
  exact (ImgPixel.stereo_same hp ((h.fsm.slots i).patch hv) m.toMem m'.toMem _ _ _).trans ((ofView_agree m m' _ v).stereo _ _ _)

lemma initFeature_same (hp : Even F.base.p) (hmc : ∀ c, (F.mc.cams c).WF) {a b : FSt n nCam nPose} (h : SameBy F.Rel a b) (m m' : Mem) (med : ℝ) (i : Fin n)
    (c : Fin nCam) (hv : a.valid i = true) : F.initFeature m med a i c = F.initFeature m' med b i c := by
  have key : Both (fun u v => u.2 = v.2) (initNewFeature (F.newCfg m a c) F.mc F.sfv c med (F.outOf m.out, here a, a.cov) i)
      (initNewFeature (F.newCfg m' b c) F.mc F.sfv c med (F.outOf m'.out, here b, b.cov) i) := by
    unfold initNewFeature
    rw [here_same h, h.cov]
    have hC : (F.newCfg m a c).C = (F.newCfg m' b c).C := rfl
    have hS : (F.newCfg m a c).stereo = (F.newCfg m' b c).stereo := rfl
    simp only [hC, hS]
    split_ifs
    · simp only [Option.bind_eq_bind, Option.pure_def]
      refine (featureOut_rel _ F.mc hmc F.sfv i _ (F.outOf m.out) (F.outOf m'.out) rfl).bind ?_
      rintro f f' ⟨h1, -⟩
      rw [← h1.view, newCfg_same hp h m m' c i hv]
      cases (F.newCfg m' b c).found i f.c.view with
      | none => exact .some rfl
      | some al =>
        simp only
        generalize stereoInit _ _ _ _ _ _ = r
        cases r with
        | none => exact .none
        | some sp => exact .some rfl
    · exact .some rfl
  unfold Full.initFeature
  revert key
  generalize initNewFeature (F.newCfg m a c) F.mc F.sfv c med (F.outOf m.out, here a, a.cov) i = r
  generalize initNewFeature (F.newCfg m' b c) F.mc F.sfv c med (F.outOf m'.out, here b, b.cov) i = r'
  intro key
  cases key with
  | none => simp only [h.w, h.cov]
  | @some u v hh =>
    obtain ⟨o, x, P⟩ := u
    obtain ⟨o', x', P'⟩ := v
    simp only [Prod.mk.injEq] at hh
    simp only [h.w, hh.1, hh.2]

lemma env_alike (hp : Even F.base.p) (hmc : ∀ c, (F.mc.cams c).WF) (m m' : FSt n nCam nPose → Mem) (k k' : ℝ → Slot MLP → Mem) :
    Alike F.Rel (F.env m k) (F.env m' k') where
  inPrev a b h i c _ := by
    simp only [Full.env]
    rw [Both.map_eq (tested_same hmc h (m a) (m' b) i c) fun u v h => h.1]
  align a b h i c hv := by simp only [Full.env, align_same hp hmc h (m a) (m' b) i c hv]
  inNew a b h c x := by simp only [Full.env, h.t, pix_inFrame (m a) (m' b)]
  err a b h i c x hv := by simp only [Full.env, err_same hp h (m a) (m' b) i c x hv]
  update a b h i c hv := update_same hp hmc h _ _ i c hv
  dist := rfl
  resetCov := rfl
  inPost a b h i c _ := by simp only [Full.env, inPost_same hmc h (m a) (m' b) i c]
  moving a b h i _ := by
    simp only [Full.env, Full.moving, h.w, h.t, camID_same h, (h.fsm.slots i).coord]
    simp only [Full.pix, ImgPixel.moving_same hp (m a).toMem (m' b).toMem]
  repatch t a b h _ := by
    simp only [Full.env, Full.repatch, h.coord]
    cases camIdx nCam b.coord.camID with
    | none => exact .none
    | some c =>
      have := ImgPixel.repatch_same hp (k t a).toMem (k' t b).toMem (F.imgs t c) b.coord
      simp only [Option.bind_eq_bind, Option.bind_some, Full.pix]
      revert this
      generalize ImgPixel.repatch (F.base.withMem (k t a).toMem) (F.imgs t c) b.coord = r
      generalize ImgPixel.repatch (F.base.withMem (k' t b).toMem) (F.imgs t c) b.coord = r'
      intro this
      cases this with
      | none => exact .none
      | some hh => exact hh
  score p q h := h.s
  detect a b h c := detect_same hp hmc h _ _ c
  median a b h := by
    simp only [Full.env, Full.median, here_same h, h.cov, valid_same h]
    split_ifs
    · rw [medianDepth_same (here b) b.cov F.mc hmc F.sfv b.valid F.initDepth F.ratio (F.outOf (m a).outMed) (F.outOf (m' b).outMed) rfl]
    · rfl
  initFeature med a b h i c hv := initFeature_same hp hmc h _ _ med i c hv
  finish := rfl
  zvu := rfl

end ImgFull

end Rovio
