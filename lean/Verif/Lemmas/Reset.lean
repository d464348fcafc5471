import Verif.Lemmas.Alike

/-! # Lemmas for C93: leftover patches have no influence -/

namespace Rovio

open Spec

variable {P W K : Type} {n nCam : ℕ}

namespace Spec

lemma Same.by {a b : Img.St P W K n nCam} (h : Same a b) : SameBy Eq a b :=
  ⟨h.w, h.cov, ⟨fun i => ⟨(h.fsm.slots i).valid, (h.fsm.slots i).idx, (h.fsm.slots i).coord, (h.fsm.slots i).patch⟩, h.fsm.maxIdx⟩, h.ext, h.meas, h.id,
    h.cam, h.t, h.imageCounter, h.sinceImage, h.sinceInertial, h.log⟩

lemma SameBy.same {a b : Img.St P W K n nCam} (h : SameBy Eq a b) : Same a b :=
  ⟨h.w, h.cov, ⟨fun i => ⟨(h.fsm.slots i).valid, (h.fsm.slots i).idx, (h.fsm.slots i).coord, (h.fsm.slots i).patch⟩, h.fsm.maxIdx⟩, h.ext, h.meas, h.id,
    h.cam, h.t, h.imageCounter, h.sinceImage, h.sinceInertial, h.log⟩

lemma SameSlotBy.eq {a b : Slot P} (h : SameSlotBy Eq a b) (hv : a.valid = true) : a = b := by
  obtain ⟨h1, h2, h3, h4⟩ := h
  cases a; cases b; simp_all

lemma Blind.alike {env : Img.Env P W K n nCam} (hb : Blind env) : Alike Eq env env where
  inPrev a b h i c _ := by rw [hb.inPrev a b h.same]
  align a b h i c hv := by rw [hb.align a b h.same i hv]
  inNew a b h c x := by rw [hb.inNew a b h.same]
  err a b h i c x hv := by rw [hb.err a b h.same i hv]
  update a b h i c hv := by rw [hb.update a b h.same i hv]
  dist := rfl
  resetCov := rfl
  inPost a b h i c _ := by rw [hb.inPost a b h.same]
  moving a b h i hv := hb.moving a b h.same i hv
  repatch t a b h hv := by rw [h.eq hv]; exact Both.refl (fun _ => rfl) _
  score p q h := by rw [h]
  detect a b h c := by
    rw [hb.detect a b h.same]
    exact ⟨rfl, rfl, rfl, fun _ _ => rfl, fun _ _ => rfl, fun a b h hv => by rw [h.eq hv], rfl, rfl, rfl, rfl, rfl⟩
  median a b h := hb.median a b h.same
  initFeature med a b h i c hv := by rw [hb.initFeature med a b h.same i hv]
  finish := rfl
  zvu := rfl

end Spec

namespace Img

variable {cfg : Cfg} {env : Env P W K n nCam}

lemma same_imageUpdate (hb : Blind env) (I : USet) (order : Finset (Fin n) → List (Fin n)) (ho : ∀ s, ∀ i ∈ order s, i ∈ s) (fuel : ℕ)
    {a b : St P W K n nCam} (h : Same a b) : Both Same (imageUpdate I order cfg env fuel a) (imageUpdate I order cfg env fuel b) :=
  (alike_imageUpdate hb.alike I order ho fuel (.inr fun a b c k h => by rw [hb.detect a b h.same]) h.by).mono fun _ _ h => h.same

lemma same_predict {a b : St P W K n nCam} (h : Same a b) (dt : ℝ) (motion : Bool) (w : W) (cov : K) (coord : Fin n → FC) :
    Same (predict a dt motion w cov coord) (predict b dt motion w cov coord) :=
  (alike_predict h.by dt motion w cov coord).same

end Img

end Rovio
