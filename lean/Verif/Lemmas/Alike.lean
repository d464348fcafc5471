import Verif.Lemmas.Sim

/-! # Filter states that are the same up to a relation on patches stay so (for C93 and C94) -/

namespace Rovio

open Spec

variable {P W K : Type} {n nCam : ℕ} {R : P → P → Prop}

namespace Spec

/-- Everything but patches is the same. -/
def Rels.same (R : P → P → Prop) : Rels P W K nCam := ⟨R, Eq, Eq, Eq, fun _ => Eq⟩

lemma Rels.same_ok : (Rels.same R : Rels P W K nCam).Ok where
  drop _ _ h := h
  fresh _ _ _ _ _ _ h ht := by simp only [Rels.same] at h ht ⊢; rw [h, ht]
  increase _ _ _ _ h ht := by simp only [Rels.same] at h ht ⊢; rw [h, ht]
  setStatus _ _ _ _ h := by simp only [Rels.same] at h ⊢; rw [h]
  setPatch _ _ _ _ h ht := by simp only [Rels.same] at h ht ⊢; rw [h, ht]
  status _ _ h := by simp only [Rels.same] at h; rw [h]
  good _ _ h _ _ := by simp only [Rels.same] at h; rw [h]
  age _ _ _ _ h ht := by simp only [Rels.same] at h ht; rw [h, ht]

lemma SameBy.sim {live : Fin n → Bool} {a b : Img.St P W K n nCam} (h : SameBy R a b) : SimOn (Rels.same R) live a b :=
  ⟨h.w, h.cov, h.fsm, fun i => congrFun h.ext i, h.meas, h.id, h.cam, h.t, h.imageCounter, h.sinceImage, h.sinceInertial, h.log⟩

lemma SimOn.same {live : Fin n → Bool} {a b : Img.St P W K n nCam} (h : SimOn (Rels.same R) live a b) : SameBy R a b :=
  ⟨h.w, h.cov, h.fsm, funext h.ext, h.meas, h.id, h.cam, h.t, h.imageCounter, h.sinceImage, h.sinceInertial, h.log⟩

lemma Alike.similar {env env' : Img.Env P W K n nCam} (hb : Alike R env env') : Similar (Rels.same R) env env' where
  inPrev a b h := hb.inPrev a b h.same
  align a b h := hb.align a b h.same
  inNew a b h := hb.inNew a b h.same
  err a b h := hb.err a b h.same
  updateW a b h i c hv := by rw [hb.update a b h.same i c hv]; rfl
  updateK a b h i c hv := by rw [hb.update a b h.same i c hv]; rfl
  update a b h i c hv := congrArg (fun r => r.2.2) (hb.update a b h.same i c hv)
  dist w w' h := by simp only [Rels.same] at h; rw [h, hb.dist]
  resetCov k k' h i := by simp only [Rels.same] at h ⊢; rw [h, hb.resetCov]
  inPost a b h := hb.inPost a b h.same
  moving a b h := hb.moving a b h.same
  repatch t t' ht a b h hv := by simp only [Rels.same] at ht; subst ht; exact hb.repatch t a b h hv
  score := hb.score
  detect a b h := hb.detect a b h.same
  median a b h := hb.median a b h.same
  initFeature med a b live h i c hv := by
    have := hb.initFeature med a b h.same i c hv
    exact ⟨congrArg Prod.fst this, congrArg Prod.snd this⟩
  finish t t' w w' ht hw := by simp only [Rels.same] at ht hw ⊢; rw [ht, hw, hb.finish]
  zvu w w' k k' co hw hk := by simp only [Rels.same] at hw hk ⊢; rw [hw, hk, hb.zvu]; exact ⟨rfl, rfl, rfl⟩

end Spec

namespace Img

variable {cfg : Cfg} {env env' : Env P W K n nCam}

lemma alike_imageUpdate (hb : Alike R env env') (I : USet) (order : Finset (Fin n) → List (Fin n)) (ho : ∀ s, ∀ i ∈ order s, i ∈ s) (fuel : ℕ)
    (hg : (I.Lawful ∧ -1 ≤ cfg.minAbsST) ∨ ∀ a b c k, SameBy R a b → R ((env.detect a c).patch k) ((env'.detect b c).patch k))
    {a b : St P W K n nCam} (h : SameBy R a b) : Both (SameBy R) (imageUpdate I order cfg env fuel a) (imageUpdate I order cfg env' fuel b) :=
  (sim_imageUpdate Rels.same_ok hb.similar I order ho (.inr fun _ _ h => h) fuel (hg.imp id fun hg a b c k h => hg a b c k h.same) h.sim).mono fun _ _ h => h.same

lemma alike_predict {a b : St P W K n nCam} (h : SameBy R a b) (dt : ℝ) (motion : Bool) (w : W) (cov : K) (coord : Fin n → FC) :
    SameBy R (predict a dt motion w cov coord) (predict b dt motion w cov coord) :=
  (sim_predict (ρ := Rels.same R) h.sim dt (congrArg (· + dt) h.t) motion rfl rfl coord).same

end Img

end Rovio
