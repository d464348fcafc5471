import Verif.Spec.TimeShift
import Verif.Lemmas.ImgFull

/-! # Lemmas for C96: only differences of times matter -/

namespace Rovio

open Spec Img

variable {n nCam nPose : ℕ}

lemma set_later (τ : ℝ) : ∀ (m : Stat.TimeMap) (k : ℝ) (v : Stat.Status),
    Stat.TimeMap.set (m.map fun p => (p.1 + τ, p.2)) (k + τ) v = (m.set k v).map fun p => (p.1 + τ, p.2)
  | [], k, v => rfl
  | (k', v') :: t, k, v => by
    simp only [List.map_cons, Stat.TimeMap.set]
    by_cases h1 : k' < k
    · rw [if_pos h1, if_pos (by linarith)]; rfl
    · rw [if_neg h1, if_neg (by linarith)]
      by_cases h2 : k' = k
      · rw [if_pos h2, if_pos (by rw [h2])]; rfl
      · rw [if_neg h2, if_neg (fun h => h2 (by linarith))]
        rw [set_later τ t k v]; rfl

lemma later_ok {P W K : Type} (R : P → P → Prop) (τ : ℝ) : (Rels.later R τ : Rels P W K nCam).Ok where
  drop e e' h := ⟨h.1, by simp⟩
  fresh v e e' t t' c h ht := by
    obtain ⟨⟨h1, h2, h3⟩, -⟩ := h
    simp only [Rels.later] at ht
    subst ht
    refine ⟨⟨h1, h2, h3⟩, fun _ => ?_⟩
    simp only [newExt, laterExt, Stat.resetStatistics, h1, h2, h3, List.map_nil]
  increase e e' t t' h ht := by
    obtain ⟨-, h⟩ := h
    simp only [Rels.later] at ht
    have := h rfl
    subst ht this
    refine ⟨⟨rfl, rfl, rfl⟩, fun _ => ?_⟩
    simp only [laterExt, Stat.increaseStatistics, set_later]
    rfl
  setStatus e e' c st h := by
    obtain ⟨-, h⟩ := h
    have := h rfl
    subst this
    exact ⟨⟨rfl, rfl, rfl⟩, fun _ => rfl⟩
  setPatch e e' t t' h ht := by
    obtain ⟨-, h⟩ := h
    simp only [Rels.later] at ht
    have := h rfl
    subst ht this
    exact ⟨⟨rfl, rfl, rfl⟩, fun _ => rfl⟩
  status e e' h := by rw [h.2 rfl]; rfl
  good e e' h u l := by rw [h.2 rfl]; rfl
  age e e' t t' h ht := by
    simp only [Rels.later] at ht
    rw [h.2 rfl, ht]
    simp only [laterExt]
    ring

namespace ImgFull

/-- The later filter moved back in time. -/
noncomputable def back (τ : ℝ) (a b : FSt n nCam nPose) : FSt n nCam nPose := { b with t := b.t - τ, ext := a.ext }

lemma back_same {R : MLP → MLP → Prop} {τ : ℝ} {live : Fin n → Bool} {a b : FSt n nCam nPose} (h : SimOn (Rels.later R τ) live a b) : SameBy R a (back τ a b) :=
  ⟨h.w, h.cov, h.fsm, rfl, h.meas, h.id, h.cam, by have := h.t; simp only [Rels.later] at this; simp only [back, this]; ring, h.imageCounter, h.sinceImage,
    h.sinceInertial, h.log⟩

lemma env_later {F : Full n nCam nPose} (hp : Even F.base.p) (hmc : ∀ c, (F.mc.cams c).WF) (τ : ℝ) (m m' : FSt n nCam nPose → Mem)
    (k k' : ℝ → Slot MLP → Mem) : Similar (Rels.later F.Rel τ) (F.env m k) ((laterFull τ F).env m' k') where
  inPrev a b h i c hv := (env_alike hp hmc m (fun _ => m' b) k k').inPrev a (back τ a b) (back_same h) i c hv
  align a b h i c hv := (env_alike hp hmc m (fun _ => m' b) k k').align a (back τ a b) (back_same h) i c hv
  inNew a b h c x := (env_alike hp hmc m (fun _ => m' b) k k').inNew a (back τ a b) (back_same h) c x
  err a b h i c x hv := (env_alike hp hmc m (fun _ => m' b) k k').err a (back τ a b) (back_same h) i c x hv
  updateW a b h i c hv := congrArg Prod.fst ((env_alike hp hmc m (fun _ => m' b) k k').update a (back τ a b) (back_same h) i c hv)
  updateK a b h i c hv := congrArg Prod.fst (congrArg Prod.snd ((env_alike hp hmc m (fun _ => m' b) k k').update a (back τ a b) (back_same h) i c hv))
  update a b h i c hv := congrArg Prod.snd (congrArg Prod.snd ((env_alike hp hmc m (fun _ => m' b) k k').update a (back τ a b) (back_same h) i c hv))
  dist w w' h := by simp only [Rels.later] at h; subst h; rfl
  resetCov x x' h i := by simp only [Rels.later] at h; subst h; rfl
  inPost a b h i c hv := (env_alike hp hmc m (fun _ => m' b) k k').inPost a (back τ a b) (back_same h) i c hv
  moving a b h i hv := (env_alike hp hmc m (fun _ => m' b) k k').moving a (back τ a b) (back_same h) i hv
  repatch t t' ht a b h hv := by
    simp only [Rels.later] at ht
    subst ht
    have := (env_alike hp hmc m m' k (fun s x => k' (s + τ) x)).repatch t a b h hv
    have e : ((laterFull τ F).env m' k').repatch (t + τ) b = (F.env m' fun s x => k' (s + τ) x).repatch t b := by
      simp only [Full.env, Full.repatch, laterFull, add_sub_cancel_right]
      rfl
    rw [e]
    exact this
  score p q h := (env_alike hp hmc m m' k k').score p q h
  detect a b h c := (env_alike hp hmc m (fun _ => m' b) k k').detect a (back τ a b) (back_same h) c
  median a b h := (env_alike hp hmc m (fun _ => m' b) k k').median a (back τ a b) (back_same h)
  initFeature med a b live h i c hv := by
    have := (env_alike hp hmc m (fun _ => m' b) k k').initFeature med a (back τ a b) (back_same h) i c hv
    exact ⟨congrArg Prod.fst this, congrArg Prod.snd this⟩
  finish t t' w w' ht h := by
    simp only [Rels.later] at ht h
    subst ht h
    simp only [Full.env, laterFull, add_sub_cancel_right, Rels.later]
  zvu w w' x x' co h hx := by
    simp only [Rels.later] at h hx
    subst h hx
    exact ⟨rfl, rfl, rfl⟩

end ImgFull

end Rovio
