import Verif.Model.ImgFull

/-! # Coordinates whose bearing has been computed -/

namespace Rovio.ImgFull

lemma comNor_camID {c c' : FC} {b : Bool} (h : c.comNor = some (c', b)) : c'.camID = c.camID := by
  unfold FC.comNor at h
  split at h
  · cases h; rfl
  · split at h
    · cases h
    · split at h <;> cases h <;> rfl

lemma known_camID (c : FC) : (known c).camID = c.camID := by
  unfold known
  cases h : c.comNor with
  | none => rfl
  | some r => exact comNor_camID (b := r.2) h

/-- Nothing to compute. -/
lemma known_of_valid {c : FC} (h : c.validNor = true) : known c = c := by
  unfold known FC.comNor; rw [if_pos h]; rfl

lemma known_setCamID (c : FC) (k : ℤ) : known { c with camID := k } = { known c with camID := k } := by
  unfold known FC.comNor
  dsimp only
  split
  · rfl
  · split
    · rfl
    · split <;> rfl

/-- Asking twice is asking once. -/
lemma known_known (c : FC) : known (known c) = known c := by
  by_cases hv : c.validNor = true
  · rw [known_of_valid hv, known_of_valid hv]
  · cases hc : c.cam with
    | none =>
      have : known c = c := by unfold known FC.comNor; rw [if_neg hv]; simp [hc]
      rw [this, this]
    | some cam =>
      by_cases hC : c.validC = true
      · have e : known c = { c with nor := (cam.p2b c.c).1, validNor := (cam.p2b c.c).2 } := by
          unfold known FC.comNor; rw [if_neg hv]; simp [hc, hC]
        rw [e]
        cases hb : (cam.p2b c.c).2 with
        | true => exact known_of_valid rfl
        | false => unfold known FC.comNor; simp [hc, hC, hb]
      · have : known c = c := by unfold known FC.comNor; rw [if_neg hv]; simp [hc, hC]
        rw [this, this]

end Rovio.ImgFull
