import Verif.Spec.AtRestImg
import Verif.Model.ImgIekf

/-!
# An image that shows what the estimate predicts, for the iterated update
-/

namespace Rovio.Spec

open Rovio ImgFull Img

variable {n nCam nPose : ℕ}

/-- Direct method: the whole image agrees with the estimate `s`.  Wherever the brightness errors of a feature in use, at the coordinates the estimate predicts, can be reduced to
two equations, their error is zero. -/
def AgreesThroughout (F : Full n nCam nPose) (s : ImgFull.FSt n nCam nPose) : Prop :=
  ∀ s' : ImgFull.FSt n nCam nPose, Undisturbed s s' → ∀ i c, s'.valid i = true → ∀ (m : Mem) (f : FC), PredictedIn F s' i c f →
    ∀ r e A v, ImgPixel.innovation (F.pix m) (F.imgs s'.t c) (s'.fsm.slots i).patch f = some (r, e) → F.reduce e = some (A, v) → v = 0

/-- Contract of the logarithms of the libraries: between equal elements there is no difference. -/
structure ZeroDifference (c : IterCfg) : Prop where
  log : c.log Quat.one = 0
  norDiff : ∀ a, c.norDiff a a = 0

end Rovio.Spec
