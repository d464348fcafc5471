import Verif.Model.Filter

/-!
# Slots in use

The filter state has a fixed number of slots for features (include/rovio/FilterStates.hpp).  Slots without a feature keep an estimate, a covariance and correlations.
-/

namespace Rovio

variable {n nCam nPose : ℕ}

/-- Rows of the covariance that belong to slots that are not in use (`L`: the slots in use). -/
def Ix.unused (L : Fin n → Bool) : Ix n nCam nPose → Bool
  | .nor i _ => !L i
  | .dep i => !L i
  | _ => false

namespace Spec

/-- Two estimates that differ at most in the slots that are not in use. -/
structure SlotX (L : Fin n → Bool) (x y : State n nCam nPose) : Prop where
  rest : { x with fea := y.fea } = y
  fea : ∀ i, L i = true → x.fea i = y.fea i

/-- Two covariances that differ at most in the rows and columns of slots that are not in use. -/
def SlotP (L : Fin n → Bool) (P Q : Cov n nCam nPose) : Prop := ∀ a b : Ix n nCam nPose, a.unused L = false → b.unused L = false → P a b = Q a b

/-- Two filters that differ at most in the slots that are not in use. -/
structure SlotApart (L : Fin n → Bool) (a b : FSt n nCam nPose) : Prop where
  x : SlotX L a.s b.s
  P : SlotP L a.P b.P
  u : a.u = b.u

/-- If both are defined, they are related. -/
def IfBoth {α β : Type} (R : α → β → Prop) (x : Option α) (y : Option β) : Prop := ∀ a b, x = some a → y = some b → R a b

/-- A step of the filter with the slots `L` in use before and `L'` after it: image corrections are about features in use and computed from what is in use, feature management
decides from what is in use; slots that come into use get an estimate and a new covariance. -/
inductive SlotStep : (Fin n → Bool) → Step n nCam nPose → (Fin n → Bool) → Prop
  | predict (L) (m : ImuMeas) (dt : ℝ) : SlotStep L (.predict m dt) L
  | velocity (L) (v : V3) : SlotStep L (.velocity v) L
  | pose (L) (meas : PoseMeas) : SlotStep L (.pose meas) L
  | zeroVel (L) (trigger) (h : ∀ x y, SlotX L x y → trigger x = trigger y) : SlotStep L (.zeroVel trigger) L
  | image (L) (alg) (h : ∀ x y P Q, SlotX L x y → SlotP L P Q → alg x P = alg y Q) (hi : ∀ x P c, alg x P = some c → L c.i = true) : SlotStep L (.image alg) L
  | manage (L L') (alg) (haux : ∀ x y P Q, SlotX L x y → SlotP L P Q → (alg x P).aux = (alg y Q).aux)
      (hreset : ∀ x y P Q, SlotX L x y → SlotP L P Q → (alg x P).reset = (alg y Q).reset)
      (hfea : ∀ x y P Q, SlotX L x y → SlotP L P Q → ∀ i, L' i = true → (alg x P).fea i = (alg y Q).fea i)
      (hnew : ∀ x P i, L' i = true → L i = false → ∃ C, (i, C) ∈ (alg x P).reset) : SlotStep L (.manage alg) L'

/-- A run with the slots `L` in use at the start and `L'` at the end. -/
inductive SlotRun : (Fin n → Bool) → List (Step n nCam nPose) → (Fin n → Bool) → Prop
  | nil (L) : SlotRun L [] L
  | cons {L L' L'' e es} (h : SlotStep L e L') (t : SlotRun L' es L'') : SlotRun L (e :: es) L''

end Spec

end Rovio
