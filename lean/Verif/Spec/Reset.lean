import Verif.Model.Reset

/-!
# What "the same filter state" means to an observer

Two filter states are the same to an observer if they agree in everything (estimate, covariance, features with identifiers, coordinates, statistics and
patches, matched coordinates, time, counters, timers) but possibly the patches left behind in slots that hold no feature.
-/

namespace Rovio.Spec

open Rovio.Img

variable {P W K : Type} {n nCam : ℕ}

/-- The same slot to an observer: the patch counts only if there is a feature. -/
structure SameSlot (a b : Slot P) : Prop where
  valid : a.valid = b.valid
  idx : a.idx = b.idx
  coord : a.coord = b.coord
  patch : a.valid = true → a.patch = b.patch

/-- The same set of features to an observer. -/
structure SameSet (a b : FeatSet P n) : Prop where
  slots : ∀ i, SameSlot (a.slots i) (b.slots i)
  maxIdx : a.maxIdx = b.maxIdx

/-- The same filter state to an observer. -/
structure Same (a b : St P W K n nCam) : Prop where
  w : a.w = b.w
  cov : a.cov = b.cov
  fsm : SameSet a.fsm b.fsm
  ext : a.ext = b.ext
  meas : a.meas = b.meas
  id : a.id = b.id
  cam : a.cam = b.cam
  t : a.t = b.t
  imageCounter : a.imageCounter = b.imageCounter
  sinceImage : a.sinceImage = b.sinceImage
  sinceInertial : a.sinceInertial = b.sinceInertial
  log : a.log = b.log

/-- The image processing functions look at the patches of existing features only. -/
structure Blind (env : Env P W K n nCam) : Prop where
  inPrev : ∀ a b, Same a b → env.inPrev a = env.inPrev b
  align : ∀ a b, Same a b → ∀ i, a.valid i = true → env.align a i = env.align b i
  inNew : ∀ a b, Same a b → env.inNew a = env.inNew b
  err : ∀ a b, Same a b → ∀ i, a.valid i = true → env.err a i = env.err b i
  update : ∀ a b, Same a b → ∀ i, a.valid i = true → env.update a i = env.update b i
  inPost : ∀ a b, Same a b → env.inPost a = env.inPost b
  moving : ∀ a b, Same a b → ∀ i, a.valid i = true → env.moving a i = env.moving b i
  detect : ∀ a b, Same a b → env.detect a = env.detect b
  median : ∀ a b, Same a b → env.median a = env.median b
  initFeature : ∀ med a b, Same a b → ∀ i, a.valid i = true → env.initFeature med a i = env.initFeature med b i

/-- Both undefined, or both defined and related. -/
inductive Both {α : Type} (R : α → α → Prop) : Option α → Option α → Prop where
  | none : Both R none none
  | some {a b : α} : R a b → Both R (some a) (some b)

end Rovio.Spec
