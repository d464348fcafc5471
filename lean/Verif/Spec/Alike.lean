import Verif.Spec.Reset

/-!
# Filter states and image processing that agree up to a relation on patches

The vocabulary of C93 with a relation `R` in place of the equality of patches, for two implementations of the image processing.
-/

namespace Rovio.Spec

open Rovio.Img

variable {P W K : Type} {n nCam : ℕ}

/-- The same slot, the patches of features related by `R`. -/
structure SameSlotBy (R : P → P → Prop) (a b : Slot P) : Prop where
  valid : a.valid = b.valid
  idx : a.idx = b.idx
  coord : a.coord = b.coord
  patch : a.valid = true → R a.patch b.patch

/-- The same set of features, the patches related by `R`. -/
structure SameSetBy (R : P → P → Prop) (a b : FeatSet P n) : Prop where
  slots : ∀ i, SameSlotBy R (a.slots i) (b.slots i)
  maxIdx : a.maxIdx = b.maxIdx

/-- The same filter state, the patches of features related by `R`. -/
structure SameBy (R : P → P → Prop) (a b : St P W K n nCam) : Prop where
  w : a.w = b.w
  cov : a.cov = b.cov
  fsm : SameSetBy R a.fsm b.fsm
  ext : a.ext = b.ext
  meas : a.meas = b.meas
  id : a.id = b.id
  cam : a.cam = b.cam
  t : a.t = b.t
  imageCounter : a.imageCounter = b.imageCounter
  sinceImage : a.sinceImage = b.sinceImage
  sinceInertial : a.sinceInertial = b.sinceInertial
  log : a.log = b.log

/-- Two sets of candidates for new features that differ in the patches only, and there by `R`; scores and patches count only for candidates whose patch
lies in the image. -/
structure SameArgs (R : P → P → Prop) (A B : AddArgs P) : Prop where
  nc : A.nc = B.nc
  cand : A.cand = B.cand
  inFrame : A.inFrame = B.inFrame
  shi : ∀ k, A.inFrame k = true → A.shi k = B.shi k
  patch : ∀ k, A.inFrame k = true → R (A.patch k) (B.patch k)
  view : ∀ a b, SameSlotBy R a b → a.valid = true → A.view a = B.view b
  cam : A.cam = B.cam
  nb : A.nb = B.nb
  exponent : A.exponent = B.exponent
  penaltyDistance : A.penaltyDistance = B.penaltyDistance
  zeroPenalty : A.zeroPenalty = B.zeroPenalty

/-- Two implementations of the image processing that give the same results on the same filter states. -/
structure Alike (R : P → P → Prop) (env env' : Env P W K n nCam) : Prop where
  inPrev : ∀ a b, SameBy R a b → ∀ i c, a.valid i = true → env.inPrev a i c = env'.inPrev b i c
  align : ∀ a b, SameBy R a b → ∀ i c, a.valid i = true → env.align a i c = env'.align b i c
  inNew : ∀ a b, SameBy R a b → ∀ c x, env.inNew a c x = env'.inNew b c x
  err : ∀ a b, SameBy R a b → ∀ i c x, a.valid i = true → env.err a i c x = env'.err b i c x
  update : ∀ a b, SameBy R a b → ∀ i c, a.valid i = true → env.update a i c = env'.update b i c
  dist : env.dist = env'.dist
  resetCov : env.resetCov = env'.resetCov
  inPost : ∀ a b, SameBy R a b → ∀ i c, a.valid i = true → env.inPost a i c = env'.inPost b i c
  moving : ∀ a b, SameBy R a b → ∀ i, a.valid i = true → env.moving a i = env'.moving b i
  repatch : ∀ t a b, SameSlotBy R a b → a.valid = true → Both R (env.repatch t a) (env'.repatch t b)
  score : ∀ p q, R p q → env.score p = env'.score q
  detect : ∀ a b, SameBy R a b → ∀ c, SameArgs R (env.detect a c) (env'.detect b c)
  median : ∀ a b, SameBy R a b → env.median a = env'.median b
  initFeature : ∀ med a b, SameBy R a b → ∀ i c, a.valid i = true → env.initFeature med a i c = env'.initFeature med b i c
  finish : env.finish = env'.finish
  zvu : env.zvu = env'.zvu

end Rovio.Spec
