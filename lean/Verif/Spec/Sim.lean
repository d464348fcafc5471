import Verif.Spec.Alike

/-!
# Filter states and image processing that correspond to each other

The vocabulary of `Spec/Alike.lean` with relations for estimate, covariance, time and statistics as well: two filters whose states correspond (for example
in another world frame, or at another time) process images in parallel.
-/

namespace Rovio.Spec

open Rovio.Img

variable {P W K : Type} {n nCam : ℕ}

/-- How two filters correspond: patches, estimate, covariance, time, and the statistics of a slot (the flag: whether it holds a feature). -/
structure Rels (P W K : Type) (nCam : ℕ) where
  patch : P → P → Prop
  w : W → W → Prop
  cov : K → K → Prop
  time : ℝ → ℝ → Prop
  ext : Bool → Ext nCam → Ext nCam → Prop

/-- Two filter states that correspond; `live` tells which statistics count. -/
structure SimOn (ρ : Rels P W K nCam) (live : Fin n → Bool) (a b : St P W K n nCam) : Prop where
  w : ρ.w a.w b.w
  cov : ρ.cov a.cov b.cov
  fsm : SameSetBy ρ.patch a.fsm b.fsm
  ext : ∀ i, ρ.ext (live i) (a.ext i) (b.ext i)
  meas : a.meas = b.meas
  id : a.id = b.id
  cam : a.cam = b.cam
  t : ρ.time a.t b.t
  imageCounter : a.imageCounter = b.imageCounter
  sinceImage : a.sinceImage = b.sinceImage
  sinceInertial : a.sinceInertial = b.sinceInertial
  log : a.log = b.log

/-- Two filter states that correspond: statistics count where there is a feature. -/
def SimBy (ρ : Rels P W K nCam) (a b : St P W K n nCam) : Prop := SimOn ρ a.valid a b

/-- What the statistics of a new feature are, include/rovio/ImgUpdate.hpp:998-1001. -/
noncomputable def newExt (c : Fin nCam) (e : Ext nCam) (t : ℝ) : Ext nCam :=
  { stat := { Stat.resetStatistics e.stat t with status := Function.update (Stat.resetStatistics e.stat t).status c .tracked }, lastPatch := t }

/-- The correspondence of times and statistics is kept by the operations on statistics, and decisions based on them agree. -/
structure Rels.Ok (ρ : Rels P W K nCam) : Prop where
  drop : ∀ e e', ρ.ext true e e' → ρ.ext false e e'
  fresh : ∀ v e e' t t' c, ρ.ext v e e' → ρ.time t t' → ρ.ext true (newExt c e t) (newExt c e' t')
  increase : ∀ e e' t t', ρ.ext true e e' → ρ.time t t' →
    ρ.ext true { e with stat := Stat.increaseStatistics e.stat t } { e' with stat := Stat.increaseStatistics e'.stat t' }
  setStatus : ∀ e e' c st, ρ.ext true e e' → ρ.ext true { e with stat := { e.stat with status := Function.update e.stat.status c st } }
    { e' with stat := { e'.stat with status := Function.update e'.stat.status c st } }
  setPatch : ∀ e e' t t', ρ.ext true e e' → ρ.time t t' → ρ.ext true { e with lastPatch := t } { e' with lastPatch := t' }
  status : ∀ e e', ρ.ext true e e' → e.stat.status = e'.stat.status
  good : ∀ e e', ρ.ext true e e' → ∀ u l, Stat.isGoodFeature e.stat u l = Stat.isGoodFeature e'.stat u l
  age : ∀ e e' t t', ρ.ext true e e' → ρ.time t t' → t - e.lastPatch = t' - e'.lastPatch

/-- Two implementations of the image processing that give corresponding results on corresponding filter states. -/
structure Similar (ρ : Rels P W K nCam) (env env' : Env P W K n nCam) : Prop where
  inPrev : ∀ a b, SimBy ρ a b → ∀ i c, a.valid i = true → env.inPrev a i c = env'.inPrev b i c
  align : ∀ a b, SimBy ρ a b → ∀ i c, a.valid i = true → env.align a i c = env'.align b i c
  inNew : ∀ a b, SimBy ρ a b → ∀ c x, env.inNew a c x = env'.inNew b c x
  err : ∀ a b, SimBy ρ a b → ∀ i c x, a.valid i = true → env.err a i c x = env'.err b i c x
  updateW : ∀ a b, SimBy ρ a b → ∀ i c, a.valid i = true → ρ.w (env.update a i c).1 (env'.update b i c).1
  updateK : ∀ a b, SimBy ρ a b → ∀ i c, a.valid i = true → ρ.cov (env.update a i c).2.1 (env'.update b i c).2.1
  update : ∀ a b, SimBy ρ a b → ∀ i c, a.valid i = true → (env.update a i c).2.2 = (env'.update b i c).2.2
  dist : ∀ w w', ρ.w w w' → env.dist w = env'.dist w'
  resetCov : ∀ k k', ρ.cov k k' → ∀ i, ρ.cov (env.resetCov k i) (env'.resetCov k' i)
  inPost : ∀ a b, SimBy ρ a b → ∀ i c, a.valid i = true → env.inPost a i c = env'.inPost b i c
  moving : ∀ a b, SimBy ρ a b → ∀ i, a.valid i = true → env.moving a i = env'.moving b i
  repatch : ∀ t t', ρ.time t t' → ∀ a b, SameSlotBy ρ.patch a b → a.valid = true → Both ρ.patch (env.repatch t a) (env'.repatch t' b)
  score : ∀ p q, ρ.patch p q → env.score p = env'.score q
  detect : ∀ a b, SimBy ρ a b → ∀ c, SameArgs ρ.patch (env.detect a c) (env'.detect b c)
  median : ∀ a b, SimBy ρ a b → env.median a = env'.median b
  initFeature : ∀ med a b live, SimOn ρ live a b → ∀ i c, a.valid i = true →
    ρ.w (env.initFeature med a i c).1 (env'.initFeature med b i c).1 ∧ ρ.cov (env.initFeature med a i c).2 (env'.initFeature med b i c).2
  finish : ∀ t t' w w', ρ.time t t' → ρ.w w w' → ρ.w (env.finish t w) (env'.finish t' w')
  zvu : ∀ w w' k k' co, ρ.w w w' → ρ.cov k k' →
    ρ.w (env.zvu w k co).1 (env'.zvu w' k' co).1 ∧ ρ.cov (env.zvu w k co).2.1 (env'.zvu w' k' co).2.1 ∧ (env.zvu w k co).2.2 = (env'.zvu w' k' co).2.2

end Rovio.Spec
