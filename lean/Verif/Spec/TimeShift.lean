import Verif.Spec.Sim
import Verif.Model.ImgFull
import Verif.Model.Node

/-!
# The same recording at another time

All times (of images, of resets, in statistics) are later by a constant.
-/

namespace Rovio.Spec

open Rovio.Img

variable {n nCam nPose : ℕ}

/-- Statistics of a feature, all times later by `τ`. -/
noncomputable def laterExt (τ : ℝ) (e : Ext nCam) : Ext nCam :=
  { stat := { e.stat with
      initTime := e.stat.initTime + τ
      currentTime := e.stat.currentTime + τ
      statistics := fun i => (e.stat.statistics i).map fun p => (p.1 + τ, p.2) }
    lastPatch := e.lastPatch + τ }

/-- What the statistics of a slot without a feature still determine: the settings. -/
structure SameRanges (e e' : Ext nCam) : Prop where
  quality : e'.stat.localQualityRange = e.stat.localQualityRange
  visibility : e'.stat.localVisibilityRange = e.stat.localVisibilityRange
  global : e'.stat.minGlobalQualityRange = e.stat.minGlobalQualityRange

/-- The correspondence of a filter with the same filter later by `τ`: estimate and covariance are equal, patches agree (`R`), time and the times in the
statistics of features are later by `τ`. -/
def Rels.later {P W K : Type} (R : P → P → Prop) (τ : ℝ) : Rels P W K nCam where
  patch := R
  w := Eq
  cov := Eq
  time t t' := t' = t + τ
  ext v e e' := SameRanges e e' ∧ (v = true → e' = laterExt τ e)

/-- The same images later by `τ`. -/
def laterFull (τ : ℝ) (F : ImgFull.Full n nCam nPose) : ImgFull.Full n nCam nPose :=
  { F with imgs := fun t => F.imgs (t - τ), corners := fun t => F.corners (t - τ) }

/-- The same happening later by `τ`. -/
def laterHappening (τ : ℝ) : ImgFull.Happening n nCam nPose → ImgFull.Happening n nCam nPose
  | .filter g dt motion => .filter g dt motion
  | .image t => .image (t + τ)
  | .reset init t => .reset init (t + τ)

/-- The same message with a later stamp. -/
def laterEv {Im : Type} (τ : ℝ) : Node.Ev Im → Node.Ev Im
  | .imu acc gyr t => .imu acc gyr (t + τ)
  | .image c im t => .image c im (t + τ)
  | .transform pos q t => .transform pos q (t + τ)
  | .odometry pos q cov t => .odometry pos q cov (t + τ)
  | .velocity v t => .velocity v (t + τ)
  | .reset => .reset
  | .resetToPose pos q => .resetToPose pos q

/-- The same call into the filter with a later time. -/
def laterCall {Im : Type} (τ : ℝ) : Node.Call nCam Im → Node.Call nCam Im
  | .addImu m t => .addImu m (t + τ)
  | .resetWithPose r q t => .resetWithPose r q (t + τ)
  | .resetWithAccel acc t => .resetWithAccel acc (t + τ)
  | .addImages imgs t => .addImages imgs (t + τ)
  | .addPose m t => .addPose m (t + τ)
  | .addVelocity v t => .addVelocity v (t + τ)
  | .update => .update

end Rovio.Spec
