import Verif.Model.ImgEkf
import Verif.Spec.Sim
import Verif.Spec.Unseen
import Verif.Spec.Scratch

/-!
# What image processing sees of the estimate

Features (bearing and distance in the camera) and the mounting of the cameras; not position, attitude, velocity, biases or additional poses.
-/

namespace Rovio

variable {n nCam nPose : ℕ}

/-- Rows of the covariance that image processing reads: features and, if it is calibrated online (`ve`), the mounting of the cameras. -/
def Ix.seen (ve : Bool) : Ix n nCam nPose → Bool
  | .vep _ _ => ve
  | .vea _ _ => ve
  | .nor _ _ => true
  | .dep _ => true
  | _ => false

namespace Spec

open ImgFull Img

/-- Two estimates with the same features and the same mounting of the cameras. -/
structure SameScene (x y : State n nCam nPose) : Prop where
  fea : x.fea = y.fea
  doVE : x.aux.doVE = y.aux.doVE
  MrMC : ∀ c, x.MrMC c = y.MrMC c
  qCM : ∀ c, x.qCM c = y.qCM c

/-- Two covariances that agree in the rows and columns of features and, if it is calibrated online (`ve`), mounting of the cameras. -/
def SameSceneCov (ve : Bool) (P Q : Cov n nCam nPose) : Prop := ∀ a b : Ix n nCam nPose, a.seen ve = true → b.seen ve = true → P a b = Q a b

/-- Functions for the filter update that look at nothing but features and mounting: they give the same for the same scene, and the derivative of the
innovation in any other direction is zero. -/
structure SceneOnly (K : Callbacks n nCam nPose) : Prop where
  innov : ∀ x y, SameScene x y → K.innov x = K.innov y
  jac : ∀ x y, SameScene x y → K.jac x = K.jac y
  cand : ∀ x y, SameScene x y → K.cand x = K.cand y
  check : ∀ x y, SameScene x y → K.check x = K.check y
  row : ∀ x r J s r', K.jac x r = some (J, s, r') → ∀ a : Ix n nCam nPose, a.seen x.aux.doVE = false → ∀ v, J (DState.unit a) = some v → v = 0
  candRow : ∀ x r J r', K.cand x r = some (J, r') → ∀ a : Ix n nCam nPose, a.seen x.aux.doVE = false → ∀ v, J (DState.unit a) = some v → v = 0

/-- A correspondence of estimates and covariances that image processing does not notice and that its own changes of features and covariance keep; `OC` are the initial
covariances of features for which this is required, `ve` says whether calibration of the mounting may be on. -/
structure Unnoticed (ve : Bool) (OC : Matrix (Fin 3) (Fin 3) ℝ → Prop) (RX : State n nCam nPose → State n nCam nPose → Prop) (RP : Cov n nCam nPose → Cov n nCam nPose → Prop) :
    Prop where
  scene : ∀ x y, RX x y → SameScene x y
  calib : ∀ x y, RX x y → y.aux.doVE = true → ve = true
  cov : ∀ P Q, RP P Q → SameSceneCov ve P Q
  fea : ∀ x y, RX x y → ∀ f, RX { x with fea := f } { y with fea := f }
  reset : ∀ P Q, RP P Q → ∀ i C, OC C → RP (P.resetFeature i C) (Q.resetFeature i C)

/-- The initial covariances of features that image processing uses: the identity (removal), the configured one and that scaled with the distance. -/
structure InitOk (OC : Matrix (Fin 3) (Fin 3) ℝ → Prop) (C : Matrix (Fin 3) (Fin 3) ℝ) : Prop where
  one : OC 1
  conf : OC C
  scaled : ∀ d, OC (scaleDepth C d)

/-- The filter update keeps such a correspondence and its success does not depend on the rest. -/
def UpdateKeeps (RX : State n nCam nPose → State n nCam nPose → Prop) (RP : Cov n nCam nPose → Cov n nCam nPose → Prop)
    (lwf : Callbacks n nCam nPose → State n nCam nPose → Cov n nCam nPose → Scr → State n nCam nPose × Cov n nCam nPose × M2 × Bool) : Prop :=
  ∀ K, SceneOnly K → ∀ x y P Q r, RX x y → RP P Q →
    RX (lwf K x P r).1 (lwf K y Q r).1 ∧ RP (lwf K x P r).2.1 (lwf K y Q r).2.1 ∧ (lwf K x P r).2.2 = (lwf K y Q r).2.2

/-- A step on estimate and covariance keeps such a correspondence. -/
def StepKeeps (RX : State n nCam nPose → State n nCam nPose → Prop) (RP : Cov n nCam nPose → Cov n nCam nPose → Prop)
    (g g' : State n nCam nPose → Cov n nCam nPose → State n nCam nPose × Cov n nCam nPose) : Prop :=
  ∀ x y P Q, RX x y → RP P Q → RX (g x P).1 (g' y Q).1 ∧ RP (g x P).2 (g' y Q).2

/-- Filter states whose estimates and covariances correspond and that are the same otherwise: patches, statistics, matches, counters, previous images. -/
def unnoticedRels (RX : State n nCam nPose → State n nCam nPose → Prop) (RP : Cov n nCam nPose → Cov n nCam nPose → Prop) :
    Rels MLP (World n nCam nPose) (Cov n nCam nPose) nCam where
  patch := Eq
  w := fun a b => RX a.x b.x ∧ a.prev = b.prev ∧ a.cJ = b.cJ
  cov := RP
  time := Eq
  ext := fun _ a b => a = b

/-- Two filters that agree in everything that belongs to features (number, coordinates, patches as far as they were written, statistics, matches, distance), to the mounting
of the cameras and to their covariance (that of the mounting only if it is calibrated online), in the previous images, times and counters; the rest of the estimate and of the covariance is free. -/
structure SeenAlike (p l : ℕ) (a b : ImgFull.FSt n nCam nPose) : Prop where
  scene : SameScene a.w.x b.w.x
  cov : SameSceneCov a.w.x.aux.doVE a.cov b.cov
  rest : SameBy (SameMLP p l) { a with w := { a.w with x := b.w.x }, cov := b.cov } b

/-- The filter state with the estimate and covariance in another world frame. -/
def Shift.filter (g : Shift) (s : ImgFull.FSt n nCam nPose) : ImgFull.FSt n nCam nPose :=
  { s with w := { s.w with x := g.state s.w.x }, cov := g.cov s.cov }

/-- The same input in another world frame: only the states of resets refer to it. -/
def Shift.input (g : Shift) : Input n nCam nPose → Input n nCam nPose
  | .reset init t => .reset (g.filter init) t
  | e => e

/-- The covariance `Q` is `P` with additional uncertainty about position and heading: the heading errors are the columns `L (.att 2)` of the given errors, the
position errors those given and what the heading errors displace. -/
def Wider {m : ℕ} (L : Matrix (Ix n nCam nPose) (Fin m) ℝ) (P Q : Cov n nCam nPose) : Prop :=
  ∃ (d : Fin 3 → ℝ) (L' : Matrix (Ix n nCam nPose) (Fin m) ℝ), (∀ j, Unseen fun a => L' a j) ∧ Q = P + L' * L'.transpose ∧
    (∀ j, L' (.att 2) j = L (.att 2) j) ∧ ∀ l j, L' (.pos l) j = L (.pos l) j + d l * L (.att 2) j

end Spec

end Rovio
