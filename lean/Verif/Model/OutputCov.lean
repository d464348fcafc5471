import Verif.Model.Covariance
import Verif.Model.Outputs

/-!
# Model of the covariances of the outputs

`transformCovMat` (LWF) computes `J*cov*J.transpose()` and then calls `postProcess`.  The columns of a Jacobian matrix are its values
on the unit error vectors.
-/

namespace Rovio

open Distance Matrix

variable {n nCam nPose : ℕ}

/-- The rows of `StandardOutput`, include/rovio/CoordinateTransform/RovioOutput.hpp:36-41. -/
inductive OutIx where
  | pos (k : Fin 3)
  | vel (k : Fin 3)
  | ror (k : Fin 3)
  | att (k : Fin 3)
deriving DecidableEq

/-- Position of a row, LWF `getId<element>()` plus the offset, for the element order of
include/rovio/CoordinateTransform/RovioOutput.hpp:38-41. -/
def OutIx.id : OutIx → ℕ
  | pos k => k
  | vel k => 3 + k
  | ror k => 6 + k
  | att k => 9 + k

/-- The entry of an output error vector at a row. -/
def DStdOut.get (δ : DStdOut) : OutIx → ℝ
  | .pos k => δ.pos.at k
  | .vel k => δ.vel.at k
  | .ror k => δ.ror.at k
  | .att k => δ.att.at k

/-- Entry of a 3x3 matrix. -/
def M3.ent (m : M3) (i j : Fin 3) : ℝ := (![m.r1, m.r2, m.r3] i).at j

namespace State

/-- The matrix of a Jacobian given column by column (`imuJac`, `camJac`). -/
def stdMat (J : DState n nCam nPose → DStdOut) : Matrix OutIx (Ix n nCam nPose) ℝ := fun a b => (J (DState.unit b)).get a

/-- `postProcess`, include/rovio/CoordinateTransform/RovioOutput.hpp:145-147 and 175-177: the covariance of the measured rate is
added to the rate block as it is, for the camera output as well. -/
def postProcess (s : State n nCam nPose) (C : Matrix OutIx OutIx ℝ) : Matrix OutIx OutIx ℝ := fun a b =>
  match a, b with
  | .ror i, .ror j => C (.ror i) (.ror j) + s.aux.wMeasCov.ent i j
  | a, b => C a b

/-- `transformCovMat` (LWF) for the IMU and the camera output: include/rovio/RovioNode.hpp:722 and 762. -/
noncomputable def stdCov (s : State n nCam nPose) (J : DState n nCam nPose → DStdOut) (P : Cov n nCam nPose) : Matrix OutIx OutIx ℝ :=
  s.postProcess (stdMat J * P * (stdMat J)ᵀ)

/-- The Jacobian matrix of the landmark output, column by column; `none` if a column is. -/
noncomputable def landmarkMat (s : State n nCam nPose) (mc : MultiCamera nCam) (i : Fin n) : Option (Matrix (Fin 3) (Ix n nCam nPose) ℝ) :=
  if h : ∀ a : Ix n nCam nPose, (s.landmarkJac mc i (DState.unit a)).isSome then
    some fun k a => ((s.landmarkJac mc i (DState.unit a)).get (h a)).at k
  else none

/-- `landmarkOutputImuCT_.transformCovMat` (LWF), include/rovio/RovioNode.hpp:912. -/
noncomputable def landmarkCov (s : State n nCam nPose) (mc : MultiCamera nCam) (i : Fin n) (P : Cov n nCam nPose) : Option (Matrix (Fin 3) (Fin 3) ℝ) := do
  let J ← s.landmarkMat mc i
  return J * P * Jᵀ

/-- The Jacobian matrix of the feature output, column by column: two bearing rows and the distance row. -/
noncomputable def featureMat (s : State n nCam nPose) (sfv : V3 → Nor) (i : Fin n) (b : Fin nCam) : Option (Matrix (Fin 3) (Ix n nCam nPose) ℝ) :=
  if h : ∀ a : Ix n nCam nPose, (s.featureJac sfv false i b (DState.unit a)).isSome then
    some fun k a => ![((s.featureJac sfv false i b (DState.unit a)).get (h a)).1.x, ((s.featureJac sfv false i b (DState.unit a)).get (h a)).1.y,
      ((s.featureJac sfv false i b (DState.unit a)).get (h a)).2] k
  else none

end State

/-- The Jacobian matrix of the readable output, include/rovio/CoordinateTransform/FeatureOutputReadable.hpp:87-91, column by
column: three bearing rows and the distance row. -/
noncomputable def Fea.readableMat (f : Fea) : Option (Matrix (Fin 4) (Fin 3) ℝ) := do
  let c0 ← f.readableJac ⟨1, 0⟩ 0
  let c1 ← f.readableJac ⟨0, 1⟩ 0
  let c2 ← f.readableJac ⟨0, 0⟩ 1
  return Matrix.of fun r c => ![(![c0.1, c1.1, c2.1] c).x, (![c0.1, c1.1, c2.1] c).y, (![c0.1, c1.1, c2.1] c).z, ![c0.2, c1.2, c2.2] c] r

namespace State

/-- The readable feature output and its covariance as published for feature `i` (output camera: the camera of the feature),
include/rovio/RovioNode.hpp:902-907; `out` is what the output object held before. -/
noncomputable def readableOut (s : State n nCam nPose) (mc : MultiCamera nCam) (sfv : V3 → Nor) (i : Fin n) (out : Fea) (P : Cov n nCam nPose) :
    Option ((V3 × ℝ) × Matrix (Fin 4) (Fin 4) ℝ) := do
  let b ← camIdx nCam (s.fea i).c.camID
  let f ← s.featureOut mc sfv i b out
  let J ← s.featureMat sfv i b
  let r ← f.readable
  let R ← f.readableMat
  return (r, R * (J * P * Jᵀ) * Rᵀ)

end State

/-! ### The covariance arrays of the messages -/

open Classical in
/-- `cov(r,c)`: the entry at a row and a column number; outside the matrix it is undefined. -/
noncomputable def readAt {ι : Type} (id : ι → ℕ) (M : Matrix ι ι ℝ) (r c : ℕ) : Option ℝ :=
  if h : ∃ p : ι × ι, id p.1 = r ∧ id p.2 = c then some (M h.choose.1 h.choose.2) else none

/-- Assignment to an element of an array. -/
def setArr {m : ℕ} (arr : Fin m → ℝ) (k : ℕ) (v : ℝ) : Option (Fin m → ℝ) := if h : k < m then some (Function.update arr ⟨k, h⟩ v) else none

/-- The double loops filling an array row by row, `array[j+N*i] = M(ind(i),ind(j))`, in the order of the code:
include/rovio/RovioNode.hpp:733-741, 748-756, 774-782, 831-839 (N = 6), 854-863 (N = 3). -/
def fillArray {m : ℕ} (N : ℕ) (rd : ℕ → ℕ → Option ℝ) (ind : ℕ → ℕ) (arr : Fin m → ℝ) : Option (Fin m → ℝ) :=
  ((List.range N).flatMap fun i => (List.range N).map fun j => (i, j)).foldlM
    (fun arr p => (rd (ind p.1) (ind p.2)).bind fun v => setArr arr (p.2 + N * p.1) v) arr

/-- `ind1` and `ind2`: three rows of one element, then three rows of another, e.g. include/rovio/RovioNode.hpp:734-738. -/
def twoIds (id₁ id₂ : ℕ) (i : ℕ) : ℕ := if i ≥ 3 then id₂ + i - 3 else id₁ + i

namespace State

/-- `odometryMsg_.pose.covariance`, include/rovio/RovioNode.hpp:733-741, and the same for the stamped pose, 774-782. -/
noncomputable def poseArray (s : State n nCam nPose) (P : Cov n nCam nPose) (arr : Fin 36 → ℝ) : Option (Fin 36 → ℝ) :=
  fillArray 6 (readAt OutIx.id (s.stdCov s.imuJac P)) (twoIds (OutIx.id (.pos 0)) (OutIx.id (.att 0))) arr

/-- `odometryMsg_.twist.covariance`, include/rovio/RovioNode.hpp:748-756. -/
noncomputable def twistArray (s : State n nCam nPose) (P : Cov n nCam nPose) (arr : Fin 36 → ℝ) : Option (Fin 36 → ℝ) :=
  fillArray 6 (readAt OutIx.id (s.stdCov s.imuJac P)) (twoIds (OutIx.id (.vel 0)) (OutIx.id (.ror 0))) arr

/-- `extrinsicsMsg_[camID].pose.covariance`, include/rovio/RovioNode.hpp:831-839. -/
noncomputable def extrinsicsArray (P : Cov n nCam nPose) (c : Fin nCam) (arr : Fin 36 → ℝ) : Option (Fin 36 → ℝ) :=
  fillArray 6 (readAt Ix.id P) (twoIds (Ix.id (.vep c 0 : Ix n nCam nPose)) (Ix.id (.vea c 0 : Ix n nCam nPose))) arr

/-- `imuBiasMsg_.angular_velocity_covariance` and `linear_acceleration_covariance`, include/rovio/RovioNode.hpp:854-863. -/
noncomputable def biasArrays (P : Cov n nCam nPose) (arr arr' : Fin 9 → ℝ) : Option (Fin 9 → ℝ) × Option (Fin 9 → ℝ) :=
  (fillArray 3 (readAt Ix.id P) (fun i => Ix.id (.gyb 0 : Ix n nCam nPose) + i) arr,
   fillArray 3 (readAt Ix.id P) (fun i => Ix.id (.acb 0 : Ix n nCam nPose) + i) arr')

end State

end Rovio
