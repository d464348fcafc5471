import Verif.Model.Filter

/-!
# Changing the frame of the external poses

External poses are measured in a frame `I` of the measuring system.  A change of that frame turns it (about any axis) and shifts its origin; the body whose
pose is measured, the world frame of the filter and everything else stay where they are.
-/

namespace Rovio.Spec

variable {n nCam nPose : ℕ}

/-- A change of the frame of the external poses: coordinates are turned by `q`, then shifted by `t`. -/
structure ExtFrame where
  q : Quat
  t : V3

namespace ExtFrame

/-- A point in the new frame. -/
def pos (h : ExtFrame) (p : V3) : V3 := h.q.rotate p + h.t

/-- A rotation that starts from the frame, from the new frame. -/
def att (h : ExtFrame) (a : Quat) : Quat := a * h.q.inv

/-- The rotation matrix. -/
def rot (h : ExtFrame) : Matrix (Fin 3) (Fin 3) ℝ :=
  Matrix.of fun k l => (h.q.rotate ⟨if l = 0 then 1 else 0, if l = 1 then 1 else 0, if l = 2 then 1 else 0⟩).at k

/-- Pose errors in the new frame: position errors are turned; attitude errors are vectors of the body and stay. -/
def err (h : ExtFrame) : Matrix PoseIx PoseIx ℝ := Matrix.fromBlocks h.rot 0 0 1

/-- The same measured pose in the new frame. -/
def meas (h : ExtFrame) (m : PoseMeas) : PoseMeas := ⟨h.pos m.pos, h.att m.att, h.err * m.cov * h.err.transpose⟩

/-- The same step with the pose given in the new frame. -/
def step (h : ExtFrame) : Step n nCam nPose → Step n nCam nPose
  | .pose m => .pose (h.meas m)
  | e => e

/-- The same estimate, if the additional pose `k` (if any) is the estimated pose of the world in the frame. -/
def state (h : ExtFrame) (k : Option (Fin nPose)) (s : State n nCam nPose) : State n nCam nPose :=
  { s with
    pop := fun j => if k = some j then h.pos (s.pop j) else s.pop j
    poa := fun j => if k = some j then h.att (s.poa j) else s.poa j }

/-- Estimation errors in the new frame: those of the estimated position of the world are turned. -/
def mat (h : ExtFrame) (k : Option (Fin nPose)) : Cov n nCam nPose := Matrix.of fun
  | .pop i a, .pop j b => if i = j then (if k = some i then h.rot a b else if a = b then 1 else 0) else 0
  | a, b => if a = b then 1 else 0

/-- The same covariance. -/
def cov (h : ExtFrame) (k : Option (Fin nPose)) (P : Cov n nCam nPose) : Cov n nCam nPose := h.mat k * P * (h.mat k).transpose

/-- The same settings: the configured pose of the world in the frame, used if it is not estimated, is converted. -/
def settings (h : ExtFrame) (u : PoseUpd nPose) : PoseUpd nPose := { u with qWI := h.att u.qWI, IrIW := h.pos u.IrIW }

/-- The frame and the mounting of the measured body are not the same additional pose. -/
def Apart (u : PoseUpd nPose) : Prop := ∀ j, u.inertial = some j → u.body ≠ some j

/-- Two filters that differ by the frame of the external poses only.  (`noise` is scratch memory, set before every use.) -/
structure Moved (h : ExtFrame) (x y : FSt n nCam nPose) : Prop where
  s : y.s = h.state x.u.inertial x.s
  P : y.P = h.cov x.u.inertial x.P
  u : y.u = { h.settings x.u with noise := y.u.noise }

end ExtFrame

/-- The configured noise of measured poses does not prefer a direction of the frame: one variance for all position components. -/
def SameInAllDirections (N : Matrix PoseIx PoseIx ℝ) : Prop := ∃ (a : ℝ) (ν : Fin 3 → ℝ), N = Matrix.diagonal (Sum.elim (fun _ => a) ν)

/-- An outlier test that accepts or rejects whole measurements, independently of the axes in which they are expressed. -/
structure AxisFree {m : ℕ} (gate : Gate m) : Prop where
  whole : ∀ y S i j, gate y S i = gate y S j
  axes : ∀ D : Matrix (Fin m) (Fin m) ℝ, D * D.transpose = 1 → ∀ y S, gate (D.mulVec y) (D * S * D.transpose) = gate y S

/-- The test of LWF for a single group of rows (`ODEntry<_pos, 6>`, include/rovio/PoseUpdate.hpp:111): the Mahalanobis distance of the whole innovation. -/
noncomputable def mahalanobis {m : ℕ} (th : ℝ) : Gate m := fun y S _ => open Classical in decide (th < dotProduct y (S⁻¹.mulVec y))

end Rovio.Spec
