import Verif.Model.ImgUpdate

/-! # Specification vocabulary for processing one image (properties C33-C39, C69, C70) -/

namespace Rovio.Img.Spec

/-- Number of camera steps from the feature's own camera `own` to camera `c`, going round. -/
def offset (nCam : ℕ) (own : ℤ) (c : Fin nCam) : ℕ := (((c : ℤ) - own) % nCam).toNat

/-- Place of (slot, camera) in the order "slots upwards; for each slot the cameras starting with the feature's own
one and going round". -/
def rank {n : ℕ} (nCam : ℕ) (own : Fin n → ℤ) (i : Fin n) (c : Fin nCam) : ℕ := i * nCam + offset nCam (own i) c

/-- The cameras a feature is looked for in: all of them with cross-camera measurements, else its own one. -/
def Usable {nCam : ℕ} (cross : Bool) (own : ℤ) (c : Fin nCam) : Prop := cross = true ∨ (c : ℤ) = own

end Rovio.Img.Spec

namespace Rovio.Img.Spec

open Stat

/-- The same statistics with other current statuses. -/
def withStatus {nCam : ℕ} (f : FeatureStatistics nCam) (g : Fin nCam → Status) : FeatureStatistics nCam :=
  { f with status := g }

/-- The status a slot got in a camera according to the record of visits (none: not visited, or removed during the
visit). -/
def outcome {n nCam : ℕ} (log : List (Visit n nCam)) (i : Fin n) (c : Fin nCam) : Option Status :=
  (log.find? fun v => decide (v.i = i ∧ v.c = c)).bind Visit.result

end Rovio.Img.Spec

namespace Rovio.Img.Spec

open Stat

/-- Statistics that some history of operations on a freshly constructed object with sensible ranges produces. -/
def Reachable {nCam : ℕ} (f : FeatureStatistics nCam) : Prop :=
  ∃ (lq lv mg : ℤ) (t : ℝ) (ops : List (Op nCam)), 1 ≤ lq ∧ 1 ≤ lv ∧ 1 ≤ mg ∧ f = run (init lq lv mg t) ops

/-- Time since the last detection in a list of (elapsed time, detected) records, starting from `t0`. -/
noncomputable def since (t0 : ℝ) : List (ℝ × Bool) → ℝ
  | [] => t0
  | (dt, fired) :: l => since (if fired then 0 else t0 + dt) l

/-- The grid of offsets, row by row. -/
def grid (m : ℕ) : List (ℤ × ℤ) :=
  (List.range (2 * m + 1)).flatMap fun (a : ℕ) => (List.range (2 * m + 1)).map fun (b : ℕ) => ((a : ℤ) - m, (b : ℤ) - m)

end Rovio.Img.Spec

namespace Rovio.Img.Spec

open Stat

variable {P W K : Type} {n nCam : ℕ}

/-- The conditions under which the reference patch of slot `i` may be replaced by `p`: valid, tracked in its own camera,
more than the configured time since the last replacement, `p` is what the image shows at the feature, and its score
passes the absolute and the relative threshold. -/
def MayReplace (cfg : Cfg) (env : Env P W K n nCam) (s : St P W K n nCam) (i : Fin n) (p : P) : Prop :=
  (s.fsm.slots i).valid = true ∧
  (∃ c : Fin nCam, (c : ℤ) = (s.fsm.slots i).coord.camID ∧ (s.ext i).stat.status c = .tracked) ∧
  cfg.minTimePatch < s.t - (s.ext i).lastPatch ∧
  env.repatch s.t (s.fsm.slots i) = some p ∧
  cfg.minAbsST ≤ env.score p ∧ cfg.minRelST * env.score (s.fsm.slots i).patch ≤ env.score p

/-- Number of visible valid features. -/
def inFrameCount (env : Env P W K n nCam) (s : St P W K n nCam) : ℕ :=
  (Finset.univ.filter fun i => (s.fsm.slots i).valid = true ∧ env.moving s i ≠ none).card

/-- Number of visible valid features seen moving. -/
def movingCount (env : Env P W K n nCam) (s : St P W K n nCam) : ℕ :=
  (Finset.univ.filter fun i => (s.fsm.slots i).valid = true ∧ env.moving s i = some true).card

/-- Slots filled between two states. -/
def added (s r : St P W K n nCam) : Finset (Fin n) :=
  Finset.univ.filter fun i => (s.fsm.slots i).valid = false ∧ (r.fsm.slots i).valid = true

/-- Number of free slots. -/
def free (s : St P W K n nCam) : ℕ := (Finset.univ.filter fun i => (s.fsm.slots i).valid = false).card

/-- Number of features tracked in some camera. -/
def tracked (s : St P W K n nCam) : ℕ :=
  (Finset.univ.filter fun i => (s.fsm.slots i).valid = true ∧ ∃ c, (s.ext i).stat.status c = .tracked).card

end Rovio.Img.Spec
