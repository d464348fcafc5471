import Verif.Model.ImgInnov

/-!
# Model of the measurement noise of the image update, `include/rovio/ImgUpdate.hpp`

`updnoiP_` is a member of the update that outlives the measurements: it is set when the settings are refreshed and again, in the
direct method only, when a measurement is prepared.  The filter (LWF) adds it to the innovation covariance through `jacNoise`.
-/

namespace Rovio.ImgNoise

/-- The settings the noise depends on, include/rovio/ImgUpdate.hpp:209-221: `useDirectMethod_`, `updateNoisePix_`, `updateNoiseInt_`,
`noiseGainForOffCamera_`. -/
structure Cfg where
  direct : Bool
  pix : ℝ
  int : ℝ
  gain : ℝ

/-- The settings in effect and `updnoiP_`. -/
structure St where
  cfg : Cfg
  R : M2

/-- `setIdentity` followed by a multiplication with a scalar, e.g. include/rovio/ImgUpdate.hpp:378-379. -/
def diag (x : ℝ) : M2 := ⟨1 * x, 0 * x, 0 * x, 1 * x⟩

/-- `refreshProperties`, include/rovio/ImgUpdate.hpp:375-383, after the settings were read. -/
def refresh (cfg : Cfg) : St := { cfg := cfg, R := if cfg.direct then diag cfg.int else diag cfg.pix }

/-- Preparation of a measurement in camera number `counter` counted from the feature's own, include/rovio/ImgUpdate.hpp:717-727
(direct method), 728-752 (otherwise: unchanged). -/
def prepare (s : St) (counter : ℕ) : St :=
  if s.cfg.direct then { s with R := if counter = 0 then diag s.cfg.int else ⟨1 * s.cfg.int * s.cfg.gain, 0 * s.cfg.int * s.cfg.gain, 0 * s.cfg.int * s.cfg.gain, 1 * s.cfg.int * s.cfg.gain⟩ }
  else s

/-- `jacNoise`, include/rovio/ImgUpdate.hpp:575-578: the identity on the two rows of the innovation. -/
def jacNoise : M2 := M2.one

/-- The noise covariance the filter uses for the prepared measurement: `G R Gᵀ`. -/
def used (s : St) : M2 := (jacNoise.mul s.R).mul ⟨jacNoise.a, jacNoise.c, jacNoise.b, jacNoise.d⟩

/-- What happens to the update object: settings are read and refreshed, or a measurement is prepared and used. -/
inductive Event where
  | refresh (cfg : Cfg)
  | measurement (counter : ℕ)

/-- A history: the noise covariances used for the measurements, in order. -/
def run : St → List Event → List M2
  | _, [] => []
  | _, .refresh cfg :: es => run (refresh cfg) es
  | s, .measurement k :: es => used (prepare s k) :: run (prepare s k) es

end Rovio.ImgNoise
