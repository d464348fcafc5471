import Verif.Model.Covariance

/-!
# Model of the initialisation of new features in `include/rovio/ImgUpdate.hpp:998-1047`

Distance, covariance and stereo initialisation of the features returned by `addBestCandidates` (the detection itself and the
bookkeeping of the slots are in `Model/ImgUpdate.lean`).  The search for the feature in the other camera (`align2DAdaptive`,
in-frame test, average intensity difference) is a parameter.  Drawing is omitted.
-/

namespace Rovio

open Distance

variable {n nCam nPose : ℕ}

/-- What the alignment reads of the coordinates it is given (src/FeatureCoordinates.cpp accessors, used by
include/rovio/MultilevelPatchAlignment.hpp): bearing, warps if known, identity flag, whether warps follow changes. -/
structure FCView where
  nor : Nor
  warpNor : Option M2
  warpC : Option M2
  identity : Bool
  track : Bool

/-- The view of coordinates whose bearing is known. -/
def FC.view (c : FC) : FCView where
  nor := c.nor
  warpNor := if c.validWarpNor then some c.warpNor else none
  warpC := if c.validWarpC then some c.warpC else none
  identity := c.isWarpIdentity
  track := c.trackWarping

/-- Parameters of the initialisation, include/rovio/ImgUpdate.hpp:185-187, 213-216: `initCovFeature_` (order distance, bearing),
`doStereoInitialization_`, and the accepted match in the other camera (1016-1030; `none`: no alignment, outside the frame or
too different) for the feature of a slot seen as given. -/
structure NewCfg (n : ℕ) where
  C : Matrix (Fin 3) (Fin 3) ℝ
  stereo : Bool
  found : Fin n → FCView → Option FC

/-- `initCovFeature_` while its entry (0,0) is scaled, include/rovio/ImgUpdate.hpp:1003-1006 (restored afterwards; the copy
in a `float` is taken as exact). -/
noncomputable def scaleDepth (C : Matrix (Fin 3) (Fin 3) ℝ) (d : FeatureDistance) : Matrix (Fin 3) (Fin 3) ℝ := fun k l =>
  if k = 0 ∧ l = 0 then C 0 0 * (getParameterDerivative d * getDistance d) ^ 2 else C k l

/-- `*f.mpDistance_ = d` for the feature in slot `i`, include/rovio/ImgUpdate.hpp:1002, 1035. -/
def State.setDist (s : State n nCam nPose) (i : Fin n) (d : FeatureDistance) : State n nCam nPose :=
  { s with fea := Function.update s.fea i { s.fea i with d := d } }

/-- `otherCam = (camID+1)%nCam`, include/rovio/ImgUpdate.hpp:1013. -/
def otherCam (c : Fin nCam) : Fin nCam := ⟨(c.val + 1) % nCam, Nat.mod_lt _ (by have := c.isLt; omega)⟩

/-- Triangulation with the match in the other camera, include/rovio/ImgUpdate.hpp:1035-1037. -/
noncomputable def stereoInit (C : Matrix (Fin 3) (Fin 3) ℝ) (c : Fin nCam) (s : State n nCam nPose) (P : Cov n nCam nPose) (i : Fin n) (al : FC) :
    Option (State n nCam nPose × Cov n nCam nPose) := do
  let (_, v1) ← (s.fea i).c.getNor
  let (_, v2) ← al.getNor
  let o := otherCam c
  match FC.depthFromTriangulation v1.vec v2.vec ((s.qCM o).rotate (s.MrMC c - s.MrMC o)) (s.qCM o * (s.qCM c).inv) 0.01 with
  | none => return (s, P)
  | some D => do
    let d ← setParameter (s.fea i).d D
    return (s.setDist i d, P.resetFeature i C)

/-- Body of the loop over the new features, include/rovio/ImgUpdate.hpp:1002-1046 for a feature detected in camera `c` with
median distance parameter `med`; the first component is the member `featureOutput_`, written at 1016. -/
noncomputable def initNewFeature (cfg : NewCfg n) (mc : MultiCamera nCam) (sfv : V3 → Nor) (c : Fin nCam) (med : ℝ)
    (x : Fea × State n nCam nPose × Cov n nCam nPose) (i : Fin n) : Option (Fea × State n nCam nPose × Cov n nCam nPose) := do
  let (out, s, P) := x
  let s := s.setDist i { (s.fea i).d with p := med }
  let P := P.resetFeature i (scaleDepth cfg.C (s.fea i).d)
  if nCam > 1 ∧ cfg.stereo = true then do
    let out ← s.featureOut mc sfv i (otherCam c) out
    match cfg.found i out.c.view with
    | none => return (out, s, P)
    | some al => do
      let (s, P) ← stereoInit cfg.C c s P i al
      return (out, s, P)
  else return (out, s, P)

/-- The loop over `newSet`, include/rovio/ImgUpdate.hpp:998-1047, in the given iteration order. -/
noncomputable def initNewFeatures (cfg : NewCfg n) (mc : MultiCamera nCam) (sfv : V3 → Nor) (c : Fin nCam) (med : ℝ) (order : List (Fin n))
    (x : Fea × State n nCam nPose × Cov n nCam nPose) : Option (Fea × State n nCam nPose × Cov n nCam nPose) :=
  order.foldlM (initNewFeature cfg mc sfv c med) x

end Rovio
