import Verif.Spec.ImgPose
import Verif.Lemmas.Ekf

/-! # Specification: filter steps that have a result (C78, from pixels) -/

namespace Rovio.Spec

open Rovio.ImgFull

variable {n nCam nPose : ℕ}

/-- Whatever is measured next, the filter step with it has a result: no matrix to be inverted is singular, every bearing is known, every warp can be had. -/
structure StepsHaveResults (cfg : FCfg n (nCam + 1) nPose) (s : ImgFull.FSt n (nCam + 1) nPose) (u : PoseUpd nPose) : Prop where
  imu : ∀ m dt, 0 < dt → (FSt.predict cfg m dt ⟨here s, s.cov, u⟩).isSome = true
  velocity : ∀ v, (FSt.velocity cfg v ⟨here s, s.cov, u⟩).isSome = true
  zeroVelocity : (FSt.zeroVel cfg (fun _ => true) ⟨here s, s.cov, u⟩).isSome = true
  pose : ∀ m : PoseMeas, m.att.IsUnit → StrictPos (u.setNoise m).noise → (FSt.pose cfg m ⟨here s, s.cov, u⟩).isSome = true

end Rovio.Spec
