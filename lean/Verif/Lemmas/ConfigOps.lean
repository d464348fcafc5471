import Verif.Lemmas.Config

/-! Which calls of the constructors concern a given entry of a register -/

set_option linter.unusedSimpArgs false
set_option linter.unusedVariables false

namespace Rovio.Config

variable {n nCam nPose : ℕ}

lemma alignmentOps_eq : (alignmentOps : Option (List (Op n nCam nPose))) =
    some ((if h : 0 < nPose then alignOps "IrIW" "qWI" ⟨0, h⟩ else []) ++ (if h : 1 < nPose then alignOps "MrMV" "qVM" ⟨1, h⟩ else [])) := by
  unfold alignmentOps inertialPoseIndex bodyPoseIndex poseIdx
  rcases nPose with _ | _ | k <;> simp

lemma fr3 : List.finRange 3 = [0, 1, 2] := rfl
lemma fr4 : List.finRange 4 = [0, 1, 2, 3] := rfl

lemma f_predFeature (h : Handler) (v : Var n nCam nPose) : ((List.finRange n).flatMap predFeature).filter (Op.touches h v) =
    match v with
    | .prenoi (.nor i j) => if h = .prediction then [.rem .prediction (.prenoi (.nor i j)), .reg .prediction "PredictionNoise.nor" (.prenoi (.nor i j))] else []
    | .prenoi (.dep i) => if h = .prediction then [.rem .prediction (.prenoi (.dep i)), .reg .prediction "PredictionNoise.dep" (.prenoi (.dep i))] else []
    | _ => [] := by
  rw [List.filter_flatMap]
  rcases v with j | j | j | j | j | ⟨c, j⟩ | ⟨c, j⟩ | ⟨i, j⟩ | i | ⟨k, j⟩ | ⟨k, j⟩ | ⟨c, j⟩ | ⟨c, j⟩ | _ |
    (j | j | j | j | j | ⟨c, j⟩ | ⟨c, j⟩ | ⟨i, j⟩ | i | ⟨k, j⟩ | ⟨k, j⟩) | (j | j | j | j | j | ⟨c, j⟩ | ⟨c, j⟩ | ⟨i, j⟩ | i | ⟨k, j⟩ | ⟨k, j⟩) |
    _ | _ | j | j | j | j | i | i | i | i | _ | c | _ | _
  all_goals first
    | exact flatMap_none _ (fun i => by simp [predFeature, Op.touches, fr3, fr4, regVec, regQuat, refMrMC, refqCM, doVE0])
    | (rw [flatMap_one i _ (by intro x hx; simp [predFeature, Op.touches, fr3, fr4, regVec, regQuat, refMrMC, refqCM, doVE0, hx])]
       try fin_cases j
       all_goals cases h <;> simp [predFeature, Op.touches, fr3, fr4, regVec, regQuat, refMrMC, refqCM, doVE0, List.filter_cons])

lemma f_predCamera (h : Handler) (v : Var n nCam nPose) : ((List.finRange nCam).flatMap predCamera).filter (Op.touches h v) =
    match v with
    | .prenoi (.vep c j) => if h = .prediction then [.rem .prediction (.prenoi (.vep c j)), .reg .prediction "PredictionNoise.vep" (.prenoi (.vep c j))] else []
    | .prenoi (.vea c j) => if h = .prediction then [.rem .prediction (.prenoi (.vea c j)), .reg .prediction "PredictionNoise.vea" (.prenoi (.vea c j))] else []
    | _ => [] := by
  rw [List.filter_flatMap]
  rcases v with j | j | j | j | j | ⟨c, j⟩ | ⟨c, j⟩ | ⟨i, j⟩ | i | ⟨k, j⟩ | ⟨k, j⟩ | ⟨c, j⟩ | ⟨c, j⟩ | _ |
    (j | j | j | j | j | ⟨c, j⟩ | ⟨c, j⟩ | ⟨i, j⟩ | i | ⟨k, j⟩ | ⟨k, j⟩) | (j | j | j | j | j | ⟨c, j⟩ | ⟨c, j⟩ | ⟨i, j⟩ | i | ⟨k, j⟩ | ⟨k, j⟩) |
    _ | _ | j | j | j | j | i | i | i | i | _ | c | _ | _
  all_goals first
    | exact flatMap_none _ (fun c => by simp [predCamera, Op.touches, fr3, fr4, regVec, regQuat, refMrMC, refqCM, doVE0])
    | (rw [flatMap_one c _ (by intro x hx; simp [predCamera, Op.touches, fr3, fr4, regVec, regQuat, refMrMC, refqCM, doVE0, hx])]
       try fin_cases j
       all_goals cases h <;> simp [predCamera, Op.touches, fr3, fr4, regVec, regQuat, refMrMC, refqCM, doVE0, List.filter_cons])

lemma f_predPose (h : Handler) (v : Var n nCam nPose) : ((List.finRange nPose).flatMap predPose).filter (Op.touches h v) =
    match v with
    | .prenoi (.pop k j) => if h = .prediction then [.rem .prediction (.prenoi (.pop k j))] else []
    | .prenoi (.poa k j) => if h = .prediction then [.rem .prediction (.prenoi (.poa k j))] else []
    | _ => [] := by
  rw [List.filter_flatMap]
  rcases v with j | j | j | j | j | ⟨c, j⟩ | ⟨c, j⟩ | ⟨i, j⟩ | i | ⟨k, j⟩ | ⟨k, j⟩ | ⟨c, j⟩ | ⟨c, j⟩ | _ |
    (j | j | j | j | j | ⟨c, j⟩ | ⟨c, j⟩ | ⟨i, j⟩ | i | ⟨k, j⟩ | ⟨k, j⟩) | (j | j | j | j | j | ⟨c, j⟩ | ⟨c, j⟩ | ⟨i, j⟩ | i | ⟨k, j⟩ | ⟨k, j⟩) |
    _ | _ | j | j | j | j | i | i | i | i | _ | c | _ | _
  all_goals first
    | exact flatMap_none _ (fun k => by simp [predPose, Op.touches, fr3, fr4, regVec, regQuat, refMrMC, refqCM, doVE0])
    | (rw [flatMap_one k _ (by intro x hx; simp [predPose, Op.touches, fr3, fr4, regVec, regQuat, refMrMC, refqCM, doVE0, hx])]
       try fin_cases j
       all_goals cases h <;> simp [predPose, Op.touches, fr3, fr4, regVec, regQuat, refMrMC, refqCM, doVE0, List.filter_cons])

set_option maxHeartbeats 1000000 in
lemma f_cameraOps (h : Handler) (v : Var n nCam nPose) : ((List.finRange nCam).flatMap cameraOps).filter (Op.touches h v) =
    match v with
    | .file c => if h = .main then [.reg .main (camName c ++ ".CalibrationFile") (.file c)] else []
    | .auxMrMC c j => if h = .main then [.reg .main (camName c ++ ".MrMC" ++ vecName j) (.auxMrMC c j)] else []
    | .auxqCM c j => if h = .main then [.reg .main (camName c ++ ".qCM" ++ quatName j) (.auxqCM c j)] else []
    | .vep c j => if h = .main then [.rem .main (.vep c j), .reg .main (camName c ++ ".MrMC" ++ vecName j) (.vep c j)] else []
    | .vea c j => if h = .main then [.rem .main (.vea c j), .reg .main (camName c ++ ".qCM" ++ quatName j) (.vea c j)] else []
    | .cov (.vep c j) => if h = .main then [.rem .main (.cov (.vep c j)), .reg .main "Init.Covariance.vep" (.cov (.vep c j))] else []
    | .cov (.vea c j) => if h = .main then [.rem .main (.cov (.vea c j)), .reg .main "Init.Covariance.vea" (.cov (.vea c j))] else []
    | _ => [] := by
  rw [List.filter_flatMap]
  rcases v with j | j | j | j | j | ⟨c, j⟩ | ⟨c, j⟩ | ⟨i, j⟩ | i | ⟨k, j⟩ | ⟨k, j⟩ | ⟨c, j⟩ | ⟨c, j⟩ | _ |
    (j | j | j | j | j | ⟨c, j⟩ | ⟨c, j⟩ | ⟨i, j⟩ | i | ⟨k, j⟩ | ⟨k, j⟩) | (j | j | j | j | j | ⟨c, j⟩ | ⟨c, j⟩ | ⟨i, j⟩ | i | ⟨k, j⟩ | ⟨k, j⟩) |
    _ | _ | j | j | j | j | i | i | i | i | _ | c | _ | _
  all_goals first
    | exact flatMap_none _ (fun c => by simp [cameraOps, Op.touches, fr3, fr4, regVec, regQuat, refMrMC, refqCM, doVE0])
    | (rw [flatMap_one c _ (by intro x hx; simp [cameraOps, Op.touches, fr3, fr4, regVec, regQuat, refMrMC, refqCM, doVE0, hx])]
       try fin_cases j
       all_goals cases h <;> simp [cameraOps, Op.touches, fr3, fr4, regVec, regQuat, refMrMC, refqCM, doVE0, List.filter_cons])

lemma f_poseOps (h : Handler) (v : Var n nCam nPose) : ((List.finRange nPose).flatMap poseOps).filter (Op.touches h v) =
    match v with
    | .pop k j => if h = .main then [.rem .main (.pop k j)] else []
    | .poa k j => if h = .main then [.rem .main (.poa k j)] else []
    | .cov (.pop k j) => if h = .main then [.rem .main (.cov (.pop k j))] else []
    | .cov (.poa k j) => if h = .main then [.rem .main (.cov (.poa k j))] else []
    | _ => [] := by
  rw [List.filter_flatMap]
  rcases v with j | j | j | j | j | ⟨c, j⟩ | ⟨c, j⟩ | ⟨i, j⟩ | i | ⟨k, j⟩ | ⟨k, j⟩ | ⟨c, j⟩ | ⟨c, j⟩ | _ |
    (j | j | j | j | j | ⟨c, j⟩ | ⟨c, j⟩ | ⟨i, j⟩ | i | ⟨k, j⟩ | ⟨k, j⟩) | (j | j | j | j | j | ⟨c, j⟩ | ⟨c, j⟩ | ⟨i, j⟩ | i | ⟨k, j⟩ | ⟨k, j⟩) |
    _ | _ | j | j | j | j | i | i | i | i | _ | c | _ | _
  all_goals first
    | exact flatMap_none _ (fun k => by simp [poseOps, Op.touches, fr3, fr4, regVec, regQuat, refMrMC, refqCM, doVE0])
    | (rw [flatMap_one k _ (by intro x hx; simp [poseOps, Op.touches, fr3, fr4, regVec, regQuat, refMrMC, refqCM, doVE0, hx])]
       try fin_cases j
       all_goals cases h <;> simp [poseOps, Op.touches, fr3, fr4, regVec, regQuat, refMrMC, refqCM, doVE0, List.filter_cons])

lemma f_featureOps (h : Handler) (v : Var n nCam nPose) : ((List.finRange n).flatMap featureOps).filter (Op.touches h v) =
    match v with
    | .dep i => if h = .main then [.rem .main (.dep i)] else []
    | .nor i j => if h = .main then [.rem .main (.nor i j)] else []
    | .cov (.nor i j) => if h = .main then [.rem .main (.cov (.nor i j))] else []
    | .cov (.dep i) => if h = .main then [.rem .main (.cov (.dep i))] else []
    | .quality i => if h = .img then [.reg .img "statLocalQualityRange" (.quality i)] else []
    | .visibility i => if h = .img then [.reg .img "statLocalVisibilityRange" (.visibility i)] else []
    | .global i => if h = .img then [.reg .img "statMinGlobalQualityRange" (.global i)] else []
    | .warping i => if h = .img then [.reg .img "doPatchWarping" (.warping i)] else []
    | _ => [] := by
  rw [List.filter_flatMap]
  rcases v with j | j | j | j | j | ⟨c, j⟩ | ⟨c, j⟩ | ⟨i, j⟩ | i | ⟨k, j⟩ | ⟨k, j⟩ | ⟨c, j⟩ | ⟨c, j⟩ | _ |
    (j | j | j | j | j | ⟨c, j⟩ | ⟨c, j⟩ | ⟨i, j⟩ | i | ⟨k, j⟩ | ⟨k, j⟩) | (j | j | j | j | j | ⟨c, j⟩ | ⟨c, j⟩ | ⟨i, j⟩ | i | ⟨k, j⟩ | ⟨k, j⟩) |
    _ | _ | j | j | j | j | i | i | i | i | _ | c | _ | _
  all_goals first
    | exact flatMap_none _ (fun i => by simp [featureOps, Op.touches, fr3, fr4, regVec, regQuat, refMrMC, refqCM, doVE0])
    | (rw [flatMap_one i _ (by intro x hx; simp [featureOps, Op.touches, fr3, fr4, regVec, regQuat, refMrMC, refqCM, doVE0, hx])]
       try fin_cases j
       all_goals cases h <;> simp [featureOps, Op.touches, fr3, fr4, regVec, regQuat, refMrMC, refqCM, doVE0, List.filter_cons])

lemma f_alignOps (h : Handler) (v : Var n nCam nPose) (lin rot : String) (m : Fin nPose) : (alignOps lin rot m).filter (Op.touches h v) =
    match v with
    | .pop k j => if h = .pose ∧ k = m then [.reg .pose (lin ++ vecName j) (.pop k j)] else []
    | .poa k j => if h = .pose ∧ k = m then [.reg .pose (rot ++ quatName j) (.poa k j)] else []
    | .cov (.pop k j) => if h = .pose ∧ k = m then [.reg .pose ("init_cov_" ++ lin) (.cov (.pop k j))] else []
    | .cov (.poa k j) => if h = .pose ∧ k = m then [.reg .pose ("init_cov_" ++ rot) (.cov (.poa k j))] else []
    | .prenoi (.pop k j) => if h = .pose ∧ k = m then [.reg .pose ("pre_cov_" ++ lin) (.prenoi (.pop k j))] else []
    | .prenoi (.poa k j) => if h = .pose ∧ k = m then [.reg .pose ("pre_cov_" ++ rot) (.prenoi (.poa k j))] else []
    | _ => [] := by
  rcases v with j | j | j | j | j | ⟨c, j⟩ | ⟨c, j⟩ | ⟨i, j⟩ | i | ⟨k, j⟩ | ⟨k, j⟩ | ⟨c, j⟩ | ⟨c, j⟩ | _ |
    (j | j | j | j | j | ⟨c, j⟩ | ⟨c, j⟩ | ⟨i, j⟩ | i | ⟨k, j⟩ | ⟨k, j⟩) | (j | j | j | j | j | ⟨c, j⟩ | ⟨c, j⟩ | ⟨i, j⟩ | i | ⟨k, j⟩ | ⟨k, j⟩) |
    _ | _ | j | j | j | j | i | i | i | i | _ | c | _ | _
  all_goals first
    | (simp [alignOps, Op.touches, fr3, fr4, regVec, regQuat]; done)
    | (by_cases e : k = m
       · subst e
         fin_cases j
         all_goals cases h <;> simp [alignOps, Op.touches, fr3, fr4, regVec, regQuat, List.filter_cons]
       · simp [alignOps, Op.touches, fr3, fr4, regVec, regQuat, e, Ne.symm e])

lemma f_poseUpdate (h : Handler) (v : Var n nCam nPose) : poseUpdate.filter (Op.touches h v) =
    match v with
    | .MrMV j => if h = .pose then [.reg .pose ("MrMV" ++ vecName j) (.MrMV j)] else []
    | .qVM j => if h = .pose then [.reg .pose ("qVM" ++ quatName j) (.qVM j)] else []
    | .IrIW j => if h = .pose then [.reg .pose ("IrIW" ++ vecName j) (.IrIW j)] else []
    | .qWI j => if h = .pose then [.reg .pose ("qWI" ++ quatName j) (.qWI j)] else []
    | _ => [] := by
  rcases v with j | j | j | j | j | ⟨c, j⟩ | ⟨c, j⟩ | ⟨i, j⟩ | i | ⟨k, j⟩ | ⟨k, j⟩ | ⟨c, j⟩ | ⟨c, j⟩ | _ |
    (j | j | j | j | j | ⟨c, j⟩ | ⟨c, j⟩ | ⟨i, j⟩ | i | ⟨k, j⟩ | ⟨k, j⟩) | (j | j | j | j | j | ⟨c, j⟩ | ⟨c, j⟩ | ⟨i, j⟩ | i | ⟨k, j⟩ | ⟨k, j⟩) |
    _ | _ | j | j | j | j | i | i | i | i | _ | c | _ | _
  all_goals first
    | (simp [poseUpdate, Op.touches, fr3, fr4, regVec, regQuat]; done)
    | (fin_cases j
       all_goals cases h <;> simp [poseUpdate, Op.touches, fr3, fr4, regVec, regQuat, List.filter_cons])

end Rovio.Config
