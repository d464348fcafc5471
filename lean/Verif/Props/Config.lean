import Verif.Lemmas.ConfigOps

/-!
# C85: what the entries of the info file set
-/

set_option linter.unusedSimpArgs false
set_option linter.unusedVariables false

namespace Rovio.Config

variable {n nCam nPose : ℕ}

/-! ### Specification: which entry of the info file sets a variable -/

/-- The key of every setting (handler and key), `none` for variables an info file cannot set. -/
def keyOf (dflt : Var n nCam nPose → String) : Var n nCam nPose → Option (Handler × String)
  | .vep c j => some (.main, "Camera" ++ toString c.val ++ ".MrMC" ++ vecName j)
  | .auxMrMC c j => some (.main, "Camera" ++ toString c.val ++ ".MrMC" ++ vecName j)
  | .vea c j => some (.main, "Camera" ++ toString c.val ++ ".qCM" ++ quatName j)
  | .auxqCM c j => some (.main, "Camera" ++ toString c.val ++ ".qCM" ++ quatName j)
  | .file c => some (.main, "Camera" ++ toString c.val ++ ".CalibrationFile")
  | .doVE => some (.main, "Common.doVECalibration")
  | .depthType => some (.main, "Common.depthType")
  | .verbose => some (.main, "Common.verbose")
  | .plotPose => some (.main, "PoseUpdate.doVisualization")
  | .nor _ _ => none
  | .dep _ => none
  | .pop k j => if k.val = 0 then some (.pose, "IrIW" ++ vecName j) else if k.val = 1 then some (.pose, "MrMV" ++ vecName j) else none
  | .poa k j => if k.val = 0 then some (.pose, "qWI" ++ quatName j) else if k.val = 1 then some (.pose, "qVM" ++ quatName j) else none
  | .cov (.vep _ _) => some (.main, "Init.Covariance.vep")
  | .cov (.vea _ _) => some (.main, "Init.Covariance.vea")
  | .cov (.nor _ _) => none
  | .cov (.dep _) => none
  | .cov (.pop k _) => if k.val = 0 then some (.pose, "init_cov_IrIW") else if k.val = 1 then some (.pose, "init_cov_MrMV") else none
  | .cov (.poa k _) => if k.val = 0 then some (.pose, "init_cov_qWI") else if k.val = 1 then some (.pose, "init_cov_qVM") else none
  | .prenoi (.nor _ _) => some (.prediction, "PredictionNoise.nor")
  | .prenoi (.dep _) => some (.prediction, "PredictionNoise.dep")
  | .prenoi (.vep _ _) => some (.prediction, "PredictionNoise.vep")
  | .prenoi (.vea _ _) => some (.prediction, "PredictionNoise.vea")
  | .prenoi (.pop k _) => if k.val = 0 then some (.pose, "pre_cov_IrIW") else if k.val = 1 then some (.pose, "pre_cov_MrMV") else none
  | .prenoi (.poa k _) => if k.val = 0 then some (.pose, "pre_cov_qWI") else if k.val = 1 then some (.pose, "pre_cov_qVM") else none
  | .prenoi a => some (.prediction, dflt (.prenoi a))
  | .rorTh => some (.prediction, "MotionDetection.inertialMotionRorTh")
  | .accTh => some (.prediction, "MotionDetection.inertialMotionAccTh")
  | .MrMV j => some (.pose, "MrMV" ++ vecName j)
  | .qVM j => some (.pose, "qVM" ++ quatName j)
  | .IrIW j => some (.pose, "IrIW" ++ vecName j)
  | .qWI j => some (.pose, "qWI" ++ quatName j)
  | .quality _ => some (.img, "statLocalQualityRange")
  | .visibility _ => some (.img, "statLocalVisibilityRange")
  | .global _ => some (.img, "statMinGlobalQualityRange")
  | .warping _ => some (.img, "doPatchWarping")
  | v => some (.main, dflt v)

/-- The registers with exactly these keys. -/
def wanted (dflt : Var n nCam nPose → String) : Regs n nCam nPose := fun h v =>
  match keyOf dflt v with
  | some (h', k) => if h' = h then some k else none
  | none => none

lemma registered_cells (dflt : Var n nCam nPose → String) (ops : List (Op n nCam nPose)) (ho : filterOps = some ops) (h : Handler) (v : Var n nCam nPose) :
    (ops.filter (Op.touches h v)).foldlM Op.cell (base dflt h v) = some (wanted dflt h v) := by
  unfold filterOps at ho
  rw [alignmentOps_eq] at ho
  simp only [Option.bind_eq_bind, Option.bind_some, Option.pure_def, Option.some.injEq] at ho
  subst ho
  have ha : ∀ (lin rot : String) (m : ℕ), ((if hm : m < nPose then alignOps lin rot ⟨m, hm⟩ else []) : List (Op n nCam nPose)).filter (Op.touches h v) =
      if hm : m < nPose then (alignOps lin rot ⟨m, hm⟩ : List (Op n nCam nPose)).filter (Op.touches h v) else [] := by
    intro lin rot m; split_ifs <;> rfl
  simp only [imuPrediction, List.filter_append, f_predFeature, f_predCamera, f_predPose, f_cameraOps, f_poseOps, f_featureOps, ha, f_alignOps, f_poseUpdate]
  rcases v with j | j | j | j | j | ⟨c, j⟩ | ⟨c, j⟩ | ⟨i, j⟩ | i | ⟨k, j⟩ | ⟨k, j⟩ | ⟨c, j⟩ | ⟨c, j⟩ | _ |
    (j | j | j | j | j | ⟨c, j⟩ | ⟨c, j⟩ | ⟨i, j⟩ | i | ⟨k, j⟩ | ⟨k, j⟩) | (j | j | j | j | j | ⟨c, j⟩ | ⟨c, j⟩ | ⟨i, j⟩ | i | ⟨k, j⟩ | ⟨k, j⟩) |
    _ | _ | j | j | j | j | i | i | i | i | _ | c | _ | _
  all_goals cases h
  all_goals simp [Op.touches, base, wanted, keyOf, List.filter_cons, Op.cell]
  all_goals first
    | rfl
    | (obtain ⟨k, hk⟩ := k
       rcases k with _ | _ | k <;> simp [Op.cell, hk, show 0 < nPose by omega])

/-- **C85.** For every number of features, cameras and poses the construction of the filter registers no setting twice and removes
only registered ones, and afterwards every setting has exactly the key given by `keyOf`. -/
theorem C85_registers (dflt : Var n nCam nPose → String) : construct dflt = some (wanted dflt) := by
  have : ∃ ops, (filterOps : Option (List (Op n nCam nPose))) = some ops := by
    unfold filterOps; rw [alignmentOps_eq]; exact ⟨_, rfl⟩
  obtain ⟨ops, ho⟩ := this
  unfold construct
  rw [ho]
  exact runOps_of_cells ops _ _ (registered_cells dflt ops ho)

/-- The full path in the info file of the entry that sets a variable. -/
def pathOf (dflt : Var n nCam nPose → String) (v : Var n nCam nPose) : Option String :=
  (keyOf dflt v).map fun hk => (match hk.1 with | .main => "" | .prediction => "Prediction." | .img => "ImgUpdate." | .pose => "PoseUpdate.") ++ hk.2

lemma read_spec {α : Type} (dflt : Var n nCam nPose → String) (tree : String → Option α) (order : List Handler) : ∀ (x x' : Var n nCam nPose → α),
    read (wanted dflt) tree order x = some x' ↔
      (∀ v h k, h ∈ order → keyOf dflt v = some (h, k) → (tree (prefixOf h ++ k)).isSome) ∧
      ∀ v, x' v = match keyOf dflt v with
        | some (h, k) => if h ∈ order then (tree (prefixOf h ++ k)).getD (x v) else x v
        | none => x v := by
  induction order with
  | nil =>
    intro x x'
    simp only [read, List.foldlM_nil, Option.pure_def, Option.some.injEq, List.not_mem_nil, false_imp_iff, implies_true, true_and, if_false]
    constructor
    · rintro rfl v
      rcases keyOf dflt v with _ | ⟨h, k⟩ <;> rfl
    · intro h
      funext v
      have := h v
      rcases hk : keyOf dflt v with _ | ⟨a, k⟩ <;> rw [hk] at this <;> exact this.symm
  | cons a order ih =>
    intro x x'
    have hw : ∀ v k, wanted dflt a v = some k ↔ keyOf dflt v = some (a, k) := by
      intro v k
      unfold wanted
      rcases keyOf dflt v with _ | ⟨b, k'⟩
      · simp
      · by_cases e : b = a <;> simp [e]
    show (a :: order).foldlM (readHandler (wanted dflt) tree) x = some x' ↔ _
    rw [List.foldlM_cons]
    unfold readHandler
    by_cases hc : ∀ v k, wanted dflt a v = some k → (tree (prefixOf a ++ k)).isSome
    · rw [if_pos hc]
      show read (wanted dflt) tree order _ = some x' ↔ _
      rw [ih]
      have hval : ∀ v, (match keyOf dflt v with
          | some (h, k) => if h ∈ order then (tree (prefixOf h ++ k)).getD (((wanted dflt a v).bind fun k => tree (prefixOf a ++ k)).getD (x v))
              else (((wanted dflt a v).bind fun k => tree (prefixOf a ++ k)).getD (x v))
          | none => (((wanted dflt a v).bind fun k => tree (prefixOf a ++ k)).getD (x v))) =
          (match keyOf dflt v with
          | some (h, k) => if h ∈ a :: order then (tree (prefixOf h ++ k)).getD (x v) else x v
          | none => x v) := by
        intro v
        rcases hk : keyOf dflt v with _ | ⟨b, k⟩
        · have : wanted dflt a v = none := by simp [wanted, hk]
          simp [this]
        · by_cases e : b = a
          · subst e
            have : wanted dflt b v = some k := (hw v k).mpr hk
            obtain ⟨y, hy⟩ := Option.isSome_iff_exists.mp (hc v k this)
            simp [this, hy]
          · have : wanted dflt a v = none := by simp [wanted, hk, e]
            simp [this, e]
      constructor
      · rintro ⟨h1, h2⟩
        refine ⟨?_, fun v => (h2 v).trans (hval v)⟩
        intro v h k hm hk
        rcases List.mem_cons.mp hm with rfl | hm
        · exact hc v k ((hw v k).mpr hk)
        · exact h1 v h k hm hk
      · rintro ⟨h1, h2⟩
        exact ⟨fun v h k hm hk => h1 v h k (List.mem_cons_of_mem _ hm) hk, fun v => (h2 v).trans (hval v).symm⟩
    · rw [if_neg hc]
      constructor
      · intro h; simp at h
      · rintro ⟨h1, -⟩
        exact absurd (fun v k hk => h1 v a k List.mem_cons_self ((hw v k).mp hk)) hc

/-- **C85.** Reading an info file into a newly constructed filter, the parts of the filter in any order: it fails exactly if an entry
is missing, and otherwise every setting has the value of its entry and all else is unchanged. -/
theorem C85_read {α : Type} (dflt : Var n nCam nPose → String) {R : Regs n nCam nPose} (hR : construct dflt = some R) (tree : String → Option α)
    (order : List Handler) (hall : ∀ h, h ∈ order) (x x' : Var n nCam nPose → α) :
    read R tree order x = some x' ↔
      (∀ v p, pathOf dflt v = some p → (tree p).isSome) ∧
      ∀ v, x' v = match pathOf dflt v with
        | some p => (tree p).getD (x v)
        | none => x v := by
  rw [C85_registers] at hR
  simp only [Option.some.injEq] at hR
  subst hR
  rw [read_spec]
  have hp : ∀ v, pathOf dflt v = (keyOf dflt v).map fun hk => prefixOf hk.1 ++ hk.2 := by
    intro v; rfl
  refine and_congr ⟨?_, ?_⟩ (forall_congr' fun v => ?_)
  · intro h v p hv
    rw [hp] at hv
    obtain ⟨⟨a, k⟩, hk, rfl⟩ := Option.map_eq_some_iff.mp hv
    exact h v a k (hall a) hk
  · intro h v a k _ hk
    exact h v _ (by rw [hp, hk]; rfl)
  · rw [hp]
    rcases keyOf dflt v with _ | ⟨a, k⟩
    · rfl
    · simp [hall a]

/-- **C85.** Whether or not extrinsics are estimated online, the extrinsics in effect after reading are those of the file. -/
theorem C85_extrinsics {α : Type} (dflt : Var n nCam nPose → String) {R : Regs n nCam nPose} (hR : construct dflt = some R) (tree : String → Option α)
    (order : List Handler) (hall : ∀ h, h ∈ order) {x x' : Var n nCam nPose → α} (hr : read R tree order x = some x') (doVE : Bool) (c : Fin nCam) :
    (∀ j : Fin 3, some (x' (refMrMC doVE c j)) = tree ("Camera" ++ toString c.val ++ ".MrMC" ++ ![ "_x", "_y", "_z"] j)) ∧
    (∀ j : Fin 4, some (x' (refqCM doVE c j)) = tree ("Camera" ++ toString c.val ++ ".qCM" ++ ![ "_w", "_x", "_y", "_z"] j)) := by
  obtain ⟨h1, h2⟩ := (C85_read dflt hR tree order hall x x').mp hr
  have key : ∀ v p, pathOf dflt v = some p → some (x' v) = tree p := by
    intro v p hp
    obtain ⟨y, hy⟩ := Option.isSome_iff_exists.mp (h1 v p hp)
    rw [h2 v, hp]; simp [hy]
  constructor
  · intro j
    apply key
    cases doVE <;> simp [refMrMC, pathOf, keyOf, vecName]
  · intro j
    apply key
    cases doVE <;> simp [refqCM, pathOf, keyOf, quatName]

/-- **C85.** However many poses are estimated, the alignment in effect for external poses after reading is that of the file. -/
theorem C85_alignment {α : Type} (dflt : Var n nCam nPose → String) {R : Regs n nCam nPose} (hR : construct dflt = some R) (tree : String → Option α)
    (order : List Handler) (hall : ∀ h, h ∈ order) {x x' : Var n nCam nPose → α} (hr : read R tree order x = some x') :
    (∀ j : Fin 3, ∃ v, refIrIW j = some v ∧ some (x' v) = tree ("PoseUpdate.IrIW" ++ ![ "_x", "_y", "_z"] j)) ∧
    (∀ j : Fin 4, ∃ v, refqWI j = some v ∧ some (x' v) = tree ("PoseUpdate.qWI" ++ ![ "_w", "_x", "_y", "_z"] j)) ∧
    (∀ j : Fin 3, ∃ v, refMrMV j = some v ∧ some (x' v) = tree ("PoseUpdate.MrMV" ++ ![ "_x", "_y", "_z"] j)) ∧
    (∀ j : Fin 4, ∃ v, refqVM j = some v ∧ some (x' v) = tree ("PoseUpdate.qVM" ++ ![ "_w", "_x", "_y", "_z"] j)) := by
  obtain ⟨h1, h2⟩ := (C85_read dflt hR tree order hall x x').mp hr
  have key : ∀ v p, pathOf dflt v = some p → some (x' v) = tree p := by
    intro v p hp
    obtain ⟨y, hy⟩ := Option.isSome_iff_exists.mp (h1 v p hp)
    rw [h2 v, hp]; simp [hy]
  have key' : ∀ (o : Option (Var n nCam nPose)) p, (o.bind (pathOf dflt) = some p) → ∃ v, o = some v ∧ some (x' v) = tree p := by
    intro o p hp
    obtain ⟨v, hv, hp⟩ := Option.bind_eq_some_iff.mp hp
    exact ⟨v, hv, key v p hp⟩
  refine ⟨fun j => key' _ _ ?_, fun j => key' _ _ ?_, fun j => key' _ _ ?_, fun j => key' _ _ ?_⟩
  · unfold refIrIW inertialPoseIndex poseIdx
    rcases nPose with _ | _ | k <;> fin_cases j <;> simp [pathOf, keyOf, vecName]
  · unfold refqWI inertialPoseIndex poseIdx
    rcases nPose with _ | _ | k <;> fin_cases j <;> simp [pathOf, keyOf, quatName]
  · unfold refMrMV bodyPoseIndex poseIdx
    rcases nPose with _ | _ | k <;> fin_cases j <;> simp [pathOf, keyOf, vecName]
  · unfold refqVM bodyPoseIndex poseIdx
    rcases nPose with _ | _ | k <;> fin_cases j <;> simp [pathOf, keyOf, quatName]

/-- Reading succeeds whenever all entries exist: the hypotheses of the theorems above are met. -/
lemma read_total {α : Type} (dflt : Var n nCam nPose → String) (f : String → α) (x : Var n nCam nPose → α) :
    ∃ R, construct dflt = some R ∧ ∃ x', read R (fun s => some (f s)) [.main, .prediction, .img, .pose] x = some x' ∧
      ∀ v, x' v = match pathOf dflt v with | some p => f p | none => x v := by
  refine ⟨_, C85_registers dflt, _, (C85_read dflt (C85_registers dflt) _ _ (by intro h; cases h <;> simp) x _).mpr ⟨?_, fun v => rfl⟩, ?_⟩
  · intro v p _; rfl
  · intro v; rcases pathOf dflt v with _ | p <;> rfl

/-- A file whose entries are their own paths, two cameras and two poses: the second camera's offset and the alignments. -/
example (dflt : Var 3 2 2 → String) : ∃ R, construct dflt = some R ∧ ∃ x', read R some [.main, .prediction, .img, .pose] (fun _ => "initial") = some x' ∧
    x' (.vep 1 0) = "Camera1.MrMC_x" ∧ x' (.auxqCM 0 3) = "Camera0.qCM_z" ∧ x' (.pop 0 1) = "PoseUpdate.IrIW_y" ∧ x' (.poa 1 0) = "PoseUpdate.qVM_w" ∧
    x' (.cov (.vep 1 2)) = "Init.Covariance.vep" ∧ x' (.prenoi (.nor 2 0)) = "Prediction.PredictionNoise.nor" ∧ x' (.nor 2 0) = "initial" := by
  obtain ⟨R, hR, x', hx, hv⟩ := read_total dflt (id : String → String) (fun _ => "initial")
  refine ⟨R, hR, x', hx, ?_⟩
  simp only [hv]
  exact ⟨rfl, rfl, rfl, rfl, rfl, rfl, rfl⟩

/-- A missing entry is an error. -/
example (dflt : Var 3 2 2 → String) (x : Var 3 2 2 → ℝ) : ∃ R, construct dflt = some R ∧
    read R (fun s => if s = "Camera1.MrMC_x" then none else some 1) [.main, .prediction, .img, .pose] x = none := by
  refine ⟨_, C85_registers dflt, ?_⟩
  rw [Option.eq_none_iff_forall_not_mem]
  intro x' hx
  have := ((C85_read dflt (C85_registers dflt) _ _ (by intro h; cases h <;> simp) x x').mp hx).1 (.vep 1 0) "Camera1.MrMC_x" rfl
  simp at this

/-- **C85, finding.** Of three or more estimated poses only the first two have entries: initial value, initial covariance and
prediction noise of any further pose cannot be set by an info file. -/
theorem C85_finding_later_poses {α : Type} (dflt : Var n nCam nPose → String) {R : Regs n nCam nPose} (hR : construct dflt = some R) (tree : String → Option α)
    (order : List Handler) (hall : ∀ h, h ∈ order) {x x' : Var n nCam nPose → α} (hr : read R tree order x = some x') (k : Fin nPose) (hk : 2 ≤ k.val) :
    (∀ j, x' (.pop k j) = x (.pop k j)) ∧ (∀ j, x' (.poa k j) = x (.poa k j)) ∧
    (∀ j, x' (.cov (.pop k j)) = x (.cov (.pop k j))) ∧ (∀ j, x' (.cov (.poa k j)) = x (.cov (.poa k j))) ∧
    (∀ j, x' (.prenoi (.pop k j)) = x (.prenoi (.pop k j))) ∧ (∀ j, x' (.prenoi (.poa k j)) = x (.prenoi (.poa k j))) := by
  obtain ⟨-, h2⟩ := (C85_read dflt hR tree order hall x x').mp hr
  have h0 : k.val ≠ 0 := by omega
  have h1 : k.val ≠ 1 := by omega
  refine ⟨fun j => ?_, fun j => ?_, fun j => ?_, fun j => ?_, fun j => ?_, fun j => ?_⟩ <;> rw [h2] <;> simp [pathOf, keyOf, h0, h1]

example (dflt : Var 3 1 3 → String) : ∃ R, construct dflt = some R ∧ ∃ x', read R some [.main, .prediction, .img, .pose] (fun _ => "initial") = some x' ∧
    x' (.cov (.pop 2 0)) = "initial" ∧ x' (.cov (.pop 1 0)) = "PoseUpdate.init_cov_MrMV" := by
  obtain ⟨R, hR, x', hx, hv⟩ := read_total dflt (id : String → String) (fun _ => "initial")
  refine ⟨R, hR, x', hx, ?_⟩
  simp only [hv]
  exact ⟨rfl, rfl⟩

/-- **C85, finding.** Rotations are read component by component: a file whose camera rotation is not of unit length is accepted, and
the rotation in effect is not a unit quaternion. -/
theorem C85_finding_not_unit (dflt : Var n nCam nPose → String) (x : Var n nCam nPose → ℝ) (doVE : Bool) (c : Fin nCam) :
    ∃ (R : Regs n nCam nPose) (tree : String → Option ℝ) (x' : Var n nCam nPose → ℝ), construct dflt = some R ∧
      read R tree [.main, .prediction, .img, .pose] x = some x' ∧ ∑ j, x' (refqCM doVE c j) ^ 2 ≠ 1 := by
  obtain ⟨R, hR, x', hx, hv⟩ := read_total dflt (fun _ => (1 : ℝ)) x
  refine ⟨R, _, x', hR, hx, ?_⟩
  have : ∀ j, x' (refqCM doVE c j) = 1 := by
    intro j; rw [hv]; cases doVE <;> simp [refqCM, pathOf, keyOf]
  simp only [this]
  norm_num

end Rovio.Config
