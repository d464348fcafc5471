import Verif.Lemmas.FeatureCoordinates

/-!
# C08 - C11, C60 - C62: feature coordinates
-/

namespace Rovio

/-- The real camera satisfies the interface assumptions used below. -/
theorem C09_camera_is_wf (C : Camera) (f : V3 → Nor) (g : V2 → Nor) : (C.toI f g).WF := by
  constructor
  · intro n
    simp only [Camera.toI, Camera.bearingToPixelN, Camera.bearingToPixel]
    split <;> simp <;> linarith
  · intro n
    simp only [Camera.toI, Camera.bearingToPixelNJ, Camera.bearingToPixelN, Camera.bearingToPixelJ, Camera.bearingToPixel]
    split <;> rename_i h
    · split at h
      · rename_i hz; simp [hz]
      · simp at h
    · split at h
      · simp at h
      · rename_i hz
        simp only [Option.some.injEq, Prod.mk.injEq] at h
        rw [if_neg hz]
        simp [← h.1, Camera.distortJ_fst]

namespace FC

/-! ## C08: last writer wins -/

/-- C08 (bearing): after `set_nor(n)`, any sequence of queries and conversions (all of them,
including the Jacobian and the warp ones) is defined, `get_nor()` still returns `n`, and if `n`
projects to the pixel `c` then `get_c()` returns `c`. -/
theorem C08_set_nor (s : FC) (cam : CamI) (hcam : s.cam = some cam) (hwf : cam.WF) (n : Nor) (r : Bool)
    (qs : List Op) (hq : ∀ q ∈ qs, q.isQuery = true) :
    ∃ s', (s.setNor n r).run qs = some s' ∧ s'.getNor.map Prod.snd = some n ∧
      ∀ c, cam.b2p n = some c → s'.getC.map Prod.snd = some c := by
  have hcam' : (s.setNor n r).cam = some cam := by rw [setNor_cam]; exact hcam
  obtain ⟨s', hs'⟩ := run_total hcam' qs
  refine ⟨s', hs', ?_⟩
  have key := run_induct (P := fun t => t.cam = some cam ∧ t.validNor = true ∧ t.nor = n ∧
      (t.validC = true → cam.b2p n = some t.c)) (fun op => op.isQuery = true)
    (fun t op t' hop hP ht => by
      refine query_pres (P := fun t => t.cam = some cam ∧ t.validNor = true ∧ t.nor = n ∧
        (t.validC = true → cam.b2p n = some t.c)) ?_ ?_ ?_ ?_ t op t' hop hP ht
      · rintro t t' b ⟨h1, h2, h3, h4⟩ h
        unfold comC at h
        split at h
        · simp at h; rw [← h.1]; exact ⟨h1, h2, h3, h4⟩
        · simp only [h1, h2] at h
          split at h
          · rename_i c hc
            simp at h; rw [← h.1]
            exact ⟨rfl, rfl, h3, fun _ => by rw [← h3]; exact hc⟩
          · simp at h; rw [← h.1]; exact ⟨h1, h2, h3, h4⟩
      · rintro t t' b ⟨h1, h2, h3, h4⟩ h
        have := (comNor_spec h).2.2.2.2 h2
        subst this; exact ⟨h1, h2, h3, h4⟩
      · rintro t t' J ⟨h1, h2, h3, h4⟩ h
        obtain ⟨cam', s1, b, hc1, hc2, hc3⟩ := getJ_full h
        have := (comNor_spec hc2).2.2.2.2 h2
        subst this
        have hcc : cam' = cam := by rw [h1] at hc1; simpa using hc1.symm
        subst hcc
        rcases hc3 with ⟨c, hc, rfl⟩ | ⟨_, rfl, _⟩
        · refine ⟨h1, h2, h3, fun _ => ?_⟩
          have := hwf.same s1.nor
          rw [hc] at this
          simp at this
          rw [← h3, ← this]
        · exact ⟨h1, h2, h3, h4⟩
      · rintro t t' ⟨h1, h2, h3, h4⟩ e1 e2 e3 e4 e5
        exact ⟨e1.trans h1, e5.trans h2, e4.trans h3, fun h => by rw [e2]; exact h4 (e3 ▸ h)⟩)
    qs _ s' hq ?_ hs'
  · obtain ⟨h1, h2, h3, h4⟩ := key
    refine ⟨by simp [getNor, comNor, h2, h3], fun c hc => ?_⟩
    by_cases hv : s'.validC = true
    · have := h4 hv
      rw [hc] at this
      simp at this
      simp [getC, comC, hv, ← this]
    · simp [getC, comC, hv, h1, h2, h3, hc]
  · refine ⟨hcam', ?_, ?_, ?_⟩ <;> unfold setNor <;> simp only <;> split <;> simp

/-- C08 (pixel): after `set_c(c)` any sequence of coordinate conversions (`com_c`, `get_c`,
`com_nor`, `get_nor`) leaves `get_c() = c`, for every camera. -/
theorem C08_set_c (s : FC) (cam : CamI) (hcam : s.cam = some cam) (c : V2) (r : Bool)
    (qs : List Op) (hq : ∀ q ∈ qs, q = .comC ∨ q = .getC ∨ q = .comNor ∨ q = .getNor) :
    ∃ s', (s.setC c r).run qs = some s' ∧ s'.getC.map Prod.snd = some c := by
  have hcam' : (s.setC c r).cam = some cam := by rw [setC_cam]; exact hcam
  obtain ⟨s', hs'⟩ := run_total hcam' qs
  refine ⟨s', hs', ?_⟩
  have hC : ∀ (t t' : FC) b, t.validC = true ∧ t.c = c → t.comC = some (t', b) → t'.validC = true ∧ t'.c = c := by
    rintro t t' b ⟨h1, h2⟩ h
    have := (comC_spec h).2.2.2.2 h1
    subst this; exact ⟨h1, h2⟩
  have hN : ∀ (t t' : FC) b, t.validC = true ∧ t.c = c → t.comNor = some (t', b) → t'.validC = true ∧ t'.c = c := by
    rintro t t' b ⟨h1, h2⟩ h
    have := comNor_spec h
    exact ⟨this.2.2.1.trans h1, this.2.1.trans h2⟩
  have key := run_induct (P := fun t => t.validC = true ∧ t.c = c)
    (fun q => q = .comC ∨ q = .getC ∨ q = .comNor ∨ q = .getNor) (fun t op t' hop hP ht => by
      rcases hop with rfl | rfl | rfl | rfl <;> simp only [step] at ht
      · obtain ⟨b, hb⟩ := map_fst_eq ht; exact hC _ _ _ hP hb
      · obtain ⟨b, hb⟩ := map_fst_eq ht; obtain ⟨b, hb, _⟩ := getC_spec hb; exact hC _ _ _ hP hb
      · obtain ⟨b, hb⟩ := map_fst_eq ht; exact hN _ _ _ hP hb
      · obtain ⟨b, hb⟩ := map_fst_eq ht; obtain ⟨b, hb, _⟩ := getNor_spec hb; exact hN _ _ _ hP hb)
    qs _ s' hq (by unfold setC; simp only; split <;> simp) hs'
  simp [getC, comC, key.1, key.2]

/-- C08 (pixel), with the Jacobian and warp queries allowed: if the camera round-trips this pixel
(whatever bearing `pixelToBearing` wrote for it does not project to a different pixel), every sequence
of queries leaves `get_c() = c`. -/
theorem C08_set_c_roundtrip (s : FC) (cam : CamI) (hcam : s.cam = some cam) (hwf : cam.WF) (c : V2) (r : Bool)
    (hrt : ∀ c', cam.b2p (cam.p2b c).1 = some c' → c' = c)
    (qs : List Op) (hq : ∀ q ∈ qs, q.isQuery = true) :
    ∃ s', (s.setC c r).run qs = some s' ∧ s'.getC.map Prod.snd = some c := by
  have hcam' : (s.setC c r).cam = some cam := by rw [setC_cam]; exact hcam
  obtain ⟨s', hs'⟩ := run_total hcam' qs
  refine ⟨s', hs', ?_⟩
  have key := run_induct (P := fun t => t.cam = some cam ∧ t.validC = true ∧ t.c = c ∧
      (t.validNor = true → t.nor = (cam.p2b c).1)) (fun op => op.isQuery = true)
    (fun t op t' hop hP ht => by
      have hN : ∀ (t t' : FC) b, (t.cam = some cam ∧ t.validC = true ∧ t.c = c ∧ (t.validNor = true → t.nor = (cam.p2b c).1)) →
          t.comNor = some (t', b) → (t'.cam = some cam ∧ t'.validC = true ∧ t'.c = c ∧ (t'.validNor = true → t'.nor = (cam.p2b c).1))
          ∧ t'.nor = (cam.p2b c).1 := by
        rintro t t' b ⟨h1, h2, h3, h4⟩ h
        unfold comNor at h
        split at h
        · rename_i hv
          simp at h; rw [← h.1]; exact ⟨⟨h1, h2, h3, h4⟩, h4 hv⟩
        · simp only [h1, h2, h3] at h
          simp at h; rw [← h.1]
          exact ⟨⟨rfl, rfl, rfl, fun _ => rfl⟩, rfl⟩
      refine query_pres (P := fun t => t.cam = some cam ∧ t.validC = true ∧ t.c = c ∧
        (t.validNor = true → t.nor = (cam.p2b c).1)) ?_ ?_ ?_ ?_ t op t' hop hP ht
      · rintro t t' b ⟨h1, h2, h3, h4⟩ h
        have := (comC_spec h).2.2.2.2 h2
        subst this; exact ⟨h1, h2, h3, h4⟩
      · intro t t' b hP h; exact (hN t t' b hP h).1
      · intro t t' J hP h
        obtain ⟨cam', s1, b, hc1, hc2, hc3⟩ := getJ_full h
        obtain ⟨⟨h1, h2, h3, h4⟩, h5⟩ := hN _ _ _ hP hc2
        have hcc : cam' = cam := by rw [hP.1] at hc1; simpa using hc1.symm
        subst hcc
        rcases hc3 with ⟨c1, hc, rfl⟩ | ⟨_, rfl, _⟩
        · refine ⟨h1, h2, ?_, h4⟩
          have := hwf.same s1.nor
          rw [hc] at this
          simp at this
          exact hrt c1 (by rw [← h5, ← this])
        · exact ⟨h1, h2, h3, h4⟩
      · rintro t t' ⟨h1, h2, h3, h4⟩ e1 e2 e3 e4 e5
        exact ⟨e1.trans h1, e3.trans h2, e2.trans h3, fun h => by rw [e4]; exact h4 (e5 ▸ h)⟩)
    qs _ s' hq ?_ hs'
  · simp [getC, comC, key.2.1, key.2.2.1]
  · refine ⟨hcam', ?_, ?_, ?_⟩ <;> unfold setC <;> simp only <;> split <;> simp

/-- C08, finding: the Jacobian query changes the stored pixel.  After `set_c(c)` the query `get_J()`
leaves `get_c()` equal to the reprojection of the bearing computed for `c`, whatever that is — also
when `pixelToBearing` failed and the bearing is unspecified — while the pixel stays marked valid. -/
theorem C08_finding_getJ_overwrites (s : FC) (cam : CamI) (hcam : s.cam = some cam) (hwf : cam.WF) (c c' : V2) (r : Bool)
    (hrt : cam.b2p (cam.p2b c).1 = some c') :
    ∃ s', (s.setC c r).run [.getJ] = some s' ∧ s'.validC = true ∧ s'.getC.map Prod.snd = some c' := by
  have hcam' : (s.setC c r).cam = some cam := by rw [setC_cam]; exact hcam
  obtain ⟨⟨s', J⟩, hs'⟩ := getJ_total hcam'
  obtain ⟨cam', s1, b, hc1, hc2, hc3⟩ := getJ_full hs'
  have hcc : cam' = cam := by rw [hcam'] at hc1; simpa using hc1.symm
  subst hcc
  have h1 : (s.setC c r).validC = true ∧ (s.setC c r).c = c ∧ (s.setC c r).validNor = false := by
    unfold setC; simp only; split <;> simp
  have h2 : s1.nor = (cam'.p2b c).1 ∧ s1.validC = true := by
    unfold comNor at hc2
    simp [h1, hcam'] at hc2
    rw [← hc2.1]; exact ⟨rfl, rfl⟩
  have h3 := hwf.same s1.nor
  rw [h2.1, hrt] at h3
  refine ⟨s', by simp [run, step, hs'], ?_⟩
  rcases hc3 with ⟨c1, hc, rfl⟩ | ⟨hn, _⟩
  · rw [h2.1] at hc
    rw [hc] at h3
    simp at h3
    simp [h2.2, getC, comC, h3]
  · rw [h2.1] at hn; rw [hn] at h3; simp at h3

/-! ## C09: in front ⇒ has a pixel -/

/-- C09: if `isInFront()` holds and a camera is attached, `com_c()` succeeds and `isInFront()` still
holds afterwards. -/
theorem C09_in_front_has_pixel (s : FC) (cam : CamI) (hcam : s.cam = some cam) (hwf : cam.WF)
    (h : s.isInFront = true) : ∃ s', s.comC = some (s', true) ∧ s'.isInFront = true := by
  by_cases hv : s.validC = true
  · exact ⟨s, by simp [comC, hv], h⟩
  · have hvf : s.validC = false := by simpa using hv
    have h' : s.validNor = true ∧ 0 < s.nor.vec.z := by
      simpa [isInFront, hvf] using h
    have := (hwf.front s.nor).mpr h'.2
    obtain ⟨c, hc⟩ := Option.isSome_iff_exists.mp this
    exact ⟨{ s with c := c, validC := true }, by simp [comC, hvf, hcam, h'.1, hc], by simp [isInFront]⟩

/-- C09: for a feature known by its bearing only, a pixel exists exactly when it is in front. -/
theorem C09_pixel_iff_in_front (s : FC) (cam : CamI) (hcam : s.cam = some cam) (hwf : cam.WF)
    (hn : s.validC = false) : s.comC.map Prod.snd = some s.isInFront := by
  by_cases hv : s.validNor = true
  · by_cases hz : 0 < s.nor.vec.z
    · obtain ⟨c, hc⟩ := Option.isSome_iff_exists.mp ((hwf.front s.nor).mpr hz)
      simp [comC, hn, hcam, hv, hc, isInFront, hz]
    · have : cam.b2p s.nor = none := by
        by_contra h
        exact hz ((hwf.front s.nor).mp (Option.isSome_iff_ne_none.mpr h))
      simp [comC, hn, hcam, hv, this, isInFront, hz]
  · simp [comC, hn, hcam, hv, isInFront]

/-- C09: without a camera, `isInFront()` alone does not give a pixel: the conversion of a bearing is
undefined (null dereference / failed assert). -/
theorem C09_needs_camera (s : FC) (hcam : s.cam = none) (hn : s.validC = false) : s.comC = none := by
  simp [comC, hn, hcam]

/-! ## C10: near-identity flag -/

/-- A freshly constructed object (any constructor, any uninitialised members) after the owner has
assigned the public members `mpCamera_`, `trackWarping_` and `camID_`. -/
def Fresh (s : FC) : Prop :=
  ∃ (junk : FC) (cam : Option CamI) (tw : Bool) (id : ℤ) (px : V2) (n : Nor),
    s = { construct junk none with cam := cam, trackWarping := tw, camID := id } ∨
    s = { constructPixel junk px with cam := cam, trackWarping := tw, camID := id } ∨
    s = { constructNor junk n with cam := cam, trackWarping := tw, camID := id }

/-- The invariant behind C10. -/
def IdInv (s : FC) : Prop :=
  (s.isWarpIdentity = true → s.validWarpC = true → s.warpC = M2.one) ∧
  (s.isWarpIdentity = true → s.validWarpC = false → s.validWarpNor = false)

lemma IdInv.same {s s' : FC} (h : IdInv s) (e : SameWarp s s') : IdInv s' := by
  constructor
  · rw [e.isWarpIdentity, e.validWarpC, e.warpC]; exact h.1
  · rw [e.isWarpIdentity, e.validWarpC, e.validWarpNor]; exact h.2

lemma IdInv.comWarpC {s s' : FC} {b : Bool} (h : IdInv s) (hc : s.comWarpC = some (s', b)) : IdInv s' := by
  obtain ⟨_, _, _, hi, _, hw⟩ := comWarpC_spec hc
  rcases hw with hw | ⟨h1, h2, h3, h4, h5, h6, _⟩
  · exact h.same hw
  · have hf : s.isWarpIdentity = false := by
      by_contra hne
      have := h.2 (by simpa using hne) h1
      rw [h2] at this; simp at this
    constructor <;> intro hi' <;> rw [hi, hf] at hi' <;> simp at hi'

lemma IdInv.comWarpNor {s s' : FC} {b : Bool} (h : IdInv s) (hc : s.comWarpNor = some (s', b)) : IdInv s' := by
  obtain ⟨_, _, _, hi, _, hw⟩ := comWarpNor_spec hc
  rcases hw with hw | ⟨h1, h2, h3, h4, h5, h6, _⟩
  · exact h.same hw
  · constructor
    · intro hi' _; rw [h5]; exact h.1 (hi ▸ hi') h2
    · intro _ hv; rw [h3] at hv; simp at hv

lemma IdInv.step {s s' : FC} (op : Op) (h : IdInv s) (hs : s.step op = some s') : IdInv s' := by
  cases op <;> simp only [FC.step] at hs
  case setC c r =>
    simp at hs; subst hs
    unfold setC; simp only
    split
    · exact ⟨by simp, by simp⟩
    · exact ⟨h.1, h.2⟩
  case setNor n r =>
    simp at hs; subst hs
    unfold setNor; simp only
    split
    · exact ⟨by simp, by simp⟩
    · exact ⟨h.1, h.2⟩
  case setWarpC => simp at hs; subst hs; exact ⟨by simp [setWarpC], by simp [setWarpC]⟩
  case setWarpNor => simp at hs; subst hs; exact ⟨by simp [setWarpNor], by simp [setWarpNor]⟩
  case setWarpIdentity => simp at hs; subst hs; exact ⟨by simp [setWarpIdentity], by simp [setWarpIdentity]⟩
  case resetCoordinates =>
    simp at hs; subst hs
    exact ⟨by simp [resetCoordinates, setWarpIdentity], by simp [resetCoordinates, setWarpIdentity]⟩
  case comC => obtain ⟨b, hb⟩ := map_fst_eq hs; exact h.same (comC_spec hb).1
  case getC => obtain ⟨b, hb⟩ := map_fst_eq hs; obtain ⟨b, hb, _⟩ := getC_spec hb; exact h.same (comC_spec hb).1
  case comNor => obtain ⟨b, hb⟩ := map_fst_eq hs; exact h.same (comNor_spec hb).1
  case getNor => obtain ⟨b, hb⟩ := map_fst_eq hs; obtain ⟨b, hb, _⟩ := getNor_spec hb; exact h.same (comNor_spec hb).1
  case getJ => obtain ⟨b, hb⟩ := map_fst_eq hs; exact h.same (getJ_spec hb).1
  case comWarpC => obtain ⟨b, hb⟩ := map_fst_eq hs; exact h.comWarpC hb
  case getWarpC => obtain ⟨b, hb⟩ := map_fst_eq hs; obtain ⟨b, hb, _⟩ := getWarpC_spec hb; exact h.comWarpC hb
  case comWarpNor => obtain ⟨b, hb⟩ := map_fst_eq hs; exact h.comWarpNor hb
  case getWarpNor => obtain ⟨b, hb⟩ := map_fst_eq hs; obtain ⟨b, hb, _⟩ := getWarpNor_spec hb; exact h.comWarpNor hb
  case isNearIdentityWarping =>
    obtain ⟨b, hb⟩ := map_fst_eq hs
    rcases isNear_spec hb with ⟨_, rfl, _⟩ | ⟨_, b', hb', _⟩
    · exact h
    · exact h.comWarpC hb'

/-- C10: after any history from construction, if `isNearIdentityWarping()` answers true and the pixel
warp is available, the pixel warp is within `1e-6` of the identity — and exactly the identity when the
answer came from the identity flag. -/
theorem C10_near_identity (s0 s s' : FC) (ops : List Op) (h0 : Fresh s0) (hrun : s0.run ops = some s)
    (hq : s.isNearIdentityWarping = some (s', true)) (hav : s'.validWarpC = true) :
    s'.warpC.distOne < 1e-6 ∧ (s.isWarpIdentity = true → s'.warpC = M2.one) := by
  have hinv : IdInv s := by
    refine run_induct (P := IdInv) (fun _ => True) (fun t op t' _ h hs => IdInv.step op h hs) ops s0 s (by simp) ?_ hrun
    obtain ⟨junk, cam, tw, id, px, n, h | h | h⟩ := h0 <;> subst h <;>
      exact ⟨fun _ _ => rfl, fun _ hv => by simp [construct, constructPixel, constructNor, resetCoordinates, setWarpIdentity] at hv⟩
  rcases isNear_spec hq with ⟨hi, rfl, _⟩ | ⟨hi, b', hb', hd⟩
  · have := hinv.1 hi hav
    refine ⟨?_, fun _ => this⟩
    rw [this]; simp [M2.distOne, M2.one]; norm_num
  · exact ⟨(hd rfl).2, fun h => by rw [hi] at h; simp at h⟩

/-- C10, finding: the flag survives `set_c`/`set_nor`: with warp tracking on, after `set_c(c)` on a
fresh object no warp is available at all (`com_warp_c()` fails), yet `isNearIdentityWarping()` answers
true. -/
theorem C10_finding_flag_without_warp (junk : FC) (cam : CamI) (c : V2) :
    let s := { construct junk (some cam) with trackWarping := true }.setC c true
    s.isNearIdentityWarping.map Prod.snd = some true ∧ s.comWarpC.map Prod.snd = some false ∧
      s.comWarpNor.map Prod.snd = some false := by
  simp [setC, construct, resetCoordinates, setWarpIdentity, isNearIdentityWarping, comWarpC, comWarpNor]

/-! ## C11: pixel and bearing warp agree -/

/-- Operations that never move the feature while keeping its warp. -/
def Op.resets : Op → Prop
  | .setC _ r => r = true
  | .setNor _ r => r = true
  | _ => True

/-- C11: with warp tracking on and no operation that moves the feature while keeping its warp,
whenever both warps are available the pixel warp is the projection Jacobian (as returned by
`get_J()`) times the bearing warp. -/
theorem C11_warps_agree (s0 s : FC) (ops : List Op) (h0 : Fresh s0) (htw : s0.trackWarping = true)
    (hops : ∀ op ∈ ops, op.resets) (hrun : s0.run ops = some s)
    (h1 : s.validWarpC = true) (h2 : s.validWarpNor = true) (J : M2) (hJ : s.getJ.map Prod.snd = some J) :
    s.warpC = J.mul s.warpNor := by
  let P : FC → Prop := fun t => t.trackWarping = true ∧ (t.validWarpC = true → t.validWarpNor = true →
    t.validNor = true ∧ ∃ cam, t.cam = some cam ∧ t.warpC = (cam.J t.nor).mul t.warpNor)
  have same : ∀ t t', P t → SameWarp t t' → (t.validNor = true → t'.nor = t.nor ∧ t'.validNor = true) → P t' := by
    rintro t t' ⟨ht, hP⟩ e hn
    refine ⟨e.trackWarping.trans ht, fun a b => ?_⟩
    obtain ⟨c1, cam, c2, c3⟩ := hP (e.validWarpC ▸ a) (e.validWarpNor ▸ b)
    refine ⟨(hn c1).2, cam, e.cam.trans c2, ?_⟩
    rw [e.warpC, e.warpNor, (hn c1).1, c3]
  have hWC : ∀ t t' b, P t → t.comWarpC = some (t', b) → P t' := by
    intro t t' b hP hb
    obtain ⟨a1, a2, a3, a4, a5, a6 | ⟨b1, b2, b3, b4, b5, b6, cam, b7, b8⟩⟩ := comWarpC_spec hb
    · exact same _ _ hP a6 a1
    · exact ⟨a3.trans hP.1, fun _ _ => ⟨b4, cam, a2.trans b7, b8⟩⟩
  have hWN : ∀ t t' b, P t → t.comWarpNor = some (t', b) → P t' := by
    intro t t' b hP hb
    obtain ⟨a1, a2, a3, a4, a5, a6 | ⟨b1, b2, b3, b4, b5, b6, cam, b7, b8, b9⟩⟩ := comWarpNor_spec hb
    · exact same _ _ hP a6 a1
    · refine ⟨a3.trans hP.1, fun _ _ => ⟨b4, cam, a2.trans b7, ?_⟩⟩
      rw [b9]
      have hd : (cam.J t'.nor).a * (cam.J t'.nor).d - (cam.J t'.nor).b * (cam.J t'.nor).c ≠ 0 := b8
      ext <;> simp only [M2.mul, M2.inv] <;> field_simp <;> simp only [M2.det] <;> ring
  have hC : ∀ t t' b, P t → t.comC = some (t', b) → P t' := fun t t' b hP hb => by
    obtain ⟨e1, e2, e3, _⟩ := comC_spec hb
    exact same _ _ hP e1 (fun hv => ⟨e2, e3.trans hv⟩)
  have hN : ∀ t t' b, P t → t.comNor = some (t', b) → P t' := fun t t' b hP hb => by
    obtain ⟨e1, e2, e3, e4, e5⟩ := comNor_spec hb
    exact same _ _ hP e1 (fun hv => by have := e5 hv; subst this; exact ⟨rfl, hv⟩)
  have hstep : ∀ t op t', op.resets → P t → t.step op = some t' → P t' := by
    intro t op t' hop hP hs
    have ht := hP.1
    cases op <;> simp only [FC.step] at hs
    case setC c r =>
      simp only [Op.resets] at hop; subst hop
      simp [setC, ht] at hs; subst hs; exact ⟨rfl, by simp⟩
    case setNor n r =>
      simp only [Op.resets] at hop; subst hop
      simp [setNor, ht] at hs; subst hs; exact ⟨rfl, by simp⟩
    case setWarpC => simp at hs; subst hs; exact ⟨ht, by simp [setWarpC]⟩
    case setWarpNor => simp at hs; subst hs; exact ⟨ht, by simp [setWarpNor]⟩
    case setWarpIdentity => simp at hs; subst hs; exact ⟨ht, by simp [setWarpIdentity]⟩
    case resetCoordinates => simp at hs; subst hs; exact ⟨ht, by simp [resetCoordinates, setWarpIdentity]⟩
    case comC => obtain ⟨b, hb⟩ := map_fst_eq hs; exact hC _ _ _ hP hb
    case getC => obtain ⟨b, hb⟩ := map_fst_eq hs; obtain ⟨b, hb, _⟩ := getC_spec hb; exact hC _ _ _ hP hb
    case comNor => obtain ⟨b, hb⟩ := map_fst_eq hs; exact hN _ _ _ hP hb
    case getNor => obtain ⟨b, hb⟩ := map_fst_eq hs; obtain ⟨b, hb, _⟩ := getNor_spec hb; exact hN _ _ _ hP hb
    case getJ => obtain ⟨b, hb⟩ := map_fst_eq hs; obtain ⟨e1, _, e3, _⟩ := getJ_spec hb; exact same _ _ hP e1 e3
    case comWarpC => obtain ⟨b, hb⟩ := map_fst_eq hs; exact hWC _ _ _ hP hb
    case getWarpC => obtain ⟨b, hb⟩ := map_fst_eq hs; obtain ⟨b, hb, _⟩ := getWarpC_spec hb; exact hWC _ _ _ hP hb
    case comWarpNor => obtain ⟨b, hb⟩ := map_fst_eq hs; exact hWN _ _ _ hP hb
    case getWarpNor => obtain ⟨b, hb⟩ := map_fst_eq hs; obtain ⟨b, hb, _⟩ := getWarpNor_spec hb; exact hWN _ _ _ hP hb
    case isNearIdentityWarping =>
      obtain ⟨b, hb⟩ := map_fst_eq hs
      rcases isNear_spec hb with ⟨_, rfl, _⟩ | ⟨_, b', hb', _⟩
      · exact hP
      · exact hWC _ _ _ hP hb'
  have hfin : P s := by
    refine run_induct (P := P) Op.resets hstep ops s0 s hops ⟨htw, ?_⟩ hrun
    obtain ⟨junk, cam, tw, id, px, n, h | h | h⟩ := h0 <;> subst h <;>
      simp [construct, constructPixel, constructNor, resetCoordinates, setWarpIdentity]
  obtain ⟨c1, cam, c2, c3⟩ := hfin.2 h1 h2
  cases hg : s.getJ with
  | none => simp [hg] at hJ
  | some p =>
    obtain ⟨s', J'⟩ := p
    simp [hg] at hJ; subst hJ
    obtain ⟨_, _, g3, cam', g4, g5⟩ := getJ_spec hg
    have : cam' = cam := by rw [c2] at g4; simpa using g4.symm
    subst this
    rw [c3, g5, (g3 c1).1]

/-- C11, what the conversions compute: after `set_warp_nor(w)` on a feature with a pixel and a
bearing, `get_warp_c()` returns `J w`. -/
theorem C11_get_warp_c (s : FC) (cam : CamI) (hcam : s.cam = some cam) (w : M2)
    (hc : s.validC = true) (hn : s.validNor = true) :
    (s.setWarpNor w).getWarpC.map Prod.snd = some ((cam.J s.nor).mul w) := by
  simp only [getWarpC, comWarpC, setWarpNor, comC, comNor, getJ, getNor, hc, hn, hcam, CamI.J]
  cases h : cam.b2pJ s.nor <;> simp [h]

/-- C11: after `set_warp_c(w)` on such a feature, `get_warp_nor()` returns the matrix `x` with
`J x = w`, provided the Jacobian is invertible; if it is singular no bearing warp becomes available. -/
theorem C11_get_warp_nor (s : FC) (cam : CamI) (hcam : s.cam = some cam) (w : M2)
    (hc : s.validC = true) (hn : s.validNor = true) :
    ((cam.J s.nor).det ≠ 0 → ∃ x, (s.setWarpC w).getWarpNor.map Prod.snd = some x ∧ (cam.J s.nor).mul x = w) ∧
    ((cam.J s.nor).det = 0 → (s.setWarpC w).comWarpNor.map Prod.snd = some false) := by
  constructor
  · intro hd
    refine ⟨(cam.J s.nor).inv.mul w, ?_, ?_⟩
    · simp only [getWarpNor, comWarpNor, setWarpC, comC, comNor, getJ, getNor, hc, hn, hcam]
      unfold CamI.J at *
      cases h : cam.b2pJ s.nor <;> simp [h] at hd ⊢
      · simp [M2.det, M2.zero] at hd
      · simp [hd]
    · have hd' : (cam.J s.nor).a * (cam.J s.nor).d - (cam.J s.nor).b * (cam.J s.nor).c ≠ 0 := hd
      ext <;> simp only [M2.mul, M2.inv] <;> field_simp <;> simp only [M2.det] <;> ring
  · intro hd
    simp only [comWarpNor, setWarpC, comC, comNor, getJ, getNor, hc, hn, hcam]
    unfold CamI.J at *
    cases h : cam.b2pJ s.nor <;> simp [h] at hd ⊢
    · simp [M2.det, M2.zero]
    · simp [hd]

/-- The pinhole camera with unit intrinsics, as used in the witnesses. -/
noncomputable def pinhole : CamI := Camera.default'.toI (fun _ => ⟨Quat.one⟩) (fun _ => ⟨Quat.one⟩)

/-- C11, finding: the filter's own state increment (`RobocentricFeatureElement::boxPlus`) moves the
bearing but keeps both warps, so they no longer agree.  Witness: pinhole camera, feature on the
optical axis with identity pixel warp, bearing moved by 60 degrees. -/
theorem C11_finding_boxPlus_stale (junk : FC) :
    ∃ (s1 s2 : FC) (d : V2) (J : M2),
      ({ constructNor junk ⟨Quat.one⟩ with cam := some pinhole, trackWarping := true } : FC).run [.comWarpNor] = some s1 ∧
      s1.boxPlus d = some s2 ∧ s2.validWarpC = true ∧ s2.validWarpNor = true ∧
      s2.getJ.map Prod.snd = some J ∧ s2.warpC ≠ J.mul s2.warpNor := by
  have hJ0 : pinhole.b2pJ ⟨Quat.one⟩ = some (⟨0, 0⟩, ⟨0, 1, -1, 0⟩) := by
    simp [pinhole, Camera.toI, Camera.bearingToPixelNJ, Camera.bearingToPixelJ, Nor.vec, V3.ez, Camera.default',
      Camera.distortJ, Camera.distortRadtanJ, Camera.M23.mulVec, Nor.M, Nor.perp1, Nor.perp2, V3.ex, V3.ey, V3.dot]
    norm_num
  have hP0 : pinhole.b2p ⟨Quat.one⟩ = some ⟨0, 0⟩ := by
    simp [pinhole, Camera.toI, Camera.bearingToPixelN, Camera.bearingToPixel, Nor.vec, V3.ez, Camera.default',
      Camera.distort, Camera.distortRadtan]
  have hexp : (Nor.mk Quat.one).boxPlus ⟨Real.pi / 3, 0⟩ = ⟨⟨Real.sqrt 3 / 2, 1 / 2, 0, 0⟩⟩ := by
    have hpi := Real.pi_pos
    have hN : (Nor.mk Quat.one).N ⟨Real.pi / 3, 0⟩ = ⟨Real.pi / 3, 0, 0⟩ := by
      ext <;> simp [Nor.N, Nor.perp1, Nor.perp2, V3.ex, V3.ey]
    have hnorm : (⟨Real.pi / 3, 0, 0⟩ : V3).norm / 2 = Real.pi / 6 := by
      simp [V3.norm, V3.normSq]
      rw [Real.sqrt_sq (by positivity)]; ring
    have hne : Real.pi / 6 ≠ 0 := by positivity
    simp only [Nor.boxPlus, hN, Quat.mul_one', Quat.exp, hnorm, Real.sinc_of_ne_zero hne, Real.cos_pi_div_six,
      Real.sin_pi_div_six]
    congr 2
    · field_simp; norm_num
    · simp
    · simp
  have h3 : Real.sqrt 3 ^ 2 = 3 := Real.sq_sqrt (by norm_num)
  have hv : (Nor.mk ⟨Real.sqrt 3 / 2, 1 / 2, 0, 0⟩).vec = ⟨0, -(Real.sqrt 3 / 2), 1 / 2⟩ := by
    ext <;> simp [Nor.vec, Quat.rotate, V3.ez, div_pow, h3] <;> ring
  have hM1 : (Nor.mk ⟨Real.sqrt 3 / 2, 1 / 2, 0, 0⟩).M ⟨1, 0⟩ = ⟨0, -(1 / 2), -(Real.sqrt 3 / 2)⟩ := by
    ext <;> simp [Nor.M, Nor.perp1, Nor.perp2, Quat.rotate, V3.ex, V3.ey, div_pow, h3] <;> ring
  have hM2 : (Nor.mk ⟨Real.sqrt 3 / 2, 1 / 2, 0, 0⟩).M ⟨0, 1⟩ = ⟨1, 0, 0⟩ := by
    ext <;> simp [Nor.M, Nor.perp1, Nor.perp2, Quat.rotate, V3.ex, V3.ey, div_pow, h3] <;> ring
  have hJ1 : ∃ c, pinhole.b2pJ ⟨⟨Real.sqrt 3 / 2, 1 / 2, 0, 0⟩⟩ = some (c, ⟨0, 2, -4, 0⟩) := by
    have hz : ¬ ((1 / 2 : ℝ) ≤ 0) := by norm_num
    simp only [pinhole, Camera.toI, Camera.bearingToPixelNJ, Camera.bearingToPixelJ, hv, if_neg hz, hM1, hM2]
    refine ⟨_, congrArg some (Prod.ext rfl ?_)⟩
    simp [Camera.default', Camera.distortJ, Camera.distortRadtanJ, Camera.M23.mulVec, V3.dot, lit1]
    nlinarith [h3]
  obtain ⟨c1, hJ1⟩ := hJ1
  let s0 : FC := { constructNor junk ⟨Quat.one⟩ with cam := some pinhole, trackWarping := true }
  let s1 : FC := { s0 with c := ⟨0, 0⟩, validC := true, warpNor := (⟨0, 1, -1, 0⟩ : M2).inv.mul M2.one, validWarpNor := true }
  have hr : s0.run [.comWarpNor] = some s1 := by
    have hd : (⟨0, 1, -1, 0⟩ : M2).det ≠ 0 := by simp [M2.det]
    simp [run, step, comWarpNor, s0, s1, constructNor, construct, resetCoordinates, setWarpIdentity, comC, comNor,
      getJ, getNor, hP0, hJ0, hd]
  refine ⟨s1, s1.setNor ⟨⟨Real.sqrt 3 / 2, 1 / 2, 0, 0⟩⟩ false, ⟨Real.pi / 3, 0⟩, ⟨0, 2, -4, 0⟩, hr, ?_, ?_, ?_, ?_, ?_⟩
  · simp [boxPlus, getNor, comNor, s1, s0, constructNor, hexp]
  · simp [setNor, s1, s0, constructNor, construct, resetCoordinates, setWarpIdentity]
  · simp [setNor, s1]
  · simp only [one_div] at hJ1
    simp [setNor, s1, s0, getJ, getNor, comNor, hJ1]
  · intro h
    have := congrArg M2.a h
    simp [setNor, s1, s0, M2.mul, M2.inv, M2.one, M2.det, constructNor, construct, resetCoordinates, setWarpIdentity] at this

/- Non-vacuity: a reachable object with both warps available to which `C11_warps_agree` applies. -/
example (junk : FC) : ∃ s1 : FC,
    ({ constructNor junk ⟨Quat.one⟩ with cam := some pinhole, trackWarping := true } : FC).run [.comWarpNor] = some s1 ∧
      s1.validWarpC = true ∧ s1.validWarpNor = true := by
  obtain ⟨s1, s2, d, J, h1, h2, h3, h4, _⟩ := C11_finding_boxPlus_stale junk
  refine ⟨s1, h1, ?_, ?_⟩
  all_goals
    unfold boxPlus at h2
    cases hn : s1.getNor with
    | none => simp [hn] at h2
    | some p =>
      obtain ⟨t, n⟩ := p
      obtain ⟨b, hb, _⟩ := getNor_spec hn
      simp [hn] at h2
      have e := (comNor_spec hb).1
      subst h2
      first
        | (rw [← e.validWarpC]; simpa [setNor] using h3)
        | (rw [← e.validWarpNor]; simpa [setNor] using h4)

/- Non-vacuity of C08/C09: the pinhole camera, a bearing on the optical axis. -/
example (s : FC) : ∃ s', (({ s with cam := some pinhole } : FC).setNor ⟨Quat.one⟩ true).run [.getJ, .comWarpC, .getC] = some s' ∧
    s'.getC.map Prod.snd = some (⟨0, 0⟩ : V2) := by
  have hwf : pinhole.WF := C09_camera_is_wf _ _ _
  obtain ⟨s', h1, _, h3⟩ := C08_set_nor ({ s with cam := some pinhole } : FC) pinhole rfl hwf ⟨Quat.one⟩ true
    [.getJ, .comWarpC, .getC] (by simp [Op.isQuery])
  refine ⟨s', h1, h3 _ ?_⟩
  simp [pinhole, Camera.toI, Camera.bearingToPixelN, Camera.bearingToPixel, Nor.vec, V3.ez, Camera.default',
    Camera.distort, Camera.distortRadtan]

/-! ## C60: triangulation -/

/-- C60: if the two rays really meet in a common point — at distance `d1` along the first bearing and
`d2` along the second — with enough parallax, the returned distance is exactly `d1`. -/
theorem C60_exact (v1 v2 r : V3) (q : Quat) (d1 d2 minD : ℝ) (hq : q.IsUnit) (h1 : v1.norm = 1) (h2 : v2.norm = 1)
    (hmeet : q.rotate (d1 • v1) + r = d2 • v2) (hpar : ((q.rotate v1).dot v2) ^ 2 ≤ 1 - 1e-6) (hmin : minD ≤ d1) :
    depthFromTriangulation v1 v2 r q minD = some d1 := by
  have hv1 : (q.rotate v1).dot (q.rotate v1) = 1 := by
    rw [Quat.dot_rotate hq, ← V3.normSq_eq_dot, ← V3.norm_sq, h1]; norm_num
  have hv2 : v2.dot v2 = 1 := by rw [← V3.normSq_eq_dot, ← V3.norm_sq, h2]; norm_num
  have hr : r = d2 • v2 - d1 • q.rotate v1 := by
    rw [← hmeet, Quat.rotate_smul]; ext <;> simp
  set u := q.rotate v1 with hu
  have ha : ¬ (1.0 - u.dot v2 ^ 2 < 1e-6) := by rw [lit1]; linarith
  have hapos : 0 < 1 - u.dot v2 ^ 2 := by norm_num at hpar; linarith
  have key : -u.dot ((M3.one - M3.outer v2 v2).mulVec r) / (1.0 - u.dot v2 ^ 2) = d1 := by
    rw [lit1, div_eq_iff hapos.ne', hr]
    simp only [M3.sub_mulVec, M3.one_mulVec, M3.outer_mulVec, V3.dot_sub, V3.dot_smul, hv1, hv2, V3.dot_comm v2 u]
    ring
  simp only [depthFromTriangulation, ← hu]
  rw [if_neg ha, key, if_neg (not_lt.mpr hmin)]

/-- C60: in general (noisy rays) the returned distance is the least-squares one: the point at that
distance on the first ray and some point on the second line are at least as close as any other pair of
points of the two lines. -/
theorem C60_least_squares (v1 v2 r : V3) (q : Quat) (minD d : ℝ) (hq : q.IsUnit) (h1 : v1.norm = 1) (h2 : v2.norm = 1)
    (h : depthFromTriangulation v1 v2 r q minD = some d) :
    ∃ e : ℝ, ∀ d' e' : ℝ, (q.rotate (d • v1) + r - e • v2).norm ≤ (q.rotate (d' • v1) + r - e' • v2).norm := by
  have hv1 : (q.rotate v1).dot (q.rotate v1) = 1 := by
    rw [Quat.dot_rotate hq, V3.dot_self_of_norm h1]
  have hv2 : v2.dot v2 = 1 := V3.dot_self_of_norm h2
  simp only [depthFromTriangulation] at h
  simp only [Quat.rotate_smul]
  set u := q.rotate v1 with hu
  split at h
  · simp at h
  rename_i ha
  split at h
  · simp at h
  have hapos : 0 < 1 - u.dot v2 ^ 2 := by rw [lit1] at ha; norm_num at ha; linarith
  simp only [Option.some.injEq] at h
  rw [lit1, div_eq_iff hapos.ne'] at h
  simp only [M3.sub_mulVec, M3.one_mulVec, M3.outer_mulVec, V3.dot_sub, V3.dot_smul] at h
  refine ⟨v2.dot (d • u + r), fun d' e' => Real.sqrt_le_sqrt ?_⟩
  set c := u.dot v2 with hc
  set w : V3 := d • u + r - v2.dot (d • u + r) • v2 with hw
  have hvu : v2.dot u = c := V3.dot_comm v2 u
  have hw2 : w.dot v2 = 0 := by
    rw [hw]
    simp only [V3.sub_dot, V3.add_dot, V3.smul_dot, V3.dot_add, V3.dot_smul, hv2, hvu, V3.dot_comm r v2, ← hc]; ring
  have hw1 : w.dot u = 0 := by
    rw [hw]
    simp only [V3.sub_dot, V3.add_dot, V3.smul_dot, V3.dot_add, V3.dot_smul, hv1, hvu, V3.dot_comm r u]
    linarith
  have hx : d' • u + r - e' • v2 = w + ((d' - d) • u - (e' - v2.dot (d • u + r)) • v2) := by
    rw [hw]; ext <;> simp <;> ring
  rw [hx]
  have : (w + ((d' - d) • u - (e' - v2.dot (d • u + r)) • v2)).normSq
      = w.normSq + ((d' - d) • u - (e' - v2.dot (d • u + r)) • v2).normSq := by
    simp only [V3.normSq_eq_dot, V3.add_dot, V3.dot_add, V3.sub_dot, V3.dot_sub, V3.smul_dot, V3.dot_smul, hw1, hw2,
      V3.dot_comm u w, V3.dot_comm v2 w]
    ring
  rw [this]
  linarith [V3.normSq_nonneg ((d' - d) • u - (e' - v2.dot (d • u + r)) • v2)]

/-- C60: nearly parallel rays are refused, and no distance below the requested minimum is returned. -/
theorem C60_refuses (v1 v2 r : V3) (q : Quat) (minD : ℝ) :
    (1 - 1e-6 < ((q.rotate v1).dot v2) ^ 2 → depthFromTriangulation v1 v2 r q minD = none) ∧
    (∀ d, depthFromTriangulation v1 v2 r q minD = some d → minD ≤ d) := by
  constructor
  · intro h
    simp only [depthFromTriangulation, lit1]
    rw [if_pos (by linarith)]
  · intro d h
    simp only [depthFromTriangulation] at h
    split at h
    · simp at h
    · split at h
      · simp at h
      · rename_i hd; simp at h; rw [← h]; exact not_lt.mp hd

/- Non-vacuity: a point at distance 5 seen from two cameras 4 apart. -/
example : depthFromTriangulation ⟨4/5, 0, 3/5⟩ ⟨0, 0, 1⟩ ⟨-4, 0, 0⟩ Quat.one 0.5 = some 5 := by
  refine C60_exact _ _ _ _ 5 3 _ Quat.isUnit_one ?_ ?_ ?_ ?_ (by norm_num)
  · simp [V3.norm, V3.normSq]; norm_num
  · simp [V3.norm, V3.normSq]
  · ext <;> simp <;> norm_num
  · simp [V3.dot]; norm_num

/-! ## C61: depth uncertainty from the pixel error angle -/

/-- The angle between two vectors (specification). -/
noncomputable def angleBetween (u v : V3) : ℝ := Real.arccos (u.dot v / (u.norm * v.norm))

/-- C61: the returned uncertainty is the exact displacement along the ray which the pixel error
causes: moving the point by `tau` along its ray turns the line of sight of the second camera by exactly
the error angle (as long as the turned ray still meets the first one).  With a zero error angle `tau`
is zero and with a positive one it is positive. -/
theorem C61_tau (f t : V3) (d e : ℝ) (hf : f.norm = 1) (hd : 0 < d) (hnp : 0 < (f.cross t).norm) (he : 0 ≤ e)
    (hmeet : angleBetween f t + angleBetween (d • f - t) (-t) + e < Real.pi) :
    angleBetween ((d + depthUncertaintyTau f t d e) • f - t) (-t) = angleBetween (d • f - t) (-t) + e ∧
    (e = 0 → depthUncertaintyTau f t d e = 0) ∧ (0 < e → 0 < depthUncertaintyTau f t d e) := by
  have hf2 := V3.dot_self_of_norm hf
  set S := (f.cross t).norm with hS
  set n := t.norm with hn
  set p := f.dot t with hp
  have hn2 : n ^ 2 = t.dot t := by rw [hn, V3.norm_sq, V3.normSq_eq_dot]
  have hS2 : S ^ 2 = n ^ 2 - p ^ 2 := by
    have : S ^ 2 = f.dot f * t.dot t - p ^ 2 := by
      rw [hS, V3.norm_sq, hp]; simp [V3.normSq, V3.cross, V3.dot]; ring
    rw [this, hf2, hn2]; ring
  have hn0 : 0 < n := by
    have h0 : 0 ≤ n := V3.norm_nonneg t
    rcases h0.lt_or_eq with h | h
    · exact h
    · nlinarith [sq_nonneg p, sq_nonneg S]
  -- general facts for the point at distance x
  have hm2 : ∀ x : ℝ, (x • f - t).norm ^ 2 = x ^ 2 - 2 * x * p + n ^ 2 := by
    intro x
    rw [V3.norm_sq, V3.normSq_eq_dot, hn2, hp]
    simp only [V3.sub_dot, V3.dot_sub, V3.smul_dot, V3.dot_smul, hf2, V3.dot_comm t f]; ring
  have hdot : ∀ x : ℝ, (x • f - t).dot (-t) = n ^ 2 - x * p := by
    intro x
    rw [hn2, hp]
    simp only [V3.sub_dot, V3.dot_neg, V3.smul_dot]; ring
  have hnn : (-t).norm = n := by simp [hn, V3.norm, V3.normSq]
  have hm0 : ∀ x : ℝ, 0 < (x • f - t).norm := by
    intro x
    rcases (V3.norm_nonneg (x • f - t)).lt_or_eq with h | h
    · exact h
    · have := hm2 x; rw [← h] at this; nlinarith [sq_nonneg (x - p), pow_pos hnp 2]
  set m := (d • f - t).norm with hm
  have hmd := hm2 d
  rw [← hm] at hmd
  have hmp : 0 < m := hm0 d
  have hal : angleBetween f t = Real.arccos (p / n) := by simp [angleBetween, hf, ← hn, ← hp]
  have hbe : angleBetween (d • f - t) (-t) = Real.arccos ((n ^ 2 - d * p) / (m * n)) := by
    simp only [angleBetween, hdot, hnn, ← hm]
  set al := angleBetween f t with hald
  set be := angleBetween (d • f - t) (-t) with hbed
  have hp1 : (p / n) ^ 2 ≤ 1 := by
    rw [div_pow, div_le_one (by positivity)]; nlinarith [sq_nonneg S]
  have hid : (n ^ 2 - d * p) ^ 2 + (d * S) ^ 2 = (m * n) ^ 2 := by
    rw [mul_pow, mul_pow, hS2, hmd]; ring
  have hb1 : ((n ^ 2 - d * p) / (m * n)) ^ 2 ≤ 1 := by
    rw [div_pow, div_le_one (by positivity), ← hid]; nlinarith [sq_nonneg (d * S)]
  have hca : Real.cos al = p / n := by
    have := abs_le.mp ((sq_le_one_iff_abs_le_one _).mp hp1)
    rw [hal]; exact Real.cos_arccos this.1 this.2
  have hcb : Real.cos be = (n ^ 2 - d * p) / (m * n) := by
    have := abs_le.mp ((sq_le_one_iff_abs_le_one _).mp hb1)
    rw [hbe]; exact Real.cos_arccos this.1 this.2
  have hsa : Real.sin al = S / n := by
    rw [hal, Real.sin_arccos]
    rw [show 1 - (p / n) ^ 2 = (S / n) ^ 2 by rw [div_pow, div_pow, hS2]; field_simp]
    exact Real.sqrt_sq (by positivity)
  have hsb : Real.sin be = d * S / (m * n) := by
    rw [hbe, Real.sin_arccos]
    rw [show 1 - ((n ^ 2 - d * p) / (m * n)) ^ 2 = (d * S / (m * n)) ^ 2 by
      rw [div_pow, div_pow, eq_div_iff (by positivity), sub_mul, div_mul_cancel₀ _ (by positivity)]; linarith]
    exact Real.sqrt_sq (by positivity)
  have hsab : Real.sin (al + be) = S / m := by
    rw [Real.sin_add, hsa, hsb, hca, hcb]; field_simp; ring
  have hapos : 0 < al := by
    by_contra h
    have h0 : al = 0 := le_antisymm (not_lt.mp h) (by rw [hal]; exact Real.arccos_nonneg _)
    rw [h0, Real.sin_zero] at hsa
    have : 0 < S / n := by positivity
    linarith
  have hbnn : 0 ≤ be := by rw [hbe]; exact Real.arccos_nonneg _
  set sg := Real.sin (al + be + e) with hsg
  have hsgp : 0 < sg := Real.sin_pos_of_pos_of_lt_pi (by linarith) hmeet
  -- the returned value
  have htau : depthUncertaintyTau f t d e = n * Real.sin (be + e) / sg - d := by
    have e1 : Real.arccos ((f.x * t.x + f.y * t.y + f.z * t.z) / Real.sqrt (t.x * t.x + t.y * t.y + t.z * t.z)) = al := by
      rw [hal, hp, hn]; simp only [V3.dot, V3.norm, V3.normSq]
      try ring_nf
    have e2 : Real.sqrt (t.x * t.x + t.y * t.y + t.z * t.z) = n := by
      rw [hn]; simp only [V3.norm, V3.normSq]; try ring_nf
    have e3 : Real.sqrt ((f.x * d - t.x) * (f.x * d - t.x) + (f.y * d - t.y) * (f.y * d - t.y) + (f.z * d - t.z) * (f.z * d - t.z)) = m := by
      rw [hm]; simp only [V3.norm, V3.normSq, V3.sub_x, V3.sub_y, V3.sub_z, V3.smul_x, V3.smul_y, V3.smul_z]
      congr 1; ring
    have e4 : Real.arccos (((f.x * d - t.x) * (-t.x) + (f.y * d - t.y) * (-t.y) + (f.z * d - t.z) * (-t.z)) / (n * m)) = be := by
      rw [hbe, mul_comm n m, ← hdot d]
      congr 2
      simp [V3.dot]; ring
    simp only [depthUncertaintyTau]
    rw [e1, e2, e3, e4]
    rw [show Real.pi - al - (be + e) = Real.pi - (al + be + e) by ring, Real.sin_pi_sub]
  have hbase : n * Real.sin be / Real.sin (al + be) = d := by
    rw [hsb, hsab]; field_simp
  have hsabp : 0 < Real.sin (al + be) := by rw [hsab]; positivity
  refine ⟨?_, ?_, ?_⟩
  · have hdp : d + depthUncertaintyTau f t d e = n * Real.sin (be + e) / sg := by rw [htau]; ring
    rw [hdp]
    set x := n * Real.sin (be + e) / sg with hx
    have hsgx : sg = Real.sin al * Real.cos (be + e) + Real.cos al * Real.sin (be + e) := by
      rw [hsg, add_assoc, Real.sin_add]
    have hpn : p = n * Real.cos al := by rw [hca]; field_simp
    have hsap : 0 < Real.sin al := by rw [hsa]; positivity
    have hmx : (x • f - t).norm = n * Real.sin al / sg := by
      have h1 : (x • f - t).norm ^ 2 = (n * Real.sin al / sg) ^ 2 := by
        rw [hm2, hx, hpn]
        field_simp
        rw [hsgx]
        have c1 := Real.sin_sq_add_cos_sq al
        have c2 := Real.sin_sq_add_cos_sq (be + e)
        generalize Real.sin al = sa at *
        generalize Real.cos al = ca at *
        generalize Real.sin (be + e) = sb at *
        generalize Real.cos (be + e) = cb at *
        linear_combination (-sb ^ 2) * c1 + sa ^ 2 * c2
      exact (sq_eq_sq₀ (V3.norm_nonneg _) (by positivity)).mp h1
    simp only [angleBetween, hdot, hnn, hmx]
    have : (n ^ 2 - x * p) / (n * Real.sin al / sg * n) = Real.cos (be + e) := by
      rw [hx, hpn]
      rw [div_eq_iff (by positivity)]
      field_simp
      rw [hsgx]; ring
    rw [this]
    exact Real.arccos_cos (by linarith) (by linarith)
  · intro h0
    subst h0
    rw [htau, hsg, add_zero, add_zero, hbase]; ring
  · intro hpos
    rw [htau]
    have key : Real.sin (be + e) * Real.sin (al + be) - Real.sin be * sg = Real.sin al * Real.sin e := by
      rw [hsg, add_assoc, Real.sin_add al (be + e), Real.sin_add al be, Real.sin_add be e, Real.cos_add be e]
      have c2 := Real.sin_sq_add_cos_sq be
      linear_combination Real.sin al * Real.sin e * c2
    have hse : 0 < Real.sin e := Real.sin_pos_of_pos_of_lt_pi hpos (by linarith)
    have hsap : 0 < Real.sin al := by rw [hsa]; positivity
    have h2 : Real.sin be / Real.sin (al + be) < Real.sin (be + e) / sg := by
      rw [div_lt_div_iff₀ hsabp hsgp]
      have hpp := mul_pos hsap hse
      rw [← key] at hpp
      exact sub_pos.mp hpp
    have h3 := mul_lt_mul_of_pos_left h2 hn0
    rw [← mul_div_assoc, ← mul_div_assoc, hbase] at h3
    exact sub_pos.mpr h3

/- Non-vacuity: a point at distance 1, second camera displaced sideways by 1, error angle pi/8. -/
example : (V3.mk 0 0 1).norm = 1 ∧ 0 < ((V3.mk 0 0 1).cross ⟨1, 0, 0⟩).norm ∧
    angleBetween ⟨0, 0, 1⟩ ⟨1, 0, 0⟩ + angleBetween ((1 : ℝ) • (⟨0, 0, 1⟩ : V3) - ⟨1, 0, 0⟩) (-⟨1, 0, 0⟩) + Real.pi / 8
      < Real.pi := by
  have h2 : (1 : ℝ) / Real.sqrt 2 = Real.cos (Real.pi / 4) := by
    rw [Real.cos_pi_div_four]; field_simp; norm_num
  refine ⟨by simp [V3.norm, V3.normSq], by simp [V3.norm, V3.normSq, V3.cross], ?_⟩
  have h1 : angleBetween ⟨0, 0, 1⟩ ⟨1, 0, 0⟩ = Real.pi / 2 := by simp [angleBetween, V3.dot]
  have h3 : angleBetween ((1 : ℝ) • (⟨0, 0, 1⟩ : V3) - ⟨1, 0, 0⟩) (-⟨1, 0, 0⟩) = Real.pi / 4 := by
    have : (((1 : ℝ) • (⟨0, 0, 1⟩ : V3) - ⟨1, 0, 0⟩)).dot (-⟨1, 0, 0⟩) /
        ((((1 : ℝ) • (⟨0, 0, 1⟩ : V3) - ⟨1, 0, 0⟩)).norm * (-(⟨1, 0, 0⟩ : V3)).norm) = Real.cos (Real.pi / 4) := by
      rw [← h2]; simp [V3.dot, V3.norm, V3.normSq]; norm_num
    rw [angleBetween, this]
    exact Real.arccos_cos (by positivity) (by linarith [Real.pi_pos])
  rw [h1, h3]; linarith [Real.pi_pos]

/-! ## C62: pixel covariance axes -/

/-- C62: for a positive semi-definite covariance with orthonormal eigenvectors, the reported axes are
sorted, each is paired with an eigenvector of the matching variance, and the reported angle is the
direction of the larger axis (up to orientation). -/
theorem C62_axes (cov : M2) (l0 l1 : ℝ) (e0 e1 : V2) (h0 : cov.mulVec e0 = l0 • e0) (h1 : cov.mulVec e1 = l1 • e1)
    (hl0 : 0 ≤ l0) (hl1 : 0 ≤ l1) (n0 : e0.x ^ 2 + e0.y ^ 2 = 1) (n1 : e1.x ^ 2 + e1.y ^ 2 = 1)
    (ho : e0.x * e1.x + e0.y * e1.y = 0) :
    let r := setPixelCov l0 l1 e0 e1
    0 ≤ r.sigma2 ∧ r.sigma2 ≤ r.sigma1 ∧
    cov.mulVec r.eigenVector1 = (r.sigma1 ^ 2) • r.eigenVector1 ∧
    cov.mulVec r.eigenVector2 = (r.sigma2 ^ 2) • r.eigenVector2 ∧
    (r.eigenVector1 = ⟨Real.cos r.sigmaAngle, Real.sin r.sigmaAngle⟩ ∨
     r.eigenVector1 = ⟨-Real.cos r.sigmaAngle, -Real.sin r.sigmaAngle⟩) := by
  have hz : (⟨e0.x, e0.y⟩ : ℂ) ≠ 0 := by
    intro h
    have hx := congrArg Complex.re h; have hy := congrArg Complex.im h
    simp at hx hy; rw [hx, hy] at n0; norm_num at n0
  have hnorm : ‖(⟨e0.x, e0.y⟩ : ℂ)‖ = 1 := by
    rw [Complex.norm_eq_sqrt_sq_add_sq, n0, Real.sqrt_one]
  have hc : Real.cos (Complex.arg ⟨e0.x, e0.y⟩) = e0.x := by rw [Complex.cos_arg hz, hnorm]; simp
  have hs : Real.sin (Complex.arg ⟨e0.x, e0.y⟩) = e0.y := by rw [Complex.sin_arg, hnorm]; simp
  have hhalf : (0.5 : ℝ) * Real.pi = Real.pi / 2 := by norm_num; ring
  by_cases hlt : Real.sqrt l0 < Real.sqrt l1
  · simp only [setPixelCov, if_pos hlt]
    refine ⟨Real.sqrt_nonneg _, hlt.le, by rw [Real.sq_sqrt hl1, h1], by rw [Real.sq_sqrt hl0, h0], ?_⟩
    rw [hhalf, Real.cos_add_pi_div_two, Real.sin_add_pi_div_two, hc, hs]
    -- e1 is orthogonal to e0
    have hdet : (e0.x * e1.y - e0.y * e1.x) ^ 2 = 1 := by
      have : (e0.x * e1.y - e0.y * e1.x) ^ 2 = (e0.x ^ 2 + e0.y ^ 2) * (e1.x ^ 2 + e1.y ^ 2) - (e0.x * e1.x + e0.y * e1.y) ^ 2 := by ring
      rw [this, n0, n1, ho]; norm_num
    have hx : e1.x = -e0.y * (e0.x * e1.y - e0.y * e1.x) := by
      linear_combination (-e1.x) * n0 + e0.x * ho
    have hy : e1.y = e0.x * (e0.x * e1.y - e0.y * e1.x) := by
      linear_combination (-e1.y) * n0 + e0.y * ho
    rcases (sq_eq_sq_iff_eq_or_eq_neg.mp (hdet.trans (one_pow 2).symm)) with h | h
    · left; rw [h] at hx hy; ext <;> simp [hx, hy]
    · right; rw [h] at hx hy; ext <;> simp [hx, hy]
  · simp only [setPixelCov, if_neg hlt]
    refine ⟨Real.sqrt_nonneg _, not_lt.mp hlt, by rw [Real.sq_sqrt hl0, h0], by rw [Real.sq_sqrt hl1, h1], ?_⟩
    left; rw [hc, hs]

/- Non-vacuity: a diagonal covariance whose larger axis is the second one. -/
example : (M2.mk 1 0 0 4).mulVec ⟨1, 0⟩ = (1 : ℝ) • (⟨1, 0⟩ : V2) ∧ (M2.mk 1 0 0 4).mulVec ⟨0, 1⟩ = (4 : ℝ) • (⟨0, 1⟩ : V2) ∧
    (setPixelCov 1 4 ⟨1, 0⟩ ⟨0, 1⟩).eigenVector1 = ⟨0, 1⟩ := by
  refine ⟨by ext <;> simp [M2.mulVec], by ext <;> simp [M2.mulVec], ?_⟩
  have : (1 : ℝ) < Real.sqrt 4 := by rw [show (4:ℝ) = 2 ^ 2 by norm_num, Real.sqrt_sq] <;> norm_num
  simp [setPixelCov, this]

end FC

end Rovio
