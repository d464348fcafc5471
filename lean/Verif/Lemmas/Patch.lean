import Verif.Model.MultilevelPatch
import Verif.Lemmas.FeatureCoordinates
import Mathlib.Tactic.Linarith
import Mathlib.Tactic.NormNum
import Mathlib.Tactic.Ring
import Mathlib.Tactic.FieldSimp
import Mathlib.Tactic.Positivity
import Mathlib.Algebra.Order.Floor.Ring

/-! Helper lemmas for the image pyramid, patches and multilevel patches. -/

namespace Rovio

/-! ### Loops, reads, interpolation -/

lemma fill_some_iff {α : Type} {d : α} {h w : ℕ} {f : ℕ → ℕ → Option α} {g : ℕ → ℕ → α} :
    fill d h w f = some g ↔ (∀ y < h, ∀ x < w, (f y x).isSome) ∧ g = fun y x => (f y x).getD d := by
  unfold fill
  split
  · rename_i hh
    simp only [Option.some.injEq]
    exact ⟨fun h => ⟨hh, h.symm⟩, fun h => h.2.symm⟩
  · rename_i hh
    simp only [reduceCtorEq, false_iff]
    exact fun h => hh h.1

lemma fill_get {α : Type} {d : α} {h w : ℕ} {f : ℕ → ℕ → Option α} {g : ℕ → ℕ → α}
    (hf : fill d h w f = some g) {y x : ℕ} (hy : y < h) (hx : x < w) : f y x = some (g y x) := by
  obtain ⟨h1, rfl⟩ := fill_some_iff.mp hf
  have := h1 y hy x hx
  obtain ⟨v, hv⟩ := Option.isSome_iff_exists.mp this
  simp [hv]

lemma fill_total {α : Type} {d : α} {h w : ℕ} {f : ℕ → ℕ → Option α}
    (hf : ∀ y < h, ∀ x < w, ∃ v, f y x = some v) : ∃ g, fill d h w f = some g :=
  ⟨_, fill_some_iff.mpr ⟨fun y hy x hx => by obtain ⟨v, hv⟩ := hf y hy x hx; simp [hv], rfl⟩⟩

lemma Img.read_some {img : Img} {v u : ℤ} (h0 : 0 ≤ v) (h1 : v < img.rows) (h2 : 0 ≤ u) (h3 : u < img.cols) :
    img.read v u = some (img.px v.toNat u.toNat) := by
  unfold Img.read; rw [if_pos ⟨h0, h1, h2, h3⟩]

lemma Img.read_inv {img : Img} {v u : ℤ} {g : ℕ} (h : img.read v u = some g) :
    0 ≤ v ∧ v < img.rows ∧ 0 ≤ u ∧ u < img.cols ∧ g = img.px v.toNat u.toNat := by
  unfold Img.read at h
  split at h
  · rename_i hh
    simp only [Option.some.injEq] at h
    exact ⟨hh.1, hh.2.1, hh.2.2.1, hh.2.2.2, h.symm⟩
  · simp at h

lemma floorInt_some {x : ℝ} {n : ℤ} (h : floorInt x = some n) : n = ⌊x⌋ := by
  unfold floorInt at h
  split at h
  · simpa using h.symm
  · simp at h

lemma floorInt_total {x : ℝ} (h0 : -2147483648 ≤ x) (h1 : x < 2147483648) : floorInt x = some ⌊x⌋ := by
  unfold floorInt
  rw [if_pos]
  refine ⟨Int.le_floor.mpr (by push_cast; linarith), ?_⟩
  have : ⌊x⌋ < 2147483648 := Int.floor_lt.mpr (by push_cast; linarith)
  omega

namespace Patch

lemma bilinear_total {img : Img} {v u : ℤ} {sx sy : ℝ} (h0 : 0 ≤ v) (h1 : v < img.rows) (h2 : 0 ≤ u)
    (h3 : u < img.cols) (h4 : 0 < sx → u + 1 < img.cols) (h5 : 0 < sy → v + 1 < img.rows) :
    ∃ r, bilinear img v u sx sy = some r := by
  unfold bilinear
  simp only [Img.read_some h0 h1 h2 h3, Option.bind_eq_bind, Option.bind_some, gt_iff_lt]
  by_cases hx : 0 < sx <;> by_cases hy : 0 < sy
  · simp [hx, hy, Img.read_some h0 h1 (by omega : 0 ≤ u + 1) (h4 hx),
      Img.read_some (by omega : 0 ≤ v + 1) (h5 hy) h2 h3,
      Img.read_some (by omega : 0 ≤ v + 1) (h5 hy) (by omega : 0 ≤ u + 1) (h4 hx)]
  · simp [hx, hy, Img.read_some h0 h1 (by omega : 0 ≤ u + 1) (h4 hx)]
  · simp [hx, hy, Img.read_some (by omega : 0 ≤ v + 1) (h5 hy) h2 h3]
  · simp [hx, hy]

/-- What a defined interpolation read and returned. -/
lemma bilinear_inv {img : Img} {v u : ℤ} {sx sy r : ℝ} (hsx : 0 ≤ sx) (hsy : 0 ≤ sy)
    (h : bilinear img v u sx sy = some r) :
    0 ≤ v ∧ v < img.rows ∧ 0 ≤ u ∧ u < img.cols ∧ (0 < sx → u + 1 < img.cols) ∧ (0 < sy → v + 1 < img.rows) ∧
    r = (1 - sx) * (1 - sy) * (img.px v.toNat u.toNat : ℝ) + sx * (1 - sy) * (img.px v.toNat (u + 1).toNat : ℝ)
      + (1 - sx) * sy * (img.px (v + 1).toNat u.toNat : ℝ) + sx * sy * (img.px (v + 1).toNat (u + 1).toNat : ℝ) := by
  unfold bilinear at h
  have hone : (1.0 : ℝ) = 1 := by norm_num
  simp only [hone] at h
  cases htl : img.read v u with
  | none => simp [htl] at h
  | some tl =>
    obtain ⟨a0, a1, a2, a3, a4⟩ := Img.read_inv htl
    simp only [htl, Option.bind_eq_bind, Option.bind_some, gt_iff_lt] at h
    have hx0 : ¬ 0 < sx → sx = 0 := fun hx => le_antisymm (not_lt.mp hx) hsx
    have hy0 : ¬ 0 < sy → sy = 0 := fun hy => le_antisymm (not_lt.mp hy) hsy
    by_cases hx : 0 < sx <;> by_cases hy : 0 < sy
    · cases htr : img.read v (u + 1) with
      | none => simp [htr, hx] at h
      | some tr =>
        obtain ⟨b0, b1, b2, b3, b4⟩ := Img.read_inv htr
        cases hbl : img.read (v + 1) u with
        | none => simp [htr, hbl, hx, hy] at h
        | some bl =>
          obtain ⟨c0, c1, c2, c3, c4⟩ := Img.read_inv hbl
          cases hbr : img.read (v + 1) (u + 1) with
          | none => simp [htr, hbl, hbr, hx, hy] at h
          | some br =>
            obtain ⟨d0, d1, d2, d3, d4⟩ := Img.read_inv hbr
            simp [htr, hbl, hbr, hx, hy] at h
            refine ⟨a0, a1, a2, a3, fun _ => b3, fun _ => c1, ?_⟩
            rw [← h, a4, b4, c4, d4]
    · cases htr : img.read v (u + 1) with
      | none => simp [htr, hx] at h
      | some tr =>
        obtain ⟨b0, b1, b2, b3, b4⟩ := Img.read_inv htr
        simp [htr, hx, hy] at h
        refine ⟨a0, a1, a2, a3, fun _ => b3, fun h => absurd h hy, ?_⟩
        rw [← h, a4, b4, hy0 hy]; ring
    · cases hbl : img.read (v + 1) u with
      | none => simp [hbl, hx, hy] at h
      | some bl =>
        obtain ⟨c0, c1, c2, c3, c4⟩ := Img.read_inv hbl
        simp [hbl, hx, hy] at h
        refine ⟨a0, a1, a2, a3, fun h => absurd h hx, fun _ => c1, ?_⟩
        rw [← h, a4, c4, hx0 hx]; ring
    · simp [hx, hy] at h
      refine ⟨a0, a1, a2, a3, fun h => absurd h hx, fun h => absurd h hy, ?_⟩
      rw [← h, a4, hx0 hx, hy0 hy]; ring

end Patch

/-! ### Coordinates after a successful check -/

namespace FC

lemma comC_idem {s s' : FC} {b : Bool} (h : s.comC = some (s', b)) : s'.comC = some (s', s'.validC) := by
  unfold comC at h
  split at h
  · simp only [Option.some.injEq, Prod.mk.injEq] at h
    obtain ⟨rfl, rfl⟩ := h
    rename_i hv
    simp [comC, hv]
  · rename_i hv
    split at h
    · simp at h
    · rename_i cam hcam
      by_cases hn : s.validNor = true
      · rw [if_pos hn] at h
        cases hb : cam.b2p s.nor with
        | some c =>
          simp only [hb, Option.some.injEq, Prod.mk.injEq] at h
          obtain ⟨rfl, rfl⟩ := h
          simp [comC]
        | none =>
          simp only [hb, Option.some.injEq, Prod.mk.injEq] at h
          obtain ⟨rfl, rfl⟩ := h
          simp [comC, hv, hcam, hn, hb]
      · rw [if_neg hn] at h
        simp only [Option.some.injEq, Prod.mk.injEq] at h
        obtain ⟨rfl, rfl⟩ := h
        simp [comC, hv, hcam, hn]

/-- All queries on such a state return it unchanged. -/
structure Settled (s : FC) : Prop where
  warp : s.validWarpC = true
  comC : s.comC = some (s, s.validC)

/-- The answer of `isNearIdentityWarping` on a settled state. -/
noncomputable def nearB (s : FC) : Bool := s.isWarpIdentity || decide (s.warpC.distOne < 1e-6)

lemma comWarpC_valid {s : FC} (h : s.validWarpC = true) : s.comWarpC = some (s, true) := by
  simp [comWarpC, h]

lemma getWarpC_valid {s : FC} (h : s.validWarpC = true) : s.getWarpC = some (s, s.warpC) := by
  simp [getWarpC, comWarpC_valid h]

lemma nearB_false {s : FC} (h1 : s.isWarpIdentity = false) (h2 : (1e-6 : ℝ) ≤ s.warpC.distOne) : s.nearB = false := by
  simp [nearB, h1, h2]

/-- Queries keep a point that is in front of the camera in front. -/
lemma isInFront_query {s s' : FC} {op : Op} (hop : op.isQuery = true) (hf : s.isInFront = true)
    (h : s.step op = some s') : s'.isInFront = true := by
  refine query_pres (P := fun s => s.isInFront = true) ?_ ?_ ?_ ?_ s op s' hop hf h
  · intro s s' b hP h
    obtain ⟨_, h2, h3, h4, h5⟩ := comC_spec h
    by_cases hv : s.validC = true
    · rw [h5 hv]; exact hP
    · unfold isInFront at hP ⊢
      rw [h2, h3]
      simp only [hv, Bool.or_eq_true, Bool.false_eq_true, false_or] at hP ⊢
      exact Or.inr hP
  · intro s s' b hP h
    obtain ⟨_, h2, h3, h4, h5⟩ := comNor_spec h
    by_cases hv : s.validNor = true
    · rw [h5 hv]; exact hP
    · unfold isInFront at hP ⊢
      rw [h3]
      simp only [hv, Bool.or_eq_true, Bool.false_eq_true, Bool.false_and, or_false] at hP ⊢
      exact Or.inl hP
  · intro s s' J hP h
    obtain ⟨_, h2, h3, _⟩ := getJ_spec h
    unfold isInFront at hP ⊢
    rw [h2]
    by_cases hv : s.validNor = true
    · rw [(h3 hv).1, (h3 hv).2]
      rw [hv] at hP; exact hP
    · simp only [hv, Bool.or_eq_true, Bool.false_eq_true, Bool.false_and, or_false] at hP ⊢
      exact Or.inl hP
  · intro s s' hP _ _ h2 h3 h4
    unfold isInFront at hP ⊢
    rw [h2, h3, h4]; exact hP

lemma isNear_valid {s : FC} (h : s.validWarpC = true) :
    s.isNearIdentityWarping = some (s, s.nearB) := by
  unfold isNearIdentityWarping nearB
  by_cases hi : s.isWarpIdentity = true
  · simp [hi]
  · simp [hi, comWarpC_valid h, getWarpC_valid h]

lemma Settled.getC {s : FC} (h : s.Settled) : s.getC = some (s, s.c) := by
  simp [FC.getC, h.comC]

lemma settled_of_getC {s s' : FC} {q : V2} (hv : s.validWarpC = true) (h : s.getC = some (s', q)) :
    s'.Settled ∧ q = s'.c ∧ s'.warpC = s.warpC ∧ s'.nearB = s.nearB ∧ s'.cam = s.cam ∧
      s'.isWarpIdentity = s.isWarpIdentity := by
  obtain ⟨b, hb, hq⟩ := getC_spec h
  have hs := (comC_spec hb).1
  refine ⟨⟨hs.validWarpC.trans hv, comC_idem hb⟩, hq, hs.warpC, ?_, hs.cam, hs.isWarpIdentity⟩
  unfold nearB
  rw [hs.isWarpIdentity, hs.warpC]

end FC

/-! ### `isPatchInFrame` on a settled state -/

namespace Patch

/-- The unwarped test passed. -/
def PlainIn (img : Img) (q : V2) (hs : ℕ) : Prop :=
  (hs : ℝ) ≤ q.x ∧ (hs : ℝ) ≤ q.y ∧ q.x ≤ (img.cols : ℝ) - hs ∧ q.y ≤ (img.rows : ℝ) - hs

/-- The warped test passed: the four corners, `a = hs - 1/2`, lie in the image. -/
def WarpIn (img : Img) (q : V2) (W : M2) (hs : ℕ) : Prop :=
  ∀ dx dy : ℝ, (dx = (hs : ℝ) - 1 / 2 ∨ dx = -((hs : ℝ) - 1 / 2)) → (dy = (hs : ℝ) - 1 / 2 ∨ dy = -((hs : ℝ) - 1 / 2)) →
    0 ≤ q.x + (W.a * dx + W.b * dy) - 1 / 2 ∧ q.x + (W.a * dx + W.b * dy) - 1 / 2 < (img.cols : ℝ) - 1 ∧
    0 ≤ q.y + (W.c * dx + W.d * dy) - 1 / 2 ∧ q.y + (W.c * dx + W.d * dy) - 1 / 2 < (img.rows : ℝ) - 1

lemma cornerOk_true {img : Img} {q : V2} {W : M2} {hs : ℕ} {y x : ℕ} (h : cornerOk img q W hs (y, x) = some true) :
    let dx : ℝ := (x : ℝ) - hs + 1 / 2
    let dy : ℝ := (y : ℝ) - hs + 1 / 2
    0 ≤ q.x + (W.a * dx + W.b * dy) - 1 / 2 ∧ q.x + (W.a * dx + W.b * dy) - 1 / 2 < (img.cols : ℝ) - 1 ∧
    0 ≤ q.y + (W.c * dx + W.d * dy) - 1 / 2 ∧ q.y + (W.c * dx + W.d * dy) - 1 / 2 < (img.rows : ℝ) - 1 := by
  unfold cornerOk at h
  have hh : (0.5 : ℝ) = 1 / 2 := by norm_num
  simp only [hh] at h
  intro dx dy
  cases hu : floorInt (q.x + (W.a * dx + W.b * dy) - 1 / 2) with
  | none => simp [dx, dy] at hu; simp [hu] at h
  | some u =>
    cases hv : floorInt (q.y + (W.c * dx + W.d * dy) - 1 / 2) with
    | none => simp [dx, dy] at hu hv; simp [hu, hv] at h
    | some v =>
      have hu' := floorInt_some hu
      have hv' := floorInt_some hv
      simp only [dx, dy] at hu hv
      simp only [hu, hv, Option.bind_eq_bind, Option.bind_some, Option.pure_def, Option.some.injEq, Bool.not_eq_true',
        Bool.or_eq_false_iff, decide_eq_false_iff_not, not_lt, not_le] at h
      obtain ⟨⟨⟨h1, h2⟩, h3⟩, h4⟩ := h
      rw [hu'] at h1 h3
      rw [hv'] at h2 h4
      have h1' := Int.floor_nonneg.mp h1
      have h2' := Int.floor_nonneg.mp h2
      have h3' := Int.floor_lt.mp h3
      have h4' := Int.floor_lt.mp h4
      push_cast at h3' h4'
      exact ⟨h1', h3', h2', h4'⟩

lemma cornerOk_of {img : Img} {q : V2} {W : M2} {hs : ℕ} {y x : ℕ}
    (hc : img.cols ≤ 2147483647) (hr : img.rows ≤ 2147483647)
    (h : let dx : ℝ := (x : ℝ) - hs + 1 / 2
         let dy : ℝ := (y : ℝ) - hs + 1 / 2
      0 ≤ q.x + (W.a * dx + W.b * dy) - 1 / 2 ∧ q.x + (W.a * dx + W.b * dy) - 1 / 2 < (img.cols : ℝ) - 1 ∧
      0 ≤ q.y + (W.c * dx + W.d * dy) - 1 / 2 ∧ q.y + (W.c * dx + W.d * dy) - 1 / 2 < (img.rows : ℝ) - 1) :
    cornerOk img q W hs (y, x) = some true := by
  unfold cornerOk
  have hh : (0.5 : ℝ) = 1 / 2 := by norm_num
  simp only [hh]
  obtain ⟨h1, h2, h3, h4⟩ := h
  have hc' : (img.cols : ℝ) ≤ 2147483647 := by exact_mod_cast hc
  have hr' : (img.rows : ℝ) ≤ 2147483647 := by exact_mod_cast hr
  rw [floorInt_total (by linarith) (by linarith)]
  simp only [Option.bind_eq_bind, Option.bind_some]
  rw [floorInt_total (by linarith) (by linarith)]
  have e1 := Int.floor_nonneg.mpr h1
  have e2 := Int.floor_nonneg.mpr h3
  have e3 : ⌊q.x + (W.a * ((x : ℝ) - hs + 1 / 2) + W.b * ((y : ℝ) - hs + 1 / 2)) - 1 / 2⌋ < (img.cols : ℤ) - 1 :=
    Int.floor_lt.mpr (by push_cast; exact h2)
  have e4 : ⌊q.y + (W.c * ((x : ℝ) - hs + 1 / 2) + W.d * ((y : ℝ) - hs + 1 / 2)) - 1 / 2⌋ < (img.rows : ℤ) - 1 :=
    Int.floor_lt.mpr (by push_cast; exact h4)
  simp only [Option.bind_some, Option.pure_def, Option.some.injEq, Bool.not_eq_true',
        Bool.or_eq_false_iff, decide_eq_false_iff_not, not_lt, not_le]
  exact ⟨⟨⟨e1, e2⟩, e3⟩, e4⟩

lemma corners_true {img : Img} {q : V2} {W : M2} {hs : ℕ} (hhs : 1 ≤ hs)
    (h : cornersOk img q W hs = some true) :
    WarpIn img q W hs := by
  have hcast : ((2 * hs - 1 : ℕ) : ℝ) = 2 * (hs : ℝ) - 1 := by
    rw [Nat.cast_sub (by omega)]; push_cast; ring
  simp only [cornersOk, List.allM, Option.bind_eq_bind] at h
  cases h1 : cornerOk img q W hs (0, 0) with
  | none => simp [h1] at h
  | some b1 =>
  cases b1 with
  | false => simp [h1] at h
  | true =>
  cases h2 : cornerOk img q W hs (0, 2 * hs - 1) with
  | none => simp [h1, h2] at h
  | some b2 =>
  cases b2 with
  | false => simp [h1, h2] at h
  | true =>
  cases h3 : cornerOk img q W hs (2 * hs - 1, 0) with
  | none => simp [h1, h2, h3] at h
  | some b3 =>
  cases b3 with
  | false => simp [h1, h2, h3] at h
  | true =>
  cases h4 : cornerOk img q W hs (2 * hs - 1, 2 * hs - 1) with
  | none => simp [h1, h2, h3, h4] at h
  | some b4 =>
  cases b4 with
  | false => simp [h1, h2, h3, h4] at h
  | true =>
  have k1 := cornerOk_true h1
  have k2 := cornerOk_true h2
  have k3 := cornerOk_true h3
  have k4 := cornerOk_true h4
  simp only [hcast, Nat.cast_zero] at k1 k2 k3 k4
  have ea : (0 : ℝ) - hs + 1 / 2 = -((hs : ℝ) - 1 / 2) := by ring
  have eb : (2 * (hs : ℝ) - 1) - hs + 1 / 2 = (hs : ℝ) - 1 / 2 := by ring
  rw [ea] at k1 k2 k3
  rw [eb] at k2 k3 k4
  rintro dx dy (rfl | rfl) (rfl | rfl)
  · exact k4
  · exact k2
  · exact k3
  · exact k1

lemma corners_of {img : Img} {q : V2} {W : M2} {hs : ℕ} (hhs : 1 ≤ hs)
    (hc : img.cols ≤ 2147483647) (hr : img.rows ≤ 2147483647) (h : WarpIn img q W hs) :
    cornersOk img q W hs = some true := by
  have hcast : ((2 * hs - 1 : ℕ) : ℝ) = 2 * (hs : ℝ) - 1 := by
    rw [Nat.cast_sub (by omega)]; push_cast; ring
  have ea : (0 : ℝ) - hs + 1 / 2 = -((hs : ℝ) - 1 / 2) := by ring
  have eb : (2 * (hs : ℝ) - 1) - hs + 1 / 2 = (hs : ℝ) - 1 / 2 := by ring
  have h1 : cornerOk img q W hs (0, 0) = some true :=
    cornerOk_of hc hr (by simp only [hcast, Nat.cast_zero, ea]; exact h _ _ (Or.inr rfl) (Or.inr rfl))
  have h2 : cornerOk img q W hs (0, 2 * hs - 1) = some true :=
    cornerOk_of hc hr (by simp only [hcast, Nat.cast_zero, ea, eb]; exact h _ _ (Or.inl rfl) (Or.inr rfl))
  have h3 : cornerOk img q W hs (2 * hs - 1, 0) = some true :=
    cornerOk_of hc hr (by simp only [hcast, Nat.cast_zero, ea, eb]; exact h _ _ (Or.inr rfl) (Or.inl rfl))
  have h4 : cornerOk img q W hs (2 * hs - 1, 2 * hs - 1) = some true :=
    cornerOk_of hc hr (by simp only [hcast, eb]; exact h _ _ (Or.inl rfl) (Or.inl rfl))
  simp [cornersOk, List.allM, h1, h2, h3, h4]

/-- The test on a settled state. -/
def InP (p : ℕ) (img : Img) (c : FC) (wb : Bool) : Prop :=
  if c.nearB then PlainIn img c.c (halfPatch p wb) else WarpIn img c.c c.warpC (halfPatch p wb)

lemma halfPatch_pos {p : ℕ} (hp : 2 ≤ p) (wb : Bool) : 1 ≤ halfPatch p wb := by
  unfold halfPatch; have : 1 ≤ p / 2 := by omega
  omega

/-- A positive answer: the state left behind is settled and passes the test. -/
lemma isPatchInFrame_true {p : ℕ} {img : Img} {c c' : FC} {wb : Bool} (hp : 2 ≤ p)
    (h : isPatchInFrame p img c wb = some (c', true)) : c'.Settled ∧ InP p img c' wb := by
  unfold isPatchInFrame at h
  split at h
  · cases hw : c.comWarpC with
    | none => simp [hw] at h
    | some r =>
      obtain ⟨c1, b⟩ := r
      simp only [hw, Option.bind_eq_bind, Option.bind_some] at h
      cases b with
      | false => simp at h
      | true =>
        have hv : c1.validWarpC = true := (FC.comWarpC_spec hw).2.2.2.2.1
        simp only [if_true, FC.isNear_valid hv, FC.getWarpC_valid hv, Option.bind_some] at h
        cases hg : c1.getC with
        | none => by_cases hn : c1.nearB = true <;> simp [hn, hg] at h
        | some r =>
          obtain ⟨c2, q⟩ := r
          obtain ⟨e1, e2, e3, e4, e5, e6⟩ := FC.settled_of_getC hv hg
          by_cases hn : c1.nearB = true
          · simp only [hn, if_true, hg, Option.bind_some, Option.pure_def, Option.some.injEq, Prod.mk.injEq,
              Bool.not_eq_true', Bool.or_eq_false_iff, decide_eq_false_iff_not, not_lt] at h
            obtain ⟨rfl, ⟨⟨⟨h1, h2⟩, h3⟩, h4⟩⟩ := h
            refine ⟨e1, ?_⟩
            unfold InP
            rw [e4, if_pos hn, ← e2]
            exact ⟨h1, h2, h3, h4⟩
          · simp only [hn, hg, Option.bind_some, Option.pure_def, Bool.false_eq_true, if_false] at h
            cases ha : cornersOk img q c1.warpC (halfPatch p wb) with
            | none => simp [ha] at h
            | some ok =>
              simp only [ha, Option.bind_some, Option.some.injEq, Prod.mk.injEq] at h
              obtain ⟨rfl, rfl⟩ := h
              refine ⟨e1, ?_⟩
              unfold InP
              rw [e4, if_neg hn, ← e2, e3]
              exact corners_true (halfPatch_pos hp wb) ha
  · simp at h

/-- Conversely a settled state in front that passes the test gets a positive answer. -/
lemma isPatchInFrame_of {p : ℕ} {img : Img} {c : FC} {wb : Bool} (hp : 2 ≤ p)
    (hc : img.cols ≤ 2147483647) (hr : img.rows ≤ 2147483647)
    (hs : c.Settled) (hf : c.isInFront = true) (h : InP p img c wb) :
    isPatchInFrame p img c wb = some (c, true) := by
  unfold isPatchInFrame
  rw [if_pos hf]
  simp only [FC.comWarpC_valid hs.warp, FC.isNear_valid hs.warp, FC.getWarpC_valid hs.warp, hs.getC, Option.bind_eq_bind,
    Option.bind_some, if_true, Option.pure_def]
  unfold InP at h
  by_cases hn : c.nearB = true
  · rw [if_pos hn] at h
    simp only [hn, if_true, Option.some.injEq, Prod.mk.injEq, true_and, Bool.not_eq_true', Bool.or_eq_false_iff,
      decide_eq_false_iff_not, not_lt]
    exact ⟨⟨⟨h.1, h.2.1⟩, h.2.2.1⟩, h.2.2.2⟩
  · rw [if_neg hn] at h
    simp [hn, corners_of (halfPatch_pos hp wb) hc hr h]

/-! ### Extraction -/

lemma samplePlain_total {img : Img} {q : V2} {hs y x : ℕ} (h : PlainIn img q hs)
    (hc : img.cols ≤ 2147483647) (hr : img.rows ≤ 2147483647) (hy : y < 2 * hs) (hx : x < 2 * hs) :
    ∃ r, samplePlain img q hs y x = some r := by
  obtain ⟨h1, h2, h3, h4⟩ := h
  have hc' : (img.cols : ℝ) ≤ 2147483647 := by exact_mod_cast hc
  have hr' : (img.rows : ℝ) ≤ 2147483647 := by exact_mod_cast hr
  have hs0 : (0 : ℝ) ≤ hs := Nat.cast_nonneg _
  unfold samplePlain
  rw [floorInt_total (by linarith) (by linarith)]
  simp only [Option.bind_eq_bind, Option.bind_some]
  rw [floorInt_total (by linarith) (by linarith)]
  simp only [Option.bind_some]
  have a1 : (hs : ℤ) ≤ ⌊q.x⌋ := Int.le_floor.mpr (by push_cast; exact h1)
  have a2 : (hs : ℤ) ≤ ⌊q.y⌋ := Int.le_floor.mpr (by push_cast; exact h2)
  have a3 : ⌊q.x⌋ ≤ (img.cols : ℤ) - hs := by
    have := (Int.floor_le q.x).trans h3
    exact_mod_cast this
  have a4 : ⌊q.y⌋ ≤ (img.rows : ℤ) - hs := by
    have := (Int.floor_le q.y).trans h4
    exact_mod_cast this
  apply bilinear_total
  · omega
  · omega
  · omega
  · omega
  · intro hp
    have : (⌊q.x⌋ : ℝ) < (img.cols : ℝ) - hs := by linarith
    have : ⌊q.x⌋ < (img.cols : ℤ) - hs := by exact_mod_cast this
    omega
  · intro hp
    have : (⌊q.y⌋ : ℝ) < (img.rows : ℝ) - hs := by linarith
    have : ⌊q.y⌋ < (img.rows : ℤ) - hs := by exact_mod_cast this
    omega

/-- A linear form on the square is bounded by its values in the corners. -/
lemma corner_bound {a b A lo hi : ℝ}
    (h : ∀ dx dy : ℝ, (dx = A ∨ dx = -A) → (dy = A ∨ dy = -A) → lo ≤ a * dx + b * dy ∧ a * dx + b * dy < hi)
    {dx dy : ℝ} (hx1 : -A ≤ dx) (hx2 : dx ≤ A) (hy1 : -A ≤ dy) (hy2 : dy ≤ A) :
    lo ≤ a * dx + b * dy ∧ a * dx + b * dy < hi := by
  have h1 := h A A (Or.inl rfl) (Or.inl rfl)
  have h2 := h A (-A) (Or.inl rfl) (Or.inr rfl)
  have h3 := h (-A) A (Or.inr rfl) (Or.inl rfl)
  have h4 := h (-A) (-A) (Or.inr rfl) (Or.inr rfl)
  rcases le_total 0 a with ha | ha <;> rcases le_total 0 b with hb | hb
  · have p1 := mul_le_mul_of_nonneg_left hx1 ha
    have p2 := mul_le_mul_of_nonneg_left hx2 ha
    have p3 := mul_le_mul_of_nonneg_left hy1 hb
    have p4 := mul_le_mul_of_nonneg_left hy2 hb
    constructor <;> linarith
  · have p1 := mul_le_mul_of_nonneg_left hx1 ha
    have p2 := mul_le_mul_of_nonneg_left hx2 ha
    have p3 := mul_le_mul_of_nonpos_left hy1 hb
    have p4 := mul_le_mul_of_nonpos_left hy2 hb
    constructor <;> linarith
  · have p1 := mul_le_mul_of_nonpos_left hx1 ha
    have p2 := mul_le_mul_of_nonpos_left hx2 ha
    have p3 := mul_le_mul_of_nonneg_left hy1 hb
    have p4 := mul_le_mul_of_nonneg_left hy2 hb
    constructor <;> linarith
  · have p1 := mul_le_mul_of_nonpos_left hx1 ha
    have p2 := mul_le_mul_of_nonpos_left hx2 ha
    have p3 := mul_le_mul_of_nonpos_left hy1 hb
    have p4 := mul_le_mul_of_nonpos_left hy2 hb
    constructor <;> linarith

lemma sampleWarped_total {img : Img} {q : V2} {W : M2} {hs y x : ℕ} (h : WarpIn img q W hs)
    (hc : img.cols ≤ 2147483647) (hr : img.rows ≤ 2147483647) (hy : y < 2 * hs) (hx : x < 2 * hs) :
    ∃ r, sampleWarped img q W hs y x = some r := by
  have hc' : (img.cols : ℝ) ≤ 2147483647 := by exact_mod_cast hc
  have hr' : (img.rows : ℝ) ≤ 2147483647 := by exact_mod_cast hr
  have hh : (0.5 : ℝ) = 1 / 2 := by norm_num
  have hhs : 1 ≤ hs := by omega
  have hhs' : (1 : ℝ) ≤ hs := by exact_mod_cast hhs
  have hA : (0 : ℝ) ≤ (hs : ℝ) - 1 / 2 := by linarith
  have hx1 : -((hs : ℝ) - 1 / 2) ≤ (x : ℝ) - hs + 1 / 2 := by
    have : (0 : ℝ) ≤ x := Nat.cast_nonneg _
    linarith
  have hx2 : (x : ℝ) - hs + 1 / 2 ≤ (hs : ℝ) - 1 / 2 := by
    have : (x : ℝ) + 1 ≤ 2 * hs := by exact_mod_cast hx
    linarith
  have hy1 : -((hs : ℝ) - 1 / 2) ≤ (y : ℝ) - hs + 1 / 2 := by
    have : (0 : ℝ) ≤ y := Nat.cast_nonneg _
    linarith
  have hy2 : (y : ℝ) - hs + 1 / 2 ≤ (hs : ℝ) - 1 / 2 := by
    have : (y : ℝ) + 1 ≤ 2 * hs := by exact_mod_cast hy
    linarith
  have bx := corner_bound (a := W.a) (b := W.b) (lo := 1 / 2 - q.x) (hi := (img.cols : ℝ) - 1 / 2 - q.x)
    (fun dx dy h1 h2 => by have := h dx dy h1 h2; constructor <;> linarith) hx1 hx2 hy1 hy2
  have bv := corner_bound (a := W.c) (b := W.d) (lo := 1 / 2 - q.y) (hi := (img.rows : ℝ) - 1 / 2 - q.y)
    (fun dx dy h1 h2 => by have := h dx dy h1 h2; constructor <;> linarith) hx1 hx2 hy1 hy2
  unfold sampleWarped
  simp only [hh]
  generalize hU : q.x + (W.a * ((x : ℝ) - hs + 1 / 2) + W.b * ((y : ℝ) - hs + 1 / 2)) - 1 / 2 = U
  generalize hV : q.y + (W.c * ((x : ℝ) - hs + 1 / 2) + W.d * ((y : ℝ) - hs + 1 / 2)) - 1 / 2 = V
  have u0 : 0 ≤ U := by rw [← hU]; linarith
  have u1 : U < (img.cols : ℝ) - 1 := by rw [← hU]; linarith
  have v0 : 0 ≤ V := by rw [← hV]; linarith
  have v1 : V < (img.rows : ℝ) - 1 := by rw [← hV]; linarith
  rw [floorInt_total (by linarith) (by linarith)]
  simp only [Option.bind_eq_bind, Option.bind_some]
  rw [floorInt_total (by linarith) (by linarith)]
  simp only [Option.bind_some]
  have a1 : 0 ≤ ⌊U⌋ := Int.floor_nonneg.mpr u0
  have a2 : 0 ≤ ⌊V⌋ := Int.floor_nonneg.mpr v0
  have a3 : ⌊U⌋ < (img.cols : ℤ) - 1 := Int.floor_lt.mpr (by push_cast; exact u1)
  have a4 : ⌊V⌋ < (img.rows : ℤ) - 1 := Int.floor_lt.mpr (by push_cast; exact v1)
  apply bilinear_total <;> intros <;> omega

/-- Extraction from a settled state: result in terms of the sampled values. -/
lemma extract_settled {p : ℕ} {old : Patch} {img : Img} {c : FC} {wb : Bool} (hs : c.Settled) :
    extractPatchFromImage p old img c wb =
      (fill 0 (2 * halfPatch p wb) (2 * halfPatch p wb)
        (if c.nearB then samplePlain img c.c (halfPatch p wb) else sampleWarped img c.c c.warpC (halfPatch p wb))).map
        (fun g => (c, { (if wb then
            extractPatchFromPatchWithBorder p
              { old with border := fun k => if k < 2 * halfPatch p wb * (2 * halfPatch p wb) then g (k / (2 * halfPatch p wb)) (k % (2 * halfPatch p wb)) else old.border k }
          else { old with patch := fun k => if k < 2 * halfPatch p wb * (2 * halfPatch p wb) then g (k / (2 * halfPatch p wb)) (k % (2 * halfPatch p wb)) else old.patch k }) with validGradient := false })) := by
  unfold extractPatchFromImage
  simp only [FC.isNear_valid hs.warp, FC.getWarpC_valid hs.warp, hs.getC, Option.bind_eq_bind, Option.bind_some, Option.pure_def]
  by_cases hn : c.nearB = true
  · simp only [hn, if_true]
    cases fill 0 (2 * halfPatch p wb) (2 * halfPatch p wb) (samplePlain img c.c (halfPatch p wb)) <;> simp
  · simp only [hn, Bool.false_eq_true, if_false]
    cases fill 0 (2 * halfPatch p wb) (2 * halfPatch p wb) (sampleWarped img c.c c.warpC (halfPatch p wb)) <;> simp

lemma extract_total {p : ℕ} {old : Patch} {img : Img} {c : FC} {wb : Bool} (hs : c.Settled)
    (hc : img.cols ≤ 2147483647) (hr : img.rows ≤ 2147483647) (h : InP p img c wb) :
    ∃ new, extractPatchFromImage p old img c wb = some (c, new) := by
  rw [extract_settled hs]
  unfold InP at h
  obtain ⟨g, hg⟩ : ∃ g, fill 0 (2 * halfPatch p wb) (2 * halfPatch p wb)
        (if c.nearB then samplePlain img c.c (halfPatch p wb) else sampleWarped img c.c c.warpC (halfPatch p wb)) = some g := by
    apply fill_total
    intro y hy x hx
    by_cases hn : c.nearB = true
    · rw [if_pos hn] at h ⊢
      exact samplePlain_total h hc hr hy hx
    · rw [if_neg hn] at h ⊢
      exact sampleWarped_total h hc hr hy hx
  rw [hg]
  exact ⟨_, rfl⟩

end Patch

end Rovio
