import Verif.Spec.Scratch
import Verif.Lemmas.Alike

/-! # Lemmas for C94: scratch memory has no influence on the image functions -/

namespace Rovio

open Spec

/-! ### Coordinates of a level -/

/-- Coordinates with pixel and warp known, that agree in them. -/
structure Lvl (x y : FC) : Prop where
  validC : x.validC = true
  validC' : y.validC = true
  validW : x.validWarpC = true
  validW' : y.validWarpC = true
  c : x.c = y.c
  w : x.warpC = y.warpC
  id : x.isWarpIdentity = y.isWarpIdentity
  cam : x.cam = none
  cam' : y.cam = none

lemma Lvl.comC {x y : FC} (h : Lvl x y) : x.comC = some (x, true) ∧ y.comC = some (y, true) := by
  simp [FC.comC, h.validC, h.validC']

lemma Lvl.getC {x y : FC} (h : Lvl x y) : x.getC = some (x, x.c) ∧ y.getC = some (y, x.c) := by
  simp [FC.getC, FC.comC, h.validC, h.validC', h.c]

lemma Lvl.comWarpC {x y : FC} (h : Lvl x y) : x.comWarpC = some (x, true) ∧ y.comWarpC = some (y, true) := by
  simp [FC.comWarpC, h.validW, h.validW']

lemma Lvl.getWarpC {x y : FC} (h : Lvl x y) : x.getWarpC = some (x, x.warpC) ∧ y.getWarpC = some (y, x.warpC) := by
  simp [FC.getWarpC, FC.comWarpC, h.validW, h.validW', h.w]

lemma Lvl.near {x y : FC} (h : Lvl x y) : ∃ b, x.isNearIdentityWarping = some (x, b) ∧ y.isNearIdentityWarping = some (y, b) := by
  unfold FC.isNearIdentityWarping
  rw [← h.id]
  split_ifs
  · exact ⟨true, rfl, rfl⟩
  · exact ⟨_, by simp only [h.comWarpC.1, h.getWarpC.1, Option.bind_eq_bind, Option.bind_some, Option.pure_def]; rfl,
      by simp only [h.comWarpC.2, h.getWarpC.2, Option.bind_eq_bind, Option.bind_some, Option.pure_def]; rfl⟩

lemma Lvl.front {x y : FC} (h : Lvl x y) : x.isInFront = true ∧ y.isInFront = true := by
  simp [FC.isInFront, h.validC, h.validC']

lemma Lvl.inFrame {x y : FC} (h : Lvl x y) (p : ℕ) (img : Img) (wb : Bool) :
    Both (fun u v => u.1 = x ∧ v.1 = y ∧ u.2 = v.2) (Patch.isPatchInFrame p img x wb) (Patch.isPatchInFrame p img y wb) := by
  obtain ⟨b, h1, h2⟩ := h.near
  unfold Patch.isPatchInFrame
  simp only [h.front, h.comWarpC, h1, h2, if_true, Option.bind_eq_bind, Option.bind_some, Option.pure_def, h.getWarpC, h.getC]
  cases b
  · simp only [Bool.false_eq_true, if_false]
    cases Patch.cornersOk img x.c x.warpC (halfPatch p wb) with
    | none => exact .none
    | some r => exact .some ⟨rfl, rfl, rfl⟩
  · simp only [if_true]
    exact .some ⟨rfl, rfl, rfl⟩

/-- What an extraction writes. -/
def Extracted (p : ℕ) (wb : Bool) (a b : Patch) : Prop :=
  (∀ k < p * p, a.patch k = b.patch k) ∧ (wb = true → ∀ k < (p + 2) * (p + 2), a.border k = b.border k) ∧
    a.validGradient = false ∧ b.validGradient = false

lemma halfPatch_even {p : ℕ} (hp : Even p) (wb : Bool) : 2 * halfPatch p wb = p + (if wb then 2 else 0) := by
  obtain ⟨q, rfl⟩ := hp
  unfold halfPatch
  cases wb <;> simp <;> omega

lemma border_lt {p k : ℕ} (hk : k < p * p) : (k / p + 1) * (p + 2) + 1 + k % p < (p + 2) * (p + 2) := by
  have hp : 0 < p := by rcases Nat.eq_zero_or_pos p with h | h <;> simp_all
  have h1 : k / p < p := Nat.div_lt_of_lt_mul hk
  have h2 : k % p < p := Nat.mod_lt _ hp
  nlinarith

/-- What an extraction makes of the old contents. -/
def wrote (p : ℕ) (wb : Bool) (old : Patch) (g : ℕ → ℕ → ℝ) : Patch :=
  let w := 2 * halfPatch p wb
  let new := fun k => g (k / w) (k % w)
  let b : Patch := { old with border := fun k => if k < w * w then new k else old.border k }
  let q : Patch := { old with patch := fun k => if k < w * w then new k else old.patch k }
  { (if wb then Patch.extractPatchFromPatchWithBorder p b else q) with validGradient := false }

lemma Lvl.extract {x y : FC} (h : Lvl x y) {p : ℕ} (hp : Even p) (old old' : Patch) (img : Img) (wb : Bool) :
    Both (fun u v => u.1 = x ∧ v.1 = y ∧ Extracted p wb u.2 v.2) (Patch.extractPatchFromImage p old img x wb)
      (Patch.extractPatchFromImage p old' img y wb) := by
  obtain ⟨b, h1, h2⟩ := h.near
  unfold Patch.extractPatchFromImage
  simp only [h1, h2, Option.bind_eq_bind, Option.bind_some, Option.pure_def, h.getWarpC, h.getC]
  have key : ∀ g : ℕ → ℕ → ℝ, Extracted p wb (wrote p wb old g) (wrote p wb old' g) := by
    intro g
    unfold wrote
    rw [halfPatch_even hp]
    cases wb
    · simp only [Bool.false_eq_true, if_false, add_zero]
      refine ⟨fun k hk => ?_, by simp, rfl, rfl⟩
      simp only [if_pos hk]
    · simp only [if_true]
      refine ⟨fun k hk => ?_, fun _ k hk => ?_, rfl, rfl⟩
      · simp only [Patch.extractPatchFromPatchWithBorder, if_pos hk, if_pos (border_lt hk)]
      · simp only [Patch.extractPatchFromPatchWithBorder, if_pos hk]
  cases b
  · simp only [Bool.false_eq_true, if_false]
    cases fill 0 (2 * halfPatch p wb) (2 * halfPatch p wb) (Patch.sampleWarped img x.c x.warpC (halfPatch p wb)) with
    | none => exact .none
    | some g => exact .some ⟨rfl, rfl, key g⟩
  · simp only [if_true]
    cases fill 0 (2 * halfPatch p wb) (2 * halfPatch p wb) (Patch.samplePlain img x.c (halfPatch p wb)) with
    | none => exact .none
    | some g => exact .some ⟨rfl, rfl, key g⟩

/-- The transformation to another level: the object queried ends up the same, the new one agrees in pixel and warp, whatever was in its memory. -/
lemma level_same (j j' : FC) (pyr : List Level) (c : FC) (l1 l2 : ℕ) :
    Both (fun u v => u.1 = v.1 ∧ Lvl u.2 v.2) (levelTransform j pyr c l1 l2) (levelTransform j' pyr c l1 l2) := by
  unfold levelTransform
  simp only [Option.bind_eq_bind, Option.pure_def]
  cases pyr[l1]? with
  | none => exact .none
  | some p1 =>
    cases pyr[l2]? with
    | none => exact .none
    | some p2 =>
      simp only [Option.bind_some]
      cases c.getC with
      | none => exact .none
      | some cq =>
        obtain ⟨c, q⟩ := cq
        simp only [Option.bind_some]
        have base : ∀ q : V2, Lvl { (FC.construct j none).setC q true with camID := -1, cam := none }
            { (FC.construct j' none).setC q true with camID := -1, cam := none } := by
          intro q
          simp only [FC.construct, FC.resetCoordinates, FC.setWarpIdentity, FC.setC, Bool.false_and, Bool.false_eq_true, if_false]
          exact ⟨rfl, rfl, rfl, rfl, rfl, rfl, rfl, rfl, rfl⟩
        cases c.cam with
        | none => exact .some ⟨rfl, base _⟩
        | some cam =>
          simp only
          cases c.comWarpC with
          | none => exact .none
          | some cb =>
            obtain ⟨c, b⟩ := cb
            simp only [Option.bind_some]
            cases b
            · simp only [Bool.false_eq_true, if_false]
              exact .some ⟨rfl, base _⟩
            · simp only [if_true]
              cases c.getWarpC with
              | none => exact .none
              | some cw =>
                obtain ⟨c, w⟩ := cw
                simp only [Option.bind_some]
                refine .some ⟨rfl, ?_⟩
                simp only [FC.construct, FC.resetCoordinates, FC.setWarpIdentity, FC.setC, FC.setWarpC, Bool.false_and, Bool.false_eq_true, if_false]
                exact ⟨rfl, rfl, rfl, rfl, rfl, rfl, rfl, rfl, rfl⟩

/-- Transforming coordinates whose pixel and warp are known (and that have no camera) keeps them as they are. -/
lemma Lvl.level {x y : FC} (h : Lvl x y) (j j' : FC) (pyr : List Level) (l1 l2 : ℕ) :
    Both (fun u v => u.1 = x ∧ v.1 = y ∧ Lvl u.2 v.2) (levelTransform j pyr x l1 l2) (levelTransform j' pyr y l1 l2) := by
  unfold levelTransform
  simp only [Option.bind_eq_bind, Option.pure_def]
  cases pyr[l1]? with
  | none => exact .none
  | some p1 =>
    cases pyr[l2]? with
    | none => exact .none
    | some p2 =>
      simp only [Option.bind_some, h.getC, h.cam, h.cam']
      refine .some ⟨rfl, rfl, ?_⟩
      simp only [FC.construct, FC.resetCoordinates, FC.setWarpIdentity, FC.setC, Bool.false_and, Bool.false_eq_true, if_false]
      exact ⟨rfl, rfl, rfl, rfl, rfl, rfl, rfl, rfl, rfl⟩

lemma Both.refl' {α : Type} {x y : Option α} (h : x = y) : Both Eq x y := h ▸ Both.refl (fun _ => rfl) x

lemma mapM_congr_mem {α β : Type} {f g : α → Option β} : ∀ {l : List α}, (∀ a ∈ l, f a = g a) → l.mapM f = l.mapM g
  | [], _ => rfl
  | a :: l, h => by
    simp only [List.mapM_cons, h a (by simp), mapM_congr_mem (l := l) fun b hb => h b (by simp [hb])]

lemma Both.eq {α : Type} {x y : Option α} (h : Both Eq x y) : x = y := by
  cases h with
  | none => rfl
  | some h => rw [h]

/-! ### Multilevel patches -/

namespace MLP

lemma inFrame_junk (p : ℕ) (j j' : FC) (pyr : List Level) (c : FC) (l : ℕ) (wb : Bool) :
    isMultilevelPatchInFrame p j pyr c l wb = isMultilevelPatchInFrame p j' pyr c l wb := by
  unfold isMultilevelPatchInFrame
  split_ifs
  · rfl
  · simp only [Option.bind_eq_bind, Option.pure_def]
    refine Both.eq ?_
    cases c.comWarpC with
    | none => exact .none
    | some cb =>
      obtain ⟨c, b⟩ := cb
      simp only [Option.bind_some]
      split_ifs
      · exact .some rfl
      · refine (level_same j j' pyr c 0 l).bind ?_
        rintro ⟨c1, x⟩ ⟨c2, y⟩ ⟨h1, h2⟩
        simp only at h1 h2
        subst h1
        cases pyr[l]? with
        | none => exact .none
        | some lvl =>
          simp only [Option.bind_some]
          refine (h2.inFrame p lvl.img wb).bind ?_
          rintro u v ⟨-, -, e⟩
          simp only [e]
          exact .some rfl

lemma inFrame_lvl {x y : FC} (h : Lvl x y) (p : ℕ) (j j' : FC) (pyr : List Level) (l : ℕ) (wb : Bool) :
    Both (fun u v => u.1 = x ∧ v.1 = y ∧ u.2 = v.2) (isMultilevelPatchInFrame p j pyr x l wb) (isMultilevelPatchInFrame p j' pyr y l wb) := by
  unfold isMultilevelPatchInFrame
  simp only [h.front, h.comWarpC, Bool.not_true, Bool.false_eq_true, if_false, Option.bind_eq_bind, Option.bind_some, Option.pure_def]
  refine (h.level j j' pyr 0 l).bind ?_
  rintro ⟨c1, x'⟩ ⟨c2, y'⟩ ⟨h1, h2, h3⟩
  simp only at h1 h2 h3
  subst h1 h2
  cases pyr[l]? with
  | none => exact .none
  | some lvl =>
    simp only [Option.bind_some]
    refine (h3.inFrame p lvl.img wb).bind ?_
    rintro u v ⟨-, -, e⟩
    exact .some ⟨rfl, rfl, e⟩

/-- The levels below `l` were written by an extraction. -/
def Upto (p : ℕ) (wb : Bool) (l : ℕ) (m m' : MLP) : Prop :=
  ∀ i < l, m.isValidPatch i = true ∧ m'.isValidPatch i = true ∧ Extracted p wb (m.patches i) (m'.patches i)

lemma extract_rel {p : ℕ} (hp : Even p) (j j' : FC) (pyr : List Level) (wb : Bool) (S : FC → FC → Prop)
    (hl : ∀ x y i, S x y → Both (fun u v => S u.1 v.1 ∧ Lvl u.2 v.2) (levelTransform j pyr x 0 i) (levelTransform j' pyr y 0 i)) (m m' : MLP) :
    ∀ (l : ℕ) (c c' : FC), S c c' →
    Both (fun u v => S u.1 v.1 ∧ Upto p wb l u.2 v.2) ((List.range l).foldlM (extractLevel p j pyr wb) (c, m))
      ((List.range l).foldlM (extractLevel p j' pyr wb) (c', m'))
  | 0, c, c', h => .some ⟨h, by intro i hi; omega⟩
  | l + 1, c, c', h => by
    simp only [List.range_succ, List.foldlM_append, Option.bind_eq_bind]
    refine (extract_rel hp j j' pyr wb S hl m m' l c c' h).bind ?_
    rintro ⟨c1, m1⟩ ⟨c2, m2⟩ ⟨h1, h2⟩
    simp only at h1 h2
    simp only [List.foldlM_cons, List.foldlM_nil, Option.pure_def, Option.bind_eq_bind, extractLevel, Option.bind_assoc, Option.bind_some]
    refine (hl c1 c2 l h1).bind ?_
    rintro ⟨d1, x⟩ ⟨d2, y⟩ ⟨h3, h4⟩
    simp only at h3 h4
    cases pyr[l]? with
    | none => exact .none
    | some lvl =>
      simp only [Option.bind_some]
      refine (h4.extract hp (m1.patches l) (m2.patches l) lvl.img wb).bind ?_
      rintro ⟨e1, q1⟩ ⟨e2, q2⟩ ⟨-, -, h5⟩
      refine .some ⟨h3, ?_⟩
      intro i hi
      by_cases hil : i = l
      · subst hil
        simp only [Function.update_self]
        exact ⟨trivial, trivial, h5⟩
      · simp only [Function.update_of_ne hil]
        exact h2 i (by omega)

lemma extract_same {p : ℕ} (hp : Even p) (j j' : FC) (m m' : MLP) (pyr : List Level) (c : FC) (l : ℕ) (wb : Bool) :
    Both (fun u v => u.1 = v.1 ∧ Upto p wb (l + 1) u.2 v.2) (extractMultilevelPatchFromImage p j m pyr c l wb)
      (extractMultilevelPatchFromImage p j' m' pyr c l wb) :=
  extract_rel hp j j' pyr wb Eq (fun x y i h => by subst h; exact level_same j j' pyr x 0 i) m m' (l + 1) c c rfl

lemma extract_lvl {x y : FC} (h : Lvl x y) {p : ℕ} (hp : Even p) (j j' : FC) (m m' : MLP) (pyr : List Level) (l : ℕ) (wb : Bool) :
    Both (fun u v => Upto p wb (l + 1) u.2 v.2) (extractMultilevelPatchFromImage p j m pyr x l wb)
      (extractMultilevelPatchFromImage p j' m' pyr y l wb) :=
  (extract_rel hp j j' pyr wb (fun a b => a = x ∧ b = y) (fun a b i e => by
    obtain ⟨rfl, rfl⟩ := e
    refine (h.level j j' pyr 0 i).mono ?_
    rintro _ _ ⟨h1, h2, h3⟩
    exact ⟨⟨h1, h2⟩, h3⟩) m m' (l + 1) x y ⟨rfl, rfl⟩).mono fun _ _ h => h.2

lemma diff_same {p l1 l2 : ℕ} {m m' n n' : MLP} (h : ∀ i ≤ l2, ∀ k < p * p, (m.patches i).patch k = (m'.patches i).patch k)
    (h' : ∀ i ≤ l2, ∀ k < p * p, (n.patches i).patch k = (n'.patches i).patch k) :
    computeAverageDifference p m n l1 l2 = computeAverageDifference p m' n' l1 l2 := by
  have : differences p m n l1 l2 = differences p m' n' l1 l2 := by
    unfold differences
    refine List.flatMap_congr fun i hi => List.map_congr_left fun k hk => ?_
    have hi : i ≤ l2 := by have := List.mem_range'.1 hi; omega
    rw [h i hi k (by simpa using hk), h' i hi k (by simpa using hk)]
  unfold computeAverageDifference
  rw [this]

end MLP

namespace Patch

lemma grad_congr {p : ℕ} {b b' : ℕ → ℝ} (h : ∀ k < (p + 2) * (p + 2), b k = b' k) {y x : ℕ} (hy : y < p) (hx : x < p) : gradAt p b y x = gradAt p b' y x := by
  have e1 : (y + 1) * (p + 2) + 1 + x + (p + 2) < (p + 2) * (p + 2) := by nlinarith
  unfold gradAt
  simp only
  rw [h _ (show (y + 1) * (p + 2) + 1 + x + 1 < _ by omega), h _ (show (y + 1) * (p + 2) + 1 + x - 1 < _ by omega), h _ e1,
    h _ (show (y + 1) * (p + 2) + 1 + x - (p + 2) < _ by omega)]

lemma gradList_congr {p : ℕ} {b b' : ℕ → ℝ} (h : ∀ k < (p + 2) * (p + 2), b k = b' k) : gradList p b = gradList p b' := by
  unfold gradList
  refine List.flatMap_congr fun y hy => List.map_congr_left fun x hx => ?_
  exact grad_congr h (by simpa using hy) (by simpa using hx)

lemma compute_same {p : ℕ} {a b : Patch} (h : SamePatch p a b) :
    SamePatch p (a.computeGradientParameters p) (b.computeGradientParameters p) ∧ (a.computeGradientParameters p).validGradient = true := by
  unfold computeGradientParameters
  rw [← h.validGradient]
  by_cases hv : a.validGradient = true
  · rw [if_pos hv, if_pos hv]
    exact ⟨h, hv⟩
  · rw [if_neg hv, if_neg hv]
    simp only [gradList_congr h.border]
    refine ⟨⟨h.patch, h.border, rfl, fun _ k hk => ?_, fun _ k hk => ?_, fun _ => rfl, fun _ => rfl, fun _ => rfl, fun _ => rfl⟩, trivial⟩
    all_goals
      have hp : 0 < p := by rcases Nat.eq_zero_or_pos p with h | h <;> simp_all
      simp only [if_pos hk]
      rw [grad_congr h.border (Nat.div_lt_of_lt_mul hk) (Nat.mod_lt _ hp)]

end Patch

lemma Extracted.same {p : ℕ} {a b : Patch} (h : Extracted p true a b) : SamePatch p a b := by
  obtain ⟨h1, h2, h3, h4⟩ := h
  exact ⟨h1, h2 rfl, by rw [h3, h4], by simp [h3], by simp [h3], by simp [h3], by simp [h3], by simp [h3], by simp [h3]⟩

namespace MLP

lemma scoreLoop_same {p L : ℕ} {v v' : ℕ → Bool} (hv : ∀ i ≤ L, v i = v' i) : ∀ (is : List ℕ) (ps ps' : ℕ → Patch) (H : M3) (k : ℕ),
    (∀ i ∈ is, i ≤ L) → (∀ i ≤ L, SamePatch p (ps i) (ps' i)) →
    (∀ i ≤ L, SamePatch p ((scoreLoop p v is (ps, H, k)).1 i) ((scoreLoop p v' is (ps', H, k)).1 i)) ∧
      (scoreLoop p v is (ps, H, k)).2 = (scoreLoop p v' is (ps', H, k)).2
  | [], _, _, _, _, _, h => ⟨h, rfl⟩
  | i :: is, ps, ps', H, k, hi, h => by
    have hiL := hi i (by simp)
    unfold scoreLoop
    rw [← hv i hiL]
    split_ifs
    · obtain ⟨h1, h2⟩ := Patch.compute_same (h i hiL)
      simp only [Patch.getHessian]
      rw [← h1.H h2]
      refine scoreLoop_same hv is _ _ _ _ (fun j hj => hi j (by simp [hj])) fun j hj => ?_
      by_cases hji : j = i
      · subst hji; simp only [Function.update_self]; exact h1
      · simp only [Function.update_of_ne hji]; exact h j hj
    · exact scoreLoop_same hv is _ _ _ _ (fun j hj => hi j (by simp [hj])) h

lemma score_same {p l1 l2 : ℕ} {m m' : MLP} (hv : ∀ i ≤ l2, m.isValidPatch i = m'.isValidPatch i)
    (h : ∀ i ≤ l2, SamePatch p (m.patches i) (m'.patches i)) :
    SameMLP p l2 (m.computeMultilevelShiTomasiScore p l1 l2) (m'.computeMultilevelShiTomasiScore p l1 l2) := by
  have hs := scoreLoop_same hv (List.range' l1 (l2 + 1 - l1)) m.patches m'.patches 0 0 (fun i hi => by have := List.mem_range'.1 hi; omega) h
  unfold computeMultilevelShiTomasiScore
  generalize scoreLoop p m.isValidPatch (List.range' l1 (l2 + 1 - l1)) (m.patches, 0, 0) = u at *
  generalize scoreLoop p m'.isValidPatch (List.range' l1 (l2 + 1 - l1)) (m'.patches, 0, 0) = v at *
  obtain ⟨ps, u⟩ := u
  obtain ⟨ps', v⟩ := v
  obtain ⟨h1, h2⟩ := hs
  simp only at h1 h2
  subst h2
  simp only
  split_ifs
  · exact ⟨hv, h1, rfl, rfl, rfl, rfl⟩
  · exact ⟨hv, h1, rfl, rfl, rfl, rfl⟩

lemma upto_score {p l1 l2 : ℕ} {m m' : MLP} (h : Upto p true (l2 + 1) m m') :
    SameMLP p l2 (m.computeMultilevelShiTomasiScore p l1 l2) (m'.computeMultilevelShiTomasiScore p l1 l2) :=
  score_same (fun i hi => by rw [(h i (by omega)).1, (h i (by omega)).2.1]) fun i hi => (h i (by omega)).2.2.same

/-- Scoring leaves the pixels alone. -/
lemma scoreLoop_pixels {p : ℕ} {v : ℕ → Bool} : ∀ (is : List ℕ) (ps : ℕ → Patch) (H : M3) (k i : ℕ),
    ((scoreLoop p v is (ps, H, k)).1 i).patch = (ps i).patch
  | [], _, _, _, _ => rfl
  | j :: is, ps, H, k, i => by
    unfold scoreLoop
    split_ifs
    · simp only
      rw [scoreLoop_pixels]
      by_cases hji : i = j
      · subst hji
        simp only [Function.update_self, Patch.getHessian, Patch.computeGradientParameters]
        split_ifs <;> rfl
      · simp only [Function.update_of_ne hji]
    · rw [scoreLoop_pixels]

end MLP

/-! ### Alignment -/

namespace Align

variable {p L : ℕ} {mp mp' : MLP}

lemma rawLevel_same (hp : Even p) (h : SameMLP p L mp mp') (cfg : AlignCfg) (j j' : FC) (ex ex' : ℕ → Patch) (pyr : List Level) (c : FC)
    (A : M2) (near : Bool) {l : ℕ} (hl : l ≤ L) : rawLevel p cfg j pyr mp ex c A near l = rawLevel p cfg j' pyr mp' ex' c A near l := by
  unfold rawLevel
  simp only [Option.bind_eq_bind, Option.pure_def]
  refine Both.eq ((level_same j j' pyr c 0 l).bind ?_)
  rintro ⟨c1, x⟩ ⟨c2, y⟩ ⟨-, h2⟩
  simp only at h2
  simp only [h.valid l hl]
  obtain ⟨h6, h7⟩ := Patch.compute_same (h.patches l hl)
  simp only [h7, h6.validGradient ▸ h7, if_true]
  split_ifs
  · cases pyr[l]? with
    | none => exact .none
    | some lvl =>
      simp only [Option.bind_some]
      refine (h2.inFrame p lvl.img false).bind ?_
      rintro ⟨u, b⟩ ⟨v, b'⟩ ⟨h3, h4, h5⟩
      simp only at h3 h4 h5
      subst h3 h4 h5
      split_ifs
      · refine (h2.extract hp (ex l) (ex' l) lvl.img false).bind ?_
        rintro ⟨u', E⟩ ⟨v', E'⟩ ⟨-, -, h8⟩
        simp only at h8
        refine .some ?_
        simp only [Option.some.injEq]
        refine List.map_congr_left fun k hk => ?_
        have hk : k < p * p := by simpa using hk
        unfold rawPixel
        simp only [h6.dx h7 k hk, h6.dy h7 k hk, h6.patch k hk, h8.1 k hk]
      · exact .some rfl
  · exact .some rfl

lemma equations_same (hp : Even p) (h : SameMLP p L mp mp') (cfg : AlignCfg) (j j' : FC) (ex ex' : ℕ → Patch) (pyr : List Level) (c : FC) (l1 : ℕ) :
    equations p cfg j ex pyr mp c l1 L = equations p cfg j' ex' pyr mp' c l1 L := by
  have key : ∀ (c : FC) (A : M2) (near : Bool), (List.range' l1 (L + 1 - l1)).mapM (rawLevel p cfg j pyr mp ex c A near) =
      (List.range' l1 (L + 1 - l1)).mapM (rawLevel p cfg j' pyr mp' ex' c A near) := by
    intro c A near
    refine mapM_congr_mem fun l hl => ?_
    have := List.mem_range'.1 hl
    exact rawLevel_same hp h cfg j j' ex ex' pyr c A near (by omega)
  unfold equations
  simp only [key]

lemma align2D_same (hp : Even p) (h : SameMLP p L mp mp') (cfg : AlignCfg) (j j' : FC) (ex ex' : ℕ → Patch) (solve : Option (List Row) → SolveRes)
    (pyr : List Level) (c : FC) (l1 : ℕ) : align2D p cfg j ex solve pyr mp c l1 L = align2D p cfg j' ex' solve pyr mp' c l1 L := by
  unfold align2D
  simp only [equations_same hp h cfg j j' ex ex' pyr _ l1]

lemma evalAt_same (hp : Even p) (h : SameMLP p L mp mp') (j j' : FC) (tmp tmp' : MLP) (pyr : List Level) (l1 : ℕ) (c : FC) :
    evalAt p j tmp pyr mp L l1 c = evalAt p j' tmp' pyr mp' L l1 c := by
  unfold evalAt
  rw [MLP.inFrame_junk p j j']
  simp only [Option.bind_eq_bind, Option.pure_def]
  cases MLP.isMultilevelPatchInFrame p j' pyr c L false with
  | none => rfl
  | some cb =>
    obtain ⟨c, b⟩ := cb
    simp only [Option.bind_some]
    split_ifs
    · refine Both.eq ((MLP.extract_same hp j j' tmp tmp' pyr c L false).bind ?_)
      rintro ⟨c1, m⟩ ⟨c2, m'⟩ ⟨h1, h2⟩
      simp only at h1 h2
      subst h1
      refine .some ?_
      rw [MLP.diff_same (fun i hi k hk => (h2 i (by omega)).2.2.1 k hk) fun i hi k hk => (h.patches i hi).patch k hk]
    · rfl

lemma adaptive_same (hp : Even p) (h : SameMLP p L mp mp') (cfg : AlignCfg) (j j' : FC) (ex ex' : ℕ → Patch) (tmp tmp' : MLP)
    (solve : Option (List Row) → SolveRes) (pyr : List Level) (c : FC) (s1 : ℝ) (dir : V2) (l1 : ℕ) (range coverage : ℝ) (maxUni : ℤ) :
    align2DAdaptive p cfg j ex tmp solve pyr mp c s1 dir L l1 range coverage maxUni =
      align2DAdaptive p cfg j' ex' tmp' solve pyr mp' c s1 dir L l1 range coverage maxUni := by
  unfold align2DAdaptive
  simp only [align2D_same hp h cfg j j' ex ex' solve pyr _ l1, show evalAt p j tmp pyr mp L l1 = evalAt p j' tmp' pyr mp' L l1 from
    funext fun c => evalAt_same hp h j j' tmp tmp' pyr l1 c]

end Align

/-! ### The image accesses of the update -/

namespace ImgPixel

variable {env : Env} {mp mp' : MLP}

lemma withMem_p (m : Mem) : (env.withMem m).p = env.p := rfl

lemma withMem_start (m : Mem) : (env.withMem m).start = env.start := rfl

lemma withMem_stop (m : Mem) : (env.withMem m).stop = env.stop := rfl

lemma withMem_rejectTh (m : Mem) : (env.withMem m).rejectTh = env.rejectTh := rfl

lemma withMem_sampling (m : Mem) : (env.withMem m).sampling = env.sampling := rfl

lemma inFrame_same (m m' : Mem) (pyr : List Level) (c : FC) (wb : Bool) :
    inFrame (env.withMem m) pyr c wb = inFrame (env.withMem m') pyr c wb := MLP.inFrame_junk _ _ _ _ _ _ _

lemma extract_same (hp : Even env.p) (m m' : Mem) (t t' : MLP) (pyr : List Level) (c : FC) (wb : Bool) :
    Both (fun u v => u.1 = v.1 ∧ MLP.Upto env.p wb (env.start + 1) u.2 v.2) (extract (env.withMem m) t pyr c wb)
      (extract (env.withMem m') t' pyr c wb) := MLP.extract_same hp _ _ _ _ _ _ _ _

lemma align_same (hp : Even env.p) (h : SameMLP env.p env.start mp mp') (m m' : Mem) (cur : List Level) (c : FC) (cov : FC.PixelCov) :
    align (env.withMem m) cur mp c cov = align (env.withMem m') cur mp' c cov := Align.adaptive_same hp h _ _ _ _ _ _ _ _ _ _ _ _ _ _ _ _

lemma upto_diff {p l1 L : ℕ} {wb : Bool} {a b : MLP} (h : SameMLP p L mp mp') (hab : MLP.Upto p wb (L + 1) a b) :
    MLP.computeAverageDifference p a mp l1 L = MLP.computeAverageDifference p b mp' l1 L :=
  MLP.diff_same (fun i hi k hk => (hab i (by omega)).2.2.1 k hk) fun i hi k hk => (h.patches i hi).patch k hk

lemma moving_same (hp : Even env.p) (m m' : Mem) (prev cur : List Level) (c : FC) :
    moving (env.withMem m) prev cur c = moving (env.withMem m') prev cur c := by
  unfold moving
  simp only [inFrame_same m m', Option.bind_eq_bind, Option.pure_def]
  cases inFrame (env.withMem m') prev c.setWarpIdentity true with
  | none => rfl
  | some cb =>
    obtain ⟨c, b⟩ := cb
    simp only [Option.bind_some]
    split_ifs
    · refine Both.eq ((extract_same hp m m' _ _ prev c true).bind ?_)
      rintro ⟨c1, a⟩ ⟨c2, b⟩ ⟨h1, h2⟩
      simp only at h1 h2
      subst h1
      refine (extract_same hp m m' _ _ cur c1 true).bind ?_
      rintro ⟨c3, a'⟩ ⟨c4, b'⟩ ⟨-, h4⟩
      simp only at h4
      have hs := MLP.upto_score (l1 := env.stop) h2
      have he := hs.e1
      have hd : MLP.computeAverageDifference env.p (a.computeMultilevelShiTomasiScore env.p env.stop env.start) a' env.stop env.start =
          MLP.computeAverageDifference env.p (b.computeMultilevelShiTomasiScore env.p env.stop env.start) b' env.stop env.start :=
        MLP.diff_same (fun i hi k hk => (hs.patches i hi).patch k hk) fun i hi k hk => (h4 i (by omega)).2.2.1 k hk
      refine .some ?_
      simp only [Env.withMem, he, hd]
      congr!
    · rfl

lemma accept_same (hp : Even env.p) (h : SameMLP env.p env.start mp mp') (m m' : Mem) (cur : List Level) (c : FC) :
    accept (env.withMem m) cur mp c = accept (env.withMem m') cur mp' c := by
  unfold accept
  simp only [inFrame_same m m', Option.bind_eq_bind, Option.pure_def]
  cases inFrame (env.withMem m') cur c false with
  | none => rfl
  | some cb =>
    obtain ⟨c, b⟩ := cb
    simp only [Option.bind_some]
    cases b
    · rfl
    · simp only [if_true]
      by_cases hr : env.rejectTh ≥ 0
      · rw [if_pos (show (env.withMem m).rejectTh ≥ 0 from hr), if_pos (show (env.withMem m').rejectTh ≥ 0 from hr)]
        refine Both.eq ((extract_same hp m m' _ _ cur c false).bind ?_)
        rintro ⟨c1, a⟩ ⟨c2, b⟩ ⟨h1, h2⟩
        simp only at h1 h2
        subst h1
        refine .some ?_
        simp only [Env.withMem, upto_diff h h2]
        congr!
      · rw [if_neg (show ¬ (env.withMem m).rejectTh ≥ 0 from hr), if_neg (show ¬ (env.withMem m').rejectTh ≥ 0 from hr)]

lemma search_same (hp : Even env.p) (h : SameMLP env.p env.start mp mp') (m m' : Mem) (prev cur : List Level) (c : FC) (cov : FC.PixelCov) :
    search (env.withMem m) prev cur mp c cov = search (env.withMem m') prev cur mp' c cov := by
  unfold search
  simp only [inFrame_same m m', align_same hp h m m', accept_same hp h m m']
  rfl

lemma innovation_same (hp : Even env.p) (h : SameMLP env.p env.start mp mp') (m m' : Mem) (cur : List Level) (c : FC) :
    innovation (env.withMem m) cur mp c = innovation (env.withMem m') cur mp' c := Align.equations_same hp h _ _ _ _ _ _ _ _

lemma sample_same (hp : Even env.p) (h : SameMLP env.p env.start mp mp') (m m' : Mem) (cur : List Level) (avg : ℝ) (c : FC) (d : V2) :
    sample (env.withMem m) cur mp avg c d = sample (env.withMem m') cur mp' avg c d := by
  unfold sample
  simp only [inFrame_same m m', Option.bind_eq_bind, Option.pure_def]
  cases c.boxPlus d with
  | none => rfl
  | some s =>
    simp only [Option.bind_some]
    cases inFrame (env.withMem m') cur s false with
    | none => rfl
    | some cb =>
      obtain ⟨c, b⟩ := cb
      simp only [Option.bind_some]
      split_ifs
      · refine Both.eq ((extract_same hp m m' _ _ cur c false).bind ?_)
        rintro ⟨c1, a⟩ ⟨c2, b⟩ ⟨-, h2⟩
        simp only at h2
        refine .some ?_
        have hd := upto_diff (l1 := env.stop) h h2
        change Img.sampleAbove env.rejectTh env.gain avg (MLP.computeAverageDifference env.p a mp env.stop env.start) =
          Img.sampleAbove env.rejectTh env.gain avg (MLP.computeAverageDifference env.p b mp' env.stop env.start)
        exact congrArg _ hd
      · rfl

lemma outlierCheck_same (hp : Even env.p) (h : SameMLP env.p env.start mp mp') (m m' : Mem) (cur : List Level) (c : FC) (conv : Bool) :
    outlierCheck (env.withMem m) cur mp c conv = outlierCheck (env.withMem m') cur mp' c conv := by
  unfold outlierCheck
  simp only [inFrame_same m m', Option.bind_eq_bind, Option.pure_def]
  cases inFrame (env.withMem m') cur c false with
  | none => simp only [Option.bind_none, withMem_rejectTh]; rfl
  | some cb =>
    obtain ⟨c, b⟩ := cb
    simp only [Option.bind_some]
    cases conv
    · simp only [Bool.not_false, if_true]
    · simp only [Bool.not_true, Bool.false_eq_true, if_false]
      by_cases hr : env.rejectTh ≥ 0
      · rw [if_pos (show (env.withMem m).rejectTh ≥ 0 from hr), if_pos (show (env.withMem m').rejectTh ≥ 0 from hr)]
        cases b
        · simp only [Bool.not_false, if_true]
        · simp only [Bool.not_true, Bool.false_eq_true, if_false]
          refine Both.eq ((extract_same hp m m' _ _ cur c false).bind ?_)
          rintro ⟨c1, a⟩ ⟨c2, b⟩ ⟨h1, h2⟩
          simp only at h1 h2
          subst h1
          have hd := upto_diff (l1 := env.stop) h h2
          have hs : ∀ avg, sample (env.withMem m) cur mp avg c1 = sample (env.withMem m') cur mp' avg c1 :=
            fun avg => funext fun d => sample_same hp h m m' cur avg c1 d
          refine Both.refl' ?_
          simp only [withMem_p, withMem_start, withMem_stop, withMem_rejectTh, withMem_sampling, hs, hd]
          congr!
      · rw [if_neg (show ¬ (env.withMem m).rejectTh ≥ 0 from hr), if_neg (show ¬ (env.withMem m').rejectTh ≥ 0 from hr)]

lemma verdict_same (m m' : Mem) (cur : List Level) (c : FC) : verdict (env.withMem m) cur c = verdict (env.withMem m') cur c := by
  unfold verdict
  rw [inFrame_same m m']

lemma repatch_same (hp : Even env.p) (m m' : Mem) (cur : List Level) (c : FC) :
    Both (Both (SameMLP env.p env.start)) (repatch (env.withMem m) cur c) (repatch (env.withMem m') cur c) := by
  unfold repatch
  simp only [inFrame_same m m', Option.bind_eq_bind, Option.pure_def]
  cases inFrame (env.withMem m') cur c.setWarpIdentity true with
  | none => exact .none
  | some cb =>
    obtain ⟨c, b⟩ := cb
    simp only [Option.bind_some]
    split_ifs
    · refine (extract_same hp m m' _ _ cur c true).bind ?_
      rintro ⟨c1, a⟩ ⟨c2, b⟩ ⟨-, h2⟩
      exact .some (.some (MLP.upto_score h2))
    · exact .some .none

lemma stereo_same (hp : Even env.p) (h : SameMLP env.p env.start mp mp') (m m' : Mem) (other : List Level) (c : FC) (cov : FC.PixelCov) :
    stereo (env.withMem m) other mp c cov = stereo (env.withMem m') other mp' c cov := by
  unfold stereo
  simp only [align_same hp h m m', accept_same hp h m m']

/-! Candidates -/

/-- What a candidate's patch has in common: if in frame everything, otherwise at least the flag. -/
def SameCand (p L : ℕ) (x y : MLP × Bool) : Prop := x.2 = y.2 ∧ (x.2 = true → SameMLP p L x.1 y.1)

lemma candidate_same {p L : ℕ} (hp : Even p) (j j' : FC) (mj mj' : MLP) (pyr : List Level) {x y : FC} (h : Lvl x y) (l1 : ℕ) :
    Both (SameCand p L) (MLP.candidate p j mj pyr x l1 L) (MLP.candidate p j' mj' pyr y l1 L) := by
  unfold MLP.candidate
  simp only [Option.bind_eq_bind, Option.pure_def]
  refine (MLP.inFrame_lvl h p j j' pyr L true).bind ?_
  rintro ⟨c1, b⟩ ⟨c2, b'⟩ ⟨h1, h2, h3⟩
  simp only at h1 h2 h3
  subst h1 h2 h3
  simp only
  split_ifs
  · refine (MLP.extract_lvl h hp j j' _ _ pyr L true).bind ?_
    rintro ⟨d1, m⟩ ⟨d2, m'⟩ h4
    exact .some ⟨rfl, fun _ => MLP.upto_score h4⟩
  · exact .some ⟨rfl, by simp⟩

lemma mapM_rel {α β γ : Type} {R : α → β → Prop} {S : γ → γ → Prop} {f : α → Option γ} {g : β → Option γ} (h : ∀ a b, R a b → Both S (f a) (g b)) :
    ∀ {l : List α} {l' : List β}, List.Forall₂ R l l' → Both (List.Forall₂ S) (l.mapM f) (l'.mapM g)
  | [], [], _ => .some .nil
  | a :: l, b :: l', .cons h1 h2 => by
    simp only [List.mapM_cons, Option.bind_eq_bind, Option.pure_def]
    refine (h a b h1).bind fun x y hxy => (mapM_rel h h2).bind fun xs ys hs => .some (.cons hxy hs)

lemma corners_same (j j' : FC) (pyr : List Level) {c c' : List FC} (h : List.Forall₂ Lvl c c') (l : ℕ) (pts : List V2) (r : ℝ) :
    Both (List.Forall₂ Lvl) (detectFastCorners j pyr c l pts r) (detectFastCorners j' pyr c' l pts r) := by
  unfold detectFastCorners
  simp only [Option.bind_eq_bind, Option.pure_def]
  cases pyr[l]? with
  | none => exact .none
  | some lvl =>
    simp only [Option.bind_some]
    refine (mapM_rel (R := Eq) (S := Lvl) ?_ (List.forall₂_refl _)).bind fun x y hxy => .some (List.rel_append h hxy)
    rintro pt _ rfl
    have hl : Lvl (FC.constructPixel j pt) (FC.constructPixel j' pt) := by
      simp only [FC.constructPixel, FC.construct, FC.resetCoordinates, FC.setWarpIdentity]
      exact ⟨rfl, rfl, rfl, rfl, rfl, rfl, rfl, rfl, rfl⟩
    exact (hl.level j j' pyr l 0).bind fun u v h => .some h.2.2

lemma detect_same (hp : Even env.p) (m m' : Mem) (cur : List Level) (corners : ℕ → List V2) (radius : ℝ) :
    Both (fun u v => List.Forall₂ Lvl u.1 v.1 ∧ List.Forall₂ (SameCand env.p env.start) u.2 v.2)
      (detect (env.withMem m) m.mjunk cur corners radius) (detect (env.withMem m') m'.mjunk cur corners radius) := by
  unfold detect
  simp only [Option.bind_eq_bind, Option.pure_def]
  refine Both.bind (R := List.Forall₂ Lvl) ?_ ?_
  · exact foldlM_rel (fun a b l h => corners_same _ _ cur h l (corners l) radius) _ _ _ .nil
  · intro u v h
    exact (mapM_rel (R := Lvl) (S := SameCand env.p env.start) (fun a b hab => candidate_same hp _ _ _ _ cur hab _) h).bind fun x y hxy => .some ⟨h, hxy⟩

end ImgPixel

end Rovio
