import Verif.Lemmas.Draw
import Verif.Lemmas.Patch
import Verif.Props.Patch

/-!
# C90: drawing patches stays inside the picture and shows the patches

The debugging pictures of the filter (`visualizePatches`), of the feature tracker and the textures of the 3D view are written by hand-made
pointer arithmetic.
-/

namespace Rovio.Draw

open Rovio.Draw.Spec

/-- C90: wherever there is room for it, drawing a multilevel patch is defined and every pixel shows the finest valid level covering it (three
equal channels for colour pictures); all other pixels are untouched. -/
theorem C90_draw {p L : ℕ} (hp : Even p) {mp : MLP} (hg : Grey p L mp) {m : Canvas} (hch : m.ch = 1 ∨ m.ch = 3) {cx cy : ℕ}
    (hx : cx + p * 2 ^ (L - 1) ≤ m.cols) (hy : cy + p * 2 ^ (L - 1) ≤ m.rows) :
    ∃ m', drawMultilevelPatch p L m mp cx cy 1 false = some m' ∧ Shows p L m m' mp cx cy ∧
      ∀ y x k, Inside m y x k → ¬ (cy ≤ y ∧ y < cy + p * 2 ^ (L - 1) ∧ cx ≤ x ∧ x < cx + p * 2 ^ (L - 1)) →
        at' m' y x k = at' m y x k := by
  obtain ⟨m', h1, h2⟩ := draw_shows hp hch hx hy hg
  exact ⟨m', h1, h2, fun y x k hi hno => h2.rest y x k hi fun l hl _ hc => hno (covers_square hp hl hc)⟩

/-- A multilevel patch of two levels with constant intensities 7.5 (fine) and 200 (coarse). -/
noncomputable def demoPatch : MLP where
  patches l := ⟨fun _ => if l = 0 then 7.5 else 200, fun _ => 0, fun _ => 0, fun _ => 0, 0, 0, 0, 0, false⟩
  isValidPatch _ := true
  H := 0
  e0 := 0
  e1 := 0
  s := 0

lemma demoPatch_grey : Grey 2 2 demoPatch := by
  intro l _ _ k _
  simp only [demoPatch]
  split_ifs <;> constructor <;> norm_num

/-- C90 is not vacuous: the demo patch in a 5 × 6 picture at (1,1): the coarse level is seen at the rim, the fine one in the middle. -/
example : ∃ m', drawMultilevelPatch 2 2 (zeros 5 6 1) demoPatch (1 : ℕ) (1 : ℕ) 1 false = some m' ∧ at' m' 1 1 0 = 200 ∧ at' m' 2 3 0 = 7 ∧
    at' m' 0 0 0 = 0 := by
  obtain ⟨m', h1, h2, h3⟩ := C90_draw (p := 2) (L := 2) (m := zeros 5 6 1) (cx := 1) (cy := 1) ⟨1, rfl⟩ demoPatch_grey (Or.inl rfl)
    (by norm_num [zeros]) (by norm_num [zeros])
  refine ⟨m', h1, ?_, ?_, ?_⟩
  · have := h2.top 1 1 0 1 0 0 ⟨by norm_num [zeros], by norm_num [zeros], by norm_num [zeros]⟩ (by norm_num) rfl (by norm_num [FieldAt, inset]) (by
      intro l hl _
      obtain rfl : l = 0 := by omega
      rintro ⟨fy, fx, h1, h2, h3, h4, h5, h6⟩
      norm_num [inset] at h3
      omega)
    rw [show ⌊(demoPatch.patches 1).patch (0 * 2 + 0)⌋ = 200 by norm_num [demoPatch]] at this
    exact_mod_cast this
  · have := h2.top 2 3 0 0 0 1 ⟨by norm_num [zeros], by norm_num [zeros], by norm_num [zeros]⟩ (by norm_num) rfl (by norm_num [FieldAt, inset])
      (by intro l hl; omega)
    rw [show ⌊(demoPatch.patches 0).patch (0 * 2 + 1)⌋ = 7 by norm_num [demoPatch, Int.floor_eq_iff]] at this
    exact_mod_cast this
  · rw [h3 0 0 0 ⟨by norm_num [zeros], by norm_num [zeros], by norm_num [zeros]⟩ (by norm_num)]
    rfl

/-- A drawing of the sheet lies inside its cell. -/
lemma call_place {p L : ℕ} (hp : Even p) (c : Call) {m : Canvas} (hch : m.ch = 1 ∨ m.ch = 3) (hg : Grey p L (patchOf c))
    (hx : ((cellOf c).2 + 1) * drawPS p L ≤ m.cols) (hy : ((cellOf c).1 + 1) * drawPS p L ≤ m.rows) :
    ∃ m' cx cy, call p L m c = some m' ∧ Shows p L m m' (patchOf c) cx cy ∧
      (cellOf c).2 * drawPS p L ≤ cx ∧ cx + p * 2 ^ (L - 1) ≤ ((cellOf c).2 + 1) * drawPS p L ∧
      (cellOf c).1 * drawPS p L ≤ cy ∧ cy + p * 2 ^ (L - 1) ≤ ((cellOf c).1 + 1) * drawPS p L := by
  have hps : drawPS p L = p * 2 ^ (L - 1) + 2 := rfl
  have key : ∀ (mp : MLP) (cx cy : ℕ), call p L m c = drawMultilevelPatch p L m mp cx cy 1 false → mp = patchOf c →
      (cellOf c).2 * drawPS p L ≤ cx → cx + p * 2 ^ (L - 1) ≤ ((cellOf c).2 + 1) * drawPS p L →
      (cellOf c).1 * drawPS p L ≤ cy → cy + p * 2 ^ (L - 1) ≤ ((cellOf c).1 + 1) * drawPS p L →
      ∃ m' cx cy, call p L m c = some m' ∧ Shows p L m m' (patchOf c) cx cy ∧
      (cellOf c).2 * drawPS p L ≤ cx ∧ cx + p * 2 ^ (L - 1) ≤ ((cellOf c).2 + 1) * drawPS p L ∧
      (cellOf c).1 * drawPS p L ≤ cy ∧ cy + p * 2 ^ (L - 1) ≤ ((cellOf c).1 + 1) * drawPS p L := by
    intro mp cx cy h1 h2 h3 h4 h5 h6
    subst h2
    obtain ⟨m', e1, e2⟩ := draw_shows (cx := cx) (cy := cy) hp hch (by omega) (by omega) hg
    exact ⟨m', cx, cy, by rw [h1, e1], e2, h3, h4, h5, h6⟩
  have mul1 : ∀ a : ℕ, (a + 1) * drawPS p L = a * drawPS p L + drawPS p L := fun a => by ring
  cases c with
  | reference id mp =>
    refine key mp 2 (drawPB + id * drawPS p L) (by simp [call]) rfl ?_ ?_ ?_ ?_ <;> simp only [cellOf, mul1, drawPB] <;> omega
  | predicted id cam mp =>
    refine key mp (drawPB + (1 + 2 * cam) * drawPS p L) (drawPB + id * drawPS p L) (by simp [call]) rfl ?_ ?_ ?_ ?_ <;>
      simp only [cellOf, mul1, drawPB] <;> omega
  | updated id cam mp =>
    refine key mp (drawPB + (2 + 2 * cam) * drawPS p L) (drawPB + id * drawPS p L) (by simp [call]) rfl ?_ ?_ ?_ ?_ <;>
      simp only [cellOf, mul1, drawPB] <;> omega

/-- The drawings that an image update may make: features and cameras that exist, patches with grey values. -/
def Admissible (p L nMax nCam : ℕ) (c : Call) : Prop :=
  (cellOf c).1 < nMax ∧ (cellOf c).2 < 1 + 2 * nCam ∧ Grey p L (patchOf c)

/-- The size of the sheet. -/
def IsSheet (p L nMax nCam : ℕ) (m : Canvas) : Prop :=
  m.rows = nMax * drawPS p L ∧ m.cols = (1 + 2 * nCam) * drawPS p L ∧ m.ch = 3

lemma call_ok {p L nMax nCam : ℕ} (hp : Even p) {c : Call} (h : Admissible p L nMax nCam c) {m : Canvas} (hm : IsSheet p L nMax nCam m) :
    ∃ m' cx cy, call p L m c = some m' ∧ IsSheet p L nMax nCam m' ∧ Shows p L m m' (patchOf c) cx cy ∧
      (cellOf c).2 * drawPS p L ≤ cx ∧ cx + p * 2 ^ (L - 1) ≤ ((cellOf c).2 + 1) * drawPS p L ∧
      (cellOf c).1 * drawPS p L ≤ cy ∧ cy + p * 2 ^ (L - 1) ≤ ((cellOf c).1 + 1) * drawPS p L := by
  obtain ⟨h1, h2, h3⟩ := hm
  obtain ⟨m', cx, cy, e1, e2, e3⟩ := call_place hp c (m := m) (Or.inr h3) h.2.2
    (by rw [h2]; exact Nat.mul_le_mul_right _ h.2.1) (by rw [h1]; exact Nat.mul_le_mul_right _ h.1)
  exact ⟨m', cx, cy, e1, ⟨by rw [e2.rows, h1], by rw [e2.cols, h2], by rw [e2.ch, h3]⟩, e2, e3⟩

lemma div_cell {n a x : ℕ} (h1 : a * n ≤ x) (h2 : x < (a + 1) * n) : x / n = a :=
  Nat.div_eq_of_lt_le h1 h2

/-- A drawing changes pixels of its own cell only. -/
lemma call_outside {p L nMax nCam : ℕ} (hp : Even p) {c : Call} {m m' : Canvas} {cx cy : ℕ} (hs : Shows p L m m' (patchOf c) cx cy)
    (h1 : (cellOf c).2 * drawPS p L ≤ cx) (h2 : cx + p * 2 ^ (L - 1) ≤ ((cellOf c).2 + 1) * drawPS p L)
    (h3 : (cellOf c).1 * drawPS p L ≤ cy) (h4 : cy + p * 2 ^ (L - 1) ≤ ((cellOf c).1 + 1) * drawPS p L) (_hm : IsSheet p L nMax nCam m)
    {y x k : ℕ} (hi : Inside m y x k) (hne : cellOf c ≠ (y / drawPS p L, x / drawPS p L)) : at' m' y x k = at' m y x k := by
  have hps : 0 < drawPS p L := by unfold drawPS drawPB; omega
  refine hs.rest y x k hi fun l hl _ hc => hne ?_
  obtain ⟨a1, a2, a3, a4⟩ := covers_square hp hl hc
  rw [div_cell (a := (cellOf c).1) (by omega) (by omega), div_cell (a := (cellOf c).2) (by omega) (by omega)]

/-- A drawing acts in the same way on its own cell, whatever the rest of the sheet. -/
lemma call_inside {p L : ℕ} {c : Call} {m m' n n' : Canvas} {cx cy : ℕ} (hs : Shows p L m m' (patchOf c) cx cy)
    (ht : Shows p L n n' (patchOf c) cx cy) {y x k : ℕ} (hi : Inside m y x k) (hi' : Inside n y x k)
    (hg : at' m y x k = at' n y x k) : at' m' y x k = at' n' y x k := by
  classical
  by_cases hc : ∃ l, l < L ∧ (patchOf c).isValidPatch l = true ∧ Covers p 1 (inset p L l) cx cy l y x
  · obtain ⟨a1, a2, fy, fx, a3⟩ := Nat.find_spec hc
    have hmin : ∀ l' < Nat.find hc, (patchOf c).isValidPatch l' = true → ¬ Covers p 1 (inset p L l') cx cy l' y x :=
      fun l' hl' hv hcov => Nat.find_min hc hl' ⟨by omega, hv, hcov⟩
    have e1 := hs.top y x k _ fy fx hi a1 a2 a3 hmin
    have e2 := ht.top y x k _ fy fx hi' a1 a2 a3 hmin
    have : (at' m' y x k : ℤ) = at' n' y x k := by rw [e1, e2]
    exact_mod_cast this
  · push Not at hc
    rw [hs.rest y x k hi (fun l hl hv => hc l hl hv), ht.rest y x k hi' (fun l hl hv => hc l hl hv), hg]

/-- The position of a drawing does not depend on the sheet. -/
lemma call_same {p L nMax nCam : ℕ} (hp : Even p) {c : Call} (h : Admissible p L nMax nCam c) {m n : Canvas} (hm : IsSheet p L nMax nCam m)
    (hn : IsSheet p L nMax nCam n) {m' n' : Canvas} (em : call p L m c = some m') (en : call p L n c = some n') {y x k : ℕ}
    (hi : Inside m y x k) (hg : at' m y x k = at' n y x k) : at' m' y x k = at' n' y x k := by
  have hi' : Inside n y x k := ⟨by rw [hn.1, ← hm.1]; exact hi.1, by rw [hn.2.1, ← hm.2.1]; exact hi.2.1, by rw [hn.2.2, ← hm.2.2]; exact hi.2.2⟩
  have key : ∀ cx cy : ℕ, (∀ k, call p L k c = drawMultilevelPatch p L k (patchOf c) cx cy 1 false) →
      cx + p * 2 ^ (L - 1) ≤ ((cellOf c).2 + 1) * drawPS p L → cy + p * 2 ^ (L - 1) ≤ ((cellOf c).1 + 1) * drawPS p L →
      at' m' y x k = at' n' y x k := by
    intro cx cy e1 e2 e3
    have b2 : ((cellOf c).2 + 1) * drawPS p L ≤ (1 + 2 * nCam) * drawPS p L := Nat.mul_le_mul_right _ h.2.1
    have b1 : ((cellOf c).1 + 1) * drawPS p L ≤ nMax * drawPS p L := Nat.mul_le_mul_right _ h.1
    obtain ⟨o1, f1, f2⟩ := draw_shows (cx := cx) (cy := cy) (m := m) hp (Or.inr hm.2.2) (by rw [hm.2.1]; omega) (by rw [hm.1]; omega) h.2.2
    obtain ⟨o2, g1, g2⟩ := draw_shows (cx := cx) (cy := cy) (m := n) hp (Or.inr hn.2.2) (by rw [hn.2.1]; omega) (by rw [hn.1]; omega) h.2.2
    rw [e1, f1, Option.some.injEq] at em
    rw [e1, g1, Option.some.injEq] at en
    subst em en
    exact call_inside f2 g2 hi hi' hg
  have hps : drawPS p L = p * 2 ^ (L - 1) + 2 := rfl
  have mul1 : ∀ a : ℕ, (a + 1) * drawPS p L = a * drawPS p L + drawPS p L := fun a => by ring
  cases c with
  | reference id mp =>
    refine key 2 (drawPB + id * drawPS p L) (by simp [call, patchOf]) ?_ ?_ <;> simp only [cellOf, mul1, drawPB] <;> omega
  | predicted id cam mp =>
    refine key (drawPB + (1 + 2 * cam) * drawPS p L) (drawPB + id * drawPS p L) (by simp [call, patchOf]) ?_ ?_ <;>
      simp only [cellOf, mul1, drawPB] <;> omega
  | updated id cam mp =>
    refine key (drawPB + (2 + 2 * cam) * drawPS p L) (drawPB + id * drawPS p L) (by simp [call, patchOf]) ?_ ?_ <;>
      simp only [cellOf, mul1, drawPB] <;> omega

lemma calls_ok {p L nMax nCam : ℕ} (hp : Even p) {cs : List Call} (h : ∀ c ∈ cs, Admissible p L nMax nCam c) {m : Canvas}
    (hm : IsSheet p L nMax nCam m) : ∃ m', calls p L m cs = some m' ∧ IsSheet p L nMax nCam m' := by
  induction cs generalizing m with
  | nil => exact ⟨m, rfl, hm⟩
  | cons c cs ih =>
    obtain ⟨m1, cx, cy, e1, e2, -⟩ := call_ok hp (h c (by simp)) hm
    obtain ⟨m2, f1, f2⟩ := ih (fun c hc => h c (by simp [hc])) e2
    exact ⟨m2, by simp only [calls, List.foldlM_cons, e1, Option.bind_eq_bind, Option.bind_some]; exact f1, f2⟩

lemma calls_cell {p L nMax nCam : ℕ} (hp : Even p) {cs : List Call} (h : ∀ c ∈ cs, Admissible p L nMax nCam c) {m n : Canvas}
    (hm : IsSheet p L nMax nCam m) (hn : IsSheet p L nMax nCam n) {y x k : ℕ} (hi : Inside m y x k) (hg : at' m y x k = at' n y x k)
    {m' n' : Canvas} (em : calls p L m cs = some m')
    (en : calls p L n (cs.filter fun c => cellOf c = (y / drawPS p L, x / drawPS p L)) = some n') : at' m' y x k = at' n' y x k := by
  induction cs generalizing m n with
  | nil =>
    simp only [calls, List.filter_nil, List.foldlM_nil, Option.pure_def, Option.some.injEq] at em en
    subst em en
    exact hg
  | cons c cs ih =>
    obtain ⟨m1, cx, cy, e1, e2, e3, e4, e5, e6, e7⟩ := call_ok hp (h c (by simp)) hm
    have hi1 : Inside m1 y x k := ⟨by rw [e2.1, ← hm.1]; exact hi.1, by rw [e2.2.1, ← hm.2.1]; exact hi.2.1,
      by rw [e2.2.2, ← hm.2.2]; exact hi.2.2⟩
    simp only [calls, List.foldlM_cons, e1, Option.bind_eq_bind, Option.bind_some] at em
    by_cases hc : cellOf c = (y / drawPS p L, x / drawPS p L)
    · rw [List.filter_cons_of_pos (by simpa using hc)] at en
      obtain ⟨n1, cx', cy', f1, f2, -⟩ := call_ok hp (h c (by simp)) hn
      simp only [calls, List.foldlM_cons, f1, Option.bind_eq_bind, Option.bind_some] at en
      exact ih (fun c hc => h c (by simp [hc])) e2 f2 hi1 (call_same hp (h c (by simp)) hm hn e1 f1 hi hg) em en
    · rw [List.filter_cons_of_neg (by simpa using hc)] at en
      refine ih (fun c hc => h c (by simp [hc])) e2 hn hi1 ?_ em en
      rw [call_outside hp e3 e4 e5 e6 e7 hm hi hc, hg]

/-- C90: the debugging picture of an image update.  Whatever patches are drawn, in whatever order, for features and cameras that exist, the
drawing is defined, and each cell of the picture (one row per feature; one column for the reference and two per camera) shows what was drawn
for that feature and camera and nothing else. -/
theorem C90_sheet {p L nMax nCam : ℕ} (hp : Even p) {cs : List Call} (h : ∀ c ∈ cs, Admissible p L nMax nCam c) :
    ∃ m', calls p L (sheet p L nMax nCam) cs = some m' ∧ IsSheet p L nMax nCam m' ∧
      ∀ y x k, Inside m' y x k → ∃ own, calls p L (sheet p L nMax nCam) (cs.filter fun c => cellOf c = (y / drawPS p L, x / drawPS p L)) = some own ∧
        at' m' y x k = at' own y x k := by
  have hm : IsSheet p L nMax nCam (sheet p L nMax nCam) := ⟨rfl, rfl, rfl⟩
  obtain ⟨m', e1, e2⟩ := calls_ok hp h hm
  refine ⟨m', e1, e2, fun y x k hi => ?_⟩
  obtain ⟨own, f1, f2⟩ := calls_ok hp (cs := cs.filter fun c => cellOf c = (y / drawPS p L, x / drawPS p L))
    (fun c hc => h c (List.mem_filter.1 hc).1) hm
  refine ⟨own, f1, calls_cell hp h hm hm ⟨?_, ?_, ?_⟩ rfl e1 f1⟩
  · rw [hm.1, ← e2.1]; exact hi.1
  · rw [hm.2.1, ← e2.2.1]; exact hi.2.1
  · rw [hm.2.2, ← e2.2.2]; exact hi.2.2

/-- C90: the patch drawn last into a cell is seen in full. -/
theorem C90_sheet_last {p L nMax nCam : ℕ} (hp : Even p) {cs : List Call} (h : ∀ c ∈ cs, Admissible p L nMax nCam c) {c : Call}
    (hc : Admissible p L nMax nCam c) :
    ∃ m m' cx cy, calls p L (sheet p L nMax nCam) cs = some m ∧ calls p L (sheet p L nMax nCam) (cs ++ [c]) = some m' ∧
      Shows p L m m' (patchOf c) cx cy ∧
      (cellOf c).2 * drawPS p L ≤ cx ∧ cx + p * 2 ^ (L - 1) ≤ ((cellOf c).2 + 1) * drawPS p L ∧
      (cellOf c).1 * drawPS p L ≤ cy ∧ cy + p * 2 ^ (L - 1) ≤ ((cellOf c).1 + 1) * drawPS p L := by
  have hm : IsSheet p L nMax nCam (sheet p L nMax nCam) := ⟨rfl, rfl, rfl⟩
  obtain ⟨m, e1, e2⟩ := calls_ok hp h hm
  obtain ⟨m', cx, cy, f1, f2, f3⟩ := call_ok hp hc e2
  refine ⟨m, m', cx, cy, e1, ?_, f3⟩
  unfold calls at e1 ⊢
  rw [List.foldlM_append, e1]
  simp [f1]

/-- C90_sheet and C90_sheet_last are not vacuous: two features, two cameras. -/
example : ∀ c ∈ [Call.reference 0 demoPatch, .predicted 0 1 demoPatch, .reference 1 demoPatch, .updated 1 1 demoPatch],
    Admissible 2 2 2 2 c := by
  intro c hc
  simp only [List.mem_cons, List.not_mem_nil, or_false] at hc
  rcases hc with rfl | rfl | rfl | rfl <;> exact ⟨by norm_num [cellOf], by norm_num [cellOf], demoPatch_grey⟩

/-- C90: the texture of the 3D view has exactly the size of a patch; drawing into it is defined, and if the coarsest level is valid nothing
of the previous texture is left. -/
theorem C90_texture {p L : ℕ} (hp : Even p) (hL : 0 < L) {mp : MLP} (hg : Grey p L mp) {m : Canvas}
    (hm : m.rows = (texture p L).rows ∧ m.cols = (texture p L).cols ∧ m.ch = 1) :
    ∃ m', drawTexture p L m mp = some m' ∧ (m'.rows = m.rows ∧ m'.cols = m.cols ∧ m'.ch = 1) ∧ Shows p L m m' mp 0 0 ∧
      (mp.isValidPatch (L - 1) = true → ∀ n n', n.rows = m.rows → n.cols = m.cols → n.ch = 1 → drawTexture p L n mp = some n' →
        ∀ y x, y < m.rows → x < m.cols → at' m' y x 0 = at' n' y x 0) := by
  obtain ⟨h1, h2, h3⟩ := hm
  have hsz : m.rows = p * 2 ^ (L - 1) ∧ m.cols = p * 2 ^ (L - 1) := ⟨h1, h2⟩
  obtain ⟨m', e1, e2⟩ := draw_shows (mp := mp) (cx := 0) (cy := 0) (m := m) hp (Or.inl h3) (by rw [hsz.2]; omega) (by rw [hsz.1]; omega) hg
  refine ⟨m', e1, ⟨e2.rows, e2.cols, by rw [e2.ch, h3]⟩, e2, fun hv n n' hn1 hn2 hn3 en y x hy hx => ?_⟩
  obtain ⟨n1, f1, f2⟩ := draw_shows (mp := mp) (cx := 0) (cy := 0) (m := n) hp (Or.inl hn3) (by rw [hn2, hsz.2]; omega) (by rw [hn1, hsz.1]; omega) hg
  have : n1 = n' := by
    unfold drawTexture at en
    rw [← Option.some.injEq, ← f1, ← en]
    rfl
  subst this
  have hi : Inside m y x 0 := ⟨hy, hx, by rw [h3]; exact one_pos⟩
  have hi' : Inside n y x 0 := ⟨by rw [hn1]; exact hy, by rw [hn2]; exact hx, by rw [hn3]; exact one_pos⟩
  classical
  have hc : ∃ l, l < L ∧ mp.isValidPatch l = true ∧ Covers p 1 (inset p L l) 0 0 l y x := by
    have h2l : 0 < 2 ^ (L - 1) := by positivity
    refine ⟨L - 1, by omega, hv, y / 2 ^ (L - 1), x / 2 ^ (L - 1), ?_⟩
    have hin : inset p L (L - 1) = 0 := by simp [inset]
    rw [hsz.1] at hy
    rw [hsz.2] at hx
    refine ⟨(Nat.div_lt_iff_lt_mul h2l).2 hy, (Nat.div_lt_iff_lt_mul h2l).2 hx, ?_, ?_, ?_, ?_⟩ <;>
      simp only [hin, Nat.zero_add, Nat.one_mul]
    · exact Nat.div_mul_le_self _ _
    · have := Nat.lt_div_mul_add h2l (a := y)
      rw [Nat.add_mul, Nat.one_mul]; exact this
    · exact Nat.div_mul_le_self _ _
    · have := Nat.lt_div_mul_add h2l (a := x)
      rw [Nat.add_mul, Nat.one_mul]; exact this
  obtain ⟨a1, a2, fy, fx, a3⟩ := Nat.find_spec hc
  have hmin : ∀ l' < Nat.find hc, mp.isValidPatch l' = true → ¬ Covers p 1 (inset p L l') 0 0 l' y x :=
    fun l' hl' hv hcov => Nat.find_min hc hl' ⟨by omega, hv, hcov⟩
  have g1 := e2.top y x 0 _ fy fx hi a1 a2 a3 hmin
  have g2 := f2.top y x 0 _ fy fx hi' a1 a2 a3 hmin
  have : (at' m' y x 0 : ℤ) = at' n1 y x 0 := by rw [g1, g2]
  exact_mod_cast this

/-- C90_texture is not vacuous. -/
example : ∃ m', drawTexture 2 2 (texture 2 2) demoPatch = some m' :=
  (C90_texture (p := 2) (L := 2) ⟨1, rfl⟩ (by norm_num) demoPatch_grey (m := texture 2 2) ⟨rfl, rfl, rfl⟩).imp fun _ h => h.1

/-- C90: the picture of the feature tracker: all three drawings of every row fit into their own cell of the picture. -/
theorem C90_tracker {p L n : ℕ} (hp : Even p) {mp : MLP} (hg : Grey p L mp) {i : ℕ} (hi : i < n) (k : Fin 3) {m : Canvas}
    (hm : m.rows = (trackerSheet p L n).rows ∧ m.cols = (trackerSheet p L n).cols ∧ m.ch = 1) :
    ∃ m' cx cy, trackerDraw p L m i k mp = some m' ∧ Shows p L m m' mp cx cy ∧
      k * trackerCell p L ≤ cx ∧ cx + p * 2 ^ (L - 1) ≤ (k + 1) * trackerCell p L ∧
      i * trackerCell p L ≤ cy ∧ cy + p * 2 ^ (L - 1) ≤ (i + 1) * trackerCell p L := by
  obtain ⟨h1, h2, h3⟩ := hm
  have hcell : trackerCell p L = p * 2 ^ (L - 1) + 4 := rfl
  have hr : (i + 1) * trackerCell p L ≤ m.rows := by rw [h1]; exact Nat.mul_le_mul_right _ hi
  have hc : m.cols = 3 * trackerCell p L := h2
  have e : (i + 1) * trackerCell p L = i * trackerCell p L + trackerCell p L := by ring
  have key : ∀ cx : ℕ, trackerDraw p L m i k mp = drawMultilevelPatch p L m mp cx ((2 + i * trackerCell p L : ℕ) : ℤ) 1 false →
      k * trackerCell p L ≤ cx → cx + p * 2 ^ (L - 1) ≤ (k + 1) * trackerCell p L → cx + p * 2 ^ (L - 1) ≤ m.cols →
      ∃ m' cx cy, trackerDraw p L m i k mp = some m' ∧ Shows p L m m' mp cx cy ∧
      k * trackerCell p L ≤ cx ∧ cx + p * 2 ^ (L - 1) ≤ (k + 1) * trackerCell p L ∧
      i * trackerCell p L ≤ cy ∧ cy + p * 2 ^ (L - 1) ≤ (i + 1) * trackerCell p L := by
    intro cx g1 g2 g3 g4
    obtain ⟨m', f1, f2⟩ := draw_shows (mp := mp) (cx := cx) (cy := 2 + i * trackerCell p L) (m := m) hp (Or.inl h3) g4 (by omega) hg
    exact ⟨m', cx, 2 + i * trackerCell p L, by rw [g1, f1], f2, g2, g3, by omega, by omega⟩
  have ass : 2 * p * 2 ^ (L - 1) = 2 * (p * 2 ^ (L - 1)) := by ring
  have hk : k = 0 ∨ k = 1 ∨ k = 2 := by
    obtain ⟨k, hk⟩ := k
    have : k = 0 ∨ k = 1 ∨ k = 2 := by omega
    rcases this with rfl | rfl | rfl <;> simp
  rcases hk with rfl | rfl | rfl
  · refine key 2 (by simp [trackerDraw]) ?_ ?_ ?_ <;> norm_num <;> omega
  · refine key (p * 2 ^ (L - 1) + 6) (by simp [trackerDraw]) ?_ ?_ ?_ <;> norm_num <;> omega
  · refine key (2 * p * 2 ^ (L - 1) + 10) (by simp [trackerDraw]) ?_ ?_ ?_ <;> rw [ass] <;> norm_num <;> omega

/-- C90_tracker is not vacuous: the last of ten rows. -/
example : ∃ m' cx cy, trackerDraw 2 2 (trackerSheet 2 2 10) 9 2 demoPatch = some m' ∧ Shows 2 2 (trackerSheet 2 2 10) m' demoPatch cx cy := by
  obtain ⟨m', cx, cy, h1, h2, -⟩ := C90_tracker (p := 2) (L := 2) (n := 10) ⟨1, rfl⟩ demoPatch_grey (i := 9) (by norm_num) 2
    (m := trackerSheet 2 2 10) ⟨rfl, rfl, rfl⟩
  exact ⟨m', cx, cy, h1, h2⟩

/-! ### Extracted patches have grey values -/

/-- All pixels are bytes. -/
def Bytes (img : Img) : Prop := ∀ y < img.rows, ∀ x < img.cols, img.px y x ≤ 255

lemma read_byte {img : Img} (hb : Bytes img) {v u : ℤ} {g : ℕ} (h : img.read v u = some g) : (0 : ℝ) ≤ g ∧ (g : ℝ) ≤ 255 := by
  unfold Img.read at h
  split_ifs at h with hc
  rw [Option.some.injEq] at h
  subst h
  have := hb v.toNat (by omega) u.toNat (by omega)
  constructor
  · positivity
  · exact_mod_cast this

lemma bilinear_byte {img : Img} (hb : Bytes img) {v u : ℤ} {sx sy r : ℝ} (h0 : 0 ≤ sx) (h1 : sx < 1) (h2 : 0 ≤ sy) (h3 : sy < 1)
    (h : Patch.bilinear img v u sx sy = some r) : 0 ≤ r ∧ r ≤ 255 := by
  unfold Patch.bilinear at h
  have one : (1.0 : ℝ) = 1 := by norm_num
  simp only [one] at h
  cases htl : img.read v u with
  | none => simp [htl] at h
  | some tl =>
    obtain ⟨t0, t1⟩ := read_byte hb htl
    simp only [htl, Option.bind_eq_bind, Option.bind_some] at h
    have w00 : 0 ≤ (1 - sx) * (1 - sy) := mul_nonneg (by linarith) (by linarith)
    have w10 : 0 ≤ sx * (1 - sy) := mul_nonneg h0 (by linarith)
    have w01 : 0 ≤ (1 - sx) * sy := mul_nonneg (by linarith) h2
    have w11 : 0 ≤ sx * sy := mul_nonneg h0 h2
    rcases lt_or_eq_of_le h0 with hx | hx <;> rcases lt_or_eq_of_le h2 with hy | hy
    · simp only [gt_iff_lt, hx, hy, and_self, if_true, Option.bind_eq_some_iff, Option.map_eq_some_iff, Option.pure_def,
        Option.some.injEq] at h
      obtain ⟨r1, ⟨_, ⟨a, ha, rfl⟩, rfl⟩, r2, ⟨_, ⟨b, hb', rfl⟩, rfl⟩, _, ⟨c, hc, rfl⟩, rfl⟩ := h
      obtain ⟨a0, a1⟩ := read_byte hb ha
      obtain ⟨b0, b1⟩ := read_byte hb hb'
      obtain ⟨c0, c1⟩ := read_byte hb hc
      have hsum : (1 - sx) * (1 - sy) + sx * (1 - sy) + (1 - sx) * sy + sx * sy = 1 := by ring
      constructor
      · have := mul_nonneg w00 t0
        have := mul_nonneg w10 a0
        have := mul_nonneg w01 b0
        have := mul_nonneg w11 c0
        linarith
      · have := mul_le_mul_of_nonneg_left t1 w00
        have := mul_le_mul_of_nonneg_left a1 w10
        have := mul_le_mul_of_nonneg_left b1 w01
        have := mul_le_mul_of_nonneg_left c1 w11
        linarith
    · subst hy
      simp only [gt_iff_lt, hx, lt_irrefl, and_false, if_true, if_false, Option.bind_eq_some_iff, Option.map_eq_some_iff, Option.pure_def,
        Option.some.injEq] at h
      obtain ⟨r1, ⟨_, ⟨a, ha, rfl⟩, rfl⟩, r2, rfl, rfl⟩ := h
      obtain ⟨a0, a1⟩ := read_byte hb ha
      constructor
      · have := mul_nonneg w00 t0
        have := mul_nonneg w10 a0
        linarith
      · have := mul_le_mul_of_nonneg_left t1 w00
        have := mul_le_mul_of_nonneg_left a1 w10
        linarith
    · subst hx
      simp only [gt_iff_lt, hy, lt_irrefl, false_and, if_true, if_false, Option.bind_eq_some_iff, Option.map_eq_some_iff, Option.pure_def,
        Option.some.injEq] at h
      obtain ⟨r1, ⟨_, ⟨b, hb', rfl⟩, rfl⟩, rfl⟩ := h
      obtain ⟨b0, b1⟩ := read_byte hb hb'
      constructor
      · have := mul_nonneg w00 t0
        have := mul_nonneg w01 b0
        linarith
      · have := mul_le_mul_of_nonneg_left t1 w00
        have := mul_le_mul_of_nonneg_left b1 w01
        linarith
    · subst hx hy
      simp only [gt_iff_lt, lt_irrefl, and_self, if_false, Option.some.injEq] at h
      subst h
      constructor <;> linarith

lemma floorInt_eq {x : ℝ} {u : ℤ} (h : floorInt x = some u) : u = ⌊x⌋ := by
  unfold floorInt at h
  split_ifs at h
  simpa using h.symm

lemma sample_byte {img : Img} (hb : Bytes img) {q : V2} {W : M2} {hs y x : ℕ} {r : ℝ}
    (h : Patch.samplePlain img q hs y x = some r ∨ Patch.sampleWarped img q W hs y x = some r) : 0 ≤ r ∧ r ≤ 255 := by
  rcases h with h | h
  · unfold Patch.samplePlain at h
    simp only [Option.bind_eq_bind, Option.bind_eq_some_iff] at h
    obtain ⟨u, hu, v, hv, h⟩ := h
    have eu := floorInt_eq hu
    have ev := floorInt_eq hv
    subst eu ev
    exact bilinear_byte hb (by linarith [Int.floor_le q.x]) (by linarith [Int.lt_floor_add_one q.x]) (by linarith [Int.floor_le q.y])
      (by linarith [Int.lt_floor_add_one q.y]) h
  · unfold Patch.sampleWarped at h
    simp only [Option.bind_eq_bind, Option.bind_eq_some_iff] at h
    obtain ⟨u, hu, v, hv, h⟩ := h
    have eu := floorInt_eq hu
    have ev := floorInt_eq hv
    subst eu ev
    exact bilinear_byte hb (by linarith [Int.floor_le (q.x + (W.a * ((x : ℝ) - hs + 0.5) + W.b * ((y : ℝ) - hs + 0.5)) - 0.5)])
      (by linarith [Int.lt_floor_add_one (q.x + (W.a * ((x : ℝ) - hs + 0.5) + W.b * ((y : ℝ) - hs + 0.5)) - 0.5)])
      (by linarith [Int.floor_le (q.y + (W.c * ((x : ℝ) - hs + 0.5) + W.d * ((y : ℝ) - hs + 0.5)) - 0.5)])
      (by linarith [Int.lt_floor_add_one (q.y + (W.c * ((x : ℝ) - hs + 0.5) + W.d * ((y : ℝ) - hs + 0.5)) - 0.5)]) h

lemma extract_byte {p : ℕ} (hp : Even p) {old new : Patch} {img : Img} (hb : Bytes img) {c c' : FC} {wb : Bool}
    (h : Patch.extractPatchFromImage p old img c wb = some (c', new)) {k : ℕ} (hk : k < p * p) :
    0 ≤ new.patch k ∧ new.patch k ≤ 255 := by
  unfold Patch.extractPatchFromImage at h
  simp only [Option.bind_eq_bind, Option.bind_eq_some_iff, Option.pure_def, Option.some.injEq, Prod.mk.injEq, Prod.exists] at h
  obtain ⟨c1, near, -, c2, g, hg, -, rfl⟩ := h
  obtain ⟨h2, rfl⟩ := hp
  set hs := halfPatch (h2 + h2) wb with hhs
  have hgb : ∀ y < 2 * hs, ∀ x < 2 * hs, 0 ≤ g y x ∧ g y x ≤ 255 := by
    intro y hy x hx
    cases near with
    | true =>
      simp only [if_true, Option.bind_eq_some_iff, Option.some.injEq, Prod.mk.injEq, Prod.exists] at hg
      obtain ⟨c3, q, -, g', hf, -, rfl⟩ := hg
      exact sample_byte (W := ⟨0, 0, 0, 0⟩) hb (Or.inl (fill_get hf hy hx))
    | false =>
      simp only [Bool.false_eq_true, if_false, Option.bind_eq_some_iff, Option.some.injEq, Prod.mk.injEq, Prod.exists] at hg
      obtain ⟨c3, W, -, c4, q, -, g', hf, -, rfl⟩ := hg
      exact sample_byte hb (Or.inr (fill_get hf hy hx))
  have hp0 : 0 < h2 + h2 := by
    rcases Nat.eq_zero_or_pos (h2 + h2) with h0 | h0
    · rw [h0] at hk; simp at hk
    · exact h0
  have hrow : k / (h2 + h2) < h2 + h2 := (Nat.div_lt_iff_lt_mul hp0).2 hk
  have hcol : k % (h2 + h2) < h2 + h2 := Nat.mod_lt _ hp0
  cases wb with
  | false =>
    have e : 2 * hs = h2 + h2 := by rw [hhs]; unfold halfPatch; simp; omega
    simp only [Bool.false_eq_true, if_false]
    rw [e] at hgb ⊢
    rw [if_pos hk]
    exact hgb _ hrow _ hcol
  | true =>
    have e : 2 * hs = h2 + h2 + 2 := by rw [hhs]; unfold halfPatch; simp; omega
    simp only [if_true, Patch.extractPatchFromPatchWithBorder, if_pos hk]
    rw [e] at hgb ⊢
    set w := h2 + h2 + 2
    have hlt : (k / (h2 + h2) + 1) * w + 1 + k % (h2 + h2) < w * w := by
      have : (k / (h2 + h2) + 2) * w ≤ w * w := Nat.mul_le_mul_right _ (by omega)
      have e3 : (k / (h2 + h2) + 2) * w = (k / (h2 + h2) + 1) * w + w := by ring
      omega
    rw [if_pos hlt]
    have hw : 0 < w := by omega
    exact hgb _ ((Nat.div_lt_iff_lt_mul hw).2 hlt) _ (Nat.mod_lt _ hw)

/-- C90: the patches of the filter have grey values: a new multilevel patch has no valid level, and extraction from a pyramid of byte images
(with or without border, wherever it is defined) keeps all valid levels in the range of a byte, so that they can be drawn. -/
theorem C90_grey {p L : ℕ} (hp : Even p) :
    (∀ m : MLP, Grey p L m.reset) ∧
    ∀ (junk : FC) (m m' : MLP) (pyr : List Level) (c c' : FC) (l : ℕ) (wb : Bool), (∀ lv ∈ pyr, Bytes lv.img) → Grey p L m →
      MLP.extractMultilevelPatchFromImage p junk m pyr c l wb = some (c', m') → Grey p L m' := by
  constructor
  · intro m l _ hv
    simp [MLP.reset] at hv
  · intro junk m m' pyr c c' l wb hb
    unfold MLP.extractMultilevelPatchFromImage
    generalize List.range (l + 1) = ls
    induction ls generalizing m c with
    | nil =>
      intro hg h
      simp only [List.foldlM_nil, Option.pure_def, Option.some.injEq, Prod.mk.injEq] at h
      obtain ⟨-, rfl⟩ := h
      exact hg
    | cons i ls ih =>
      intro hg h
      simp only [List.foldlM_cons, Option.bind_eq_bind, Option.bind_eq_some_iff, Prod.exists] at h
      obtain ⟨c1, m1, h1, h⟩ := h
      refine ih m1 c1 ?_ h
      unfold MLP.extractLevel at h1
      simp only [Option.bind_eq_bind, Option.bind_eq_some_iff, Option.pure_def, Option.some.injEq, Prod.mk.injEq, Prod.exists] at h1
      obtain ⟨c2, t, -, lv, hlv, c3, pi, he, -, rfl⟩ := h1
      intro l' hl' hv k hk
      by_cases e : l' = i
      · subst e
        simp only [Function.update_self]
        exact extract_byte hp (hb lv (List.mem_of_getElem? hlv)) he hk
      · simp only [Function.update_of_ne e] at hv ⊢
        exact hg l' hl' hv k hk

/-- C90_grey: the pixels of a pyramid level computed by averaging are bytes. -/
theorem C90_halfSample {img out : Img} (h : halfSample img = some out) : Bytes out := by
  unfold halfSample at h
  simp only [Option.bind_eq_bind, Option.bind_eq_some_iff, Option.pure_def, Option.some.injEq] at h
  obtain ⟨px, hpx, rfl⟩ := h
  intro y hy x hx
  have := fill_get hpx hy hx
  unfold halfPixel at this
  simp only [Option.bind_eq_bind, Option.bind_eq_some_iff, Option.pure_def, Option.some.injEq] at this
  obtain ⟨_, _, _, _, _, _, _, _, h⟩ := this
  simp only at h ⊢
  omega

/-- C90_grey is not vacuous: a 4 × 4 patch is extracted from a byte image. -/
example (junk : FC) (old : MLP) : ∃ pyr c', computeFromImage 1 ⟨20, 20, fun y x => y + x⟩ none = some pyr ∧ (∀ lv ∈ pyr, Bytes lv.img) ∧
    ∃ m', MLP.extractMultilevelPatchFromImage 4 junk old.reset pyr (atPixel junk ⟨9, 10⟩ ⟨1, 0, 0, 1⟩) 0 false = some (c', m') ∧
      m'.isValidPatch 0 = true := by
  set c := atPixel junk ⟨9, 10⟩ ⟨1, 0, 0, 1⟩ with hc
  obtain ⟨pyr, hpyr⟩ := levelsFrom_total none 1 1 ⟨⟨20, 20, fun y x => y + x⟩, 0⟩
  have hz := pyr_zero (cv := none) hpyr (by norm_num)
  have hs : c.Settled := ⟨rfl, rfl⟩
  obtain ⟨o, ho, so, fo, po, wo, io⟩ := levelTransform_settled (junk := junk) hz hz hs
  have hpo : o.c = ⟨9, 10⟩ := by rw [po, levelPixel_self]; rfl
  have hn : o.nearB = true := by
    have hcam : c.cam = none := rfl
    simp [FC.nearB, io, hcam]
  obtain ⟨new, hnew⟩ := Patch.extract_total (p := 4) (old := old.reset.patches 0) (img := ⟨20, 20, fun y x => y + x⟩) (wb := false) so
    (by norm_num) (by norm_num) (by
      unfold Patch.InP
      rw [hn, hpo]
      simp only [if_true]
      norm_num [halfPatch, Patch.PlainIn])
  refine ⟨pyr, c, hpyr, ?_, { old.reset with isValidPatch := Function.update old.reset.isValidPatch 0 true
                                             patches := Function.update old.reset.patches 0 new }, ?_, by simp⟩
  · intro lv hlv
    have e : pyr = [⟨⟨20, 20, fun y x => y + x⟩, 0⟩] := by
      simp only [levelsFrom, Option.some.injEq] at hpyr
      exact hpyr.symm
    rw [e] at hlv
    simp only [List.mem_singleton] at hlv
    subst hlv
    intro y hy x hx
    simp only at hy hx ⊢
    omega
  · unfold MLP.extractMultilevelPatchFromImage
    rw [show List.range (0 + 1) = [0] from rfl, List.foldlM_cons]
    unfold MLP.extractLevel
    simp [ho, hz, hnew]

/-- Finding: with a magnification other than 1 the levels are not concentric (the offset of a level is not magnified): with magnification 2,
patch size 2 and two levels the fine level occupies the pixels 1 to 4 of a drawing of side 8, whose centre is at 4. -/
theorem C90_finding_magnification : ∃ m', drawMultilevelPatch 2 2 (zeros 8 8 1) demoPatch 0 0 2 false = some m' ∧
    at' m' 1 1 0 = 7 ∧ at' m' 4 4 0 = 7 ∧ at' m' 5 5 0 = 200 ∧ at' m' 0 0 0 = 200 := by
  obtain ⟨m', h1, -, -, -, h5, -⟩ := draw_effect (p := 2) (L := 2) (mp := demoPatch) (cx := 0) (cy := 0) (s := 2) (by norm_num) (wb := false)
    (m := zeros 8 8 1) (Or.inl rfl) (by norm_num [zeros, side]) (by norm_num [zeros, side]) (by
      intro l _ _ k _
      simp only [shown, demoPatch, Bool.false_eq_true, if_false]
      split_ifs <;> constructor <;> norm_num)
  have ins : ∀ y x, y < 8 → x < 8 → Inside (zeros 8 8 1) y x 0 := fun y x hy hx => ⟨hy, hx, one_pos⟩
  have fine : ∀ y x fy fx, y < 8 → x < 8 → FieldAt (side 2 false) 2 (corner 2 2 0 false) 0 0 0 y x fy fx → at' m' y x 0 = 7 := by
    intro y x fy fx hy hx hF
    rw [h5 y x 0 0 fy fx (ins y x hy hx) (by norm_num) rfl hF (by intro l hl; omega)]
    norm_num [shown, demoPatch]
    rfl
  have coarse : ∀ y x fy fx, y < 8 → x < 8 → FieldAt (side 2 false) 2 (corner 2 2 1 false) 0 0 1 y x fy fx →
      (∀ gy gx, ¬ FieldAt (side 2 false) 2 (corner 2 2 0 false) 0 0 0 y x gy gx) → at' m' y x 0 = 200 := by
    intro y x fy fx hy hx hF hno
    rw [h5 y x 0 1 fy fx (ins y x hy hx) (by norm_num) rfl hF (by
      intro l hl _
      obtain rfl : l = 0 := by omega
      rintro ⟨gy, gx, h⟩
      exact hno gy gx h)]
    norm_num [shown, demoPatch]
    rfl
  refine ⟨m', by simpa using h1, ?_, ?_, ?_, ?_⟩
  · exact fine 1 1 0 0 (by norm_num) (by norm_num) (by norm_num [FieldAt, side, corner, halfPatch])
  · exact fine 4 4 1 1 (by norm_num) (by norm_num) (by norm_num [FieldAt, side, corner, halfPatch])
  · refine coarse 5 5 1 1 (by norm_num) (by norm_num) (by norm_num [FieldAt, side, corner, halfPatch]) ?_
    intro gy gx h
    norm_num [FieldAt, side, corner, halfPatch] at h
    omega
  · refine coarse 0 0 0 0 (by norm_num) (by norm_num) (by norm_num [FieldAt, side, corner, halfPatch]) ?_
    intro gy gx h
    norm_num [FieldAt, side, corner, halfPatch] at h

/-- Finding: the texture of the 3D view is one picture for all features and is not cleared; of a feature whose coarsest level is not valid the
rim shows the feature drawn before. -/
theorem C90_finding_texture : ∃ m1 m2, drawTexture 2 2 (texture 2 2) demoPatch = some m1 ∧
    drawTexture 2 2 m1 { demoPatch with isValidPatch := fun l => l == 0 } = some m2 ∧ at' m2 0 0 0 = 200 := by
  obtain ⟨m1, h1, h2⟩ := draw_shows (p := 2) (L := 2) (mp := demoPatch) (cx := 0) (cy := 0) (m := texture 2 2) ⟨1, rfl⟩ (Or.inl rfl)
    (by norm_num [texture, zeros]) (by norm_num [texture, zeros]) demoPatch_grey
  obtain ⟨m2, h3, h4⟩ := draw_shows (p := 2) (L := 2) (mp := { demoPatch with isValidPatch := fun l => l == 0 }) (cx := 0) (cy := 0) (m := m1)
    ⟨1, rfl⟩ (by rw [h2.ch]; exact Or.inl rfl) (by rw [h2.cols]; norm_num [texture, zeros]) (by rw [h2.rows]; norm_num [texture, zeros])
    (fun l hl _ => demoPatch_grey l hl rfl)
  refine ⟨m1, m2, h1, h3, ?_⟩
  have no0 : ¬ Covers 2 1 (inset 2 2 0) 0 0 0 0 0 := by
    rintro ⟨fy, fx, h⟩
    norm_num [FieldAt, inset] at h
  have e1 := h2.top 0 0 0 1 0 0 ⟨by norm_num [texture, zeros], by norm_num [texture, zeros], by norm_num [texture, zeros]⟩ (by norm_num) rfl
    (by norm_num [FieldAt, inset]) (by
      intro l hl _
      obtain rfl : l = 0 := by omega
      exact no0)
  have e2 := h4.rest 0 0 0 ⟨by rw [h2.rows]; norm_num [texture, zeros], by rw [h2.cols]; norm_num [texture, zeros],
    by rw [h2.ch]; norm_num [texture, zeros]⟩ (by
      intro l hl hv
      obtain rfl : l = 0 := by simpa using hv
      exact no0)
  rw [e2]
  rw [show ⌊(demoPatch.patches 1).patch (0 * 2 + 0)⌋ = 200 by norm_num [demoPatch]] at e1
  exact_mod_cast e1

end Rovio.Draw
