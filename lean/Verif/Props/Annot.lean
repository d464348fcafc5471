import Verif.Spec.Annot
import Verif.Props.Draw
import Verif.Model.ImgUpdate

/-!
# C115: what the debugging pictures say of a feature
-/

namespace Rovio.Annot

open Rovio.Draw Rovio.Draw.Spec Spec Stat

/-- C115, camera image: the outline is green exactly if the feature counts as tracked, and red otherwise, bright in the camera of the feature and dim in others.  A label is there
exactly if the feature is not tracked, and says why: "NIF" exactly if the update was accepted and the patch left the image, "MD" with the distance exactly if it
was an outlier, "INC" and "PE" for an iterated update that is not an outlier, "INC" exactly if it did not converge. -/
theorem C115_note (a : After) (inFrame own : Bool) (st : Status) (n : Note) (h : note a inFrame own = (st, n)) :
    (st = .tracked ∨ st = .failedTracking) ∧
    (st = .tracked → n.colour = green (if own then 255 else 150) ∧ n.label = none ∧ inFrame = true ∧ (a.iterated = true → a.successful = true) ∧ (a.iterated = false → a.outlier = false)) ∧
    (st ≠ .tracked → n.colour = red (if own then 255 else 150) ∧ ∃ l, n.label = some l ∧
      match l with
      | .notInFrame => inFrame = false ∧ (a.iterated = true → a.successful = true) ∧ (a.iterated = false → a.outlier = false)
      | .mahalanobis d => a.outlier = true ∧ d = a.mahal ∧ (a.iterated = true → a.successful = false)
      | .notConverged => a.iterated = true ∧ a.successful = false ∧ a.outlier = false ∧ a.converged = false
      | .pixelError => a.iterated = true ∧ a.successful = false ∧ a.outlier = false ∧ a.converged = true) := by
  obtain ⟨it, su, co, ou, d⟩ := a
  cases it <;> cases su <;> cases co <;> cases ou <;> cases inFrame <;> cases own <;>
    simp [note] at h <;> obtain ⟨rfl, rfl⟩ := h <;> simp [green, red]

/-- Finding: the label "PE", which stands for a large intensity error, is also given to a feature whose patch matches exactly, because the check that rejects the result has other
reasons as well: the patch left the image, or its surroundings look the same. -/
theorem C115_finding_label (d own : Bool) : ∃ (th dist gain : ℝ) (inFrame : V2 → Bool) (err : V2 → ℝ), 0 ≤ th ∧ (∀ o, inFrame o = d) ∧ (∀ o, err o = 0) ∧
    Img.extraOutlierCheck true th dist gain inFrame err = false ∧
    (note ⟨true, Img.extraOutlierCheck true th dist gain inFrame err, true, false, 0⟩ d own).2.label = some .pixelError := by
  have key : Img.extraOutlierCheck true 10 1 1 (fun _ => d) (fun _ => 0) = false := by
    cases d <;> norm_num [Img.extraOutlierCheck, Img.sampleAbove]
  exact ⟨10, 1, 1, fun _ => d, fun _ => 0, by norm_num, fun _ => rfl, fun _ => rfl, key, by rw [key]; cases d <;> cases own <;> rfl⟩

/-! ### The sheet -/

lemma at_rectangle {m : Canvas} {x0 y0 x1 y1 : ℤ} {c : Colour} {y x k : ℕ} (hi : Inside m y x k) :
    at' (rectangle m x0 y0 x1 y1 c) y x k =
      if x0 ≤ x ∧ (x : ℤ) ≤ x1 ∧ y0 ≤ y ∧ (y : ℤ) ≤ y1 ∧ ((x : ℤ) = x0 ∨ (x : ℤ) = x1 ∨ (y : ℤ) = y0 ∨ (y : ℤ) = y1) then
        (if k = 0 then c.c0 else if k = 1 then c.c1 else c.c2) else at' m y x k := by
  obtain ⟨h1, h2, h3⟩ := hi
  have e1 : ((y * m.cols + x) * m.ch + k) % m.ch = k := by rw [Nat.mul_comm, Nat.mul_add_mod, Nat.mod_eq_of_lt h3]
  have e2 : ((y * m.cols + x) * m.ch + k) / m.ch = y * m.cols + x := by
    rw [Nat.mul_comm, Nat.mul_add_div (by omega), Nat.div_eq_of_lt h3, Nat.add_zero]
  have e3 : (y * m.cols + x) % m.cols = x := by rw [Nat.mul_comm, Nat.mul_add_mod, Nat.mod_eq_of_lt h2]
  have e4 : (y * m.cols + x) / m.cols = y := by
    rw [Nat.mul_comm, Nat.mul_add_div (by omega), Nat.div_eq_of_lt h2, Nat.add_zero]
  simp only [at', rectangle, e1, e2, e3, e4, h1, true_and]

lemma onRim_iff {s id cam y x : ℕ} (hs : 0 < s) :
    (((2 + 2 * cam) * s : ℤ) ≤ x ∧ (x : ℤ) ≤ (3 + 2 * cam) * s - 1 ∧ (id * s : ℤ) ≤ y ∧ (y : ℤ) ≤ (id + 1) * s - 1 ∧
      ((x : ℤ) = (2 + 2 * cam) * s ∨ (x : ℤ) = (3 + 2 * cam) * s - 1 ∨ (y : ℤ) = id * s ∨ (y : ℤ) = (id + 1) * s - 1)) ↔ OnRim s id cam y x := by
  unfold OnRim
  have ex := Nat.div_add_mod x s
  have ey := Nat.div_add_mod y s
  have lx := Nat.mod_lt x hs
  have ly := Nat.mod_lt y hs
  constructor
  · rintro ⟨h1, h2, h3, h4, h5⟩
    have h1' : (2 + 2 * cam) * s ≤ x := by exact_mod_cast h1
    have h2' : x < (2 + 2 * cam + 1) * s := by zify; linarith
    have h3' : id * s ≤ y := by exact_mod_cast h3
    have h4' : y < (id + 1) * s := by zify; linarith
    have dx := div_cell h1' h2'
    have dy := div_cell h3' h4'
    refine ⟨dy, dx, ?_⟩
    rw [dx] at ex
    rw [dy] at ey
    zify at ex ey
    rcases h5 with h | h | h | h
    · right; right; left; zify; linarith
    · right; right; right
      have : ((x % s : ℕ) : ℤ) = s - 1 := by push_cast; linarith
      omega
    · left; zify; linarith
    · right; left
      have : ((y % s : ℕ) : ℤ) = s - 1 := by push_cast; linarith
      omega
  · rintro ⟨dy, dx, h⟩
    rw [dx] at ex
    rw [dy] at ey
    have ex' : (s : ℤ) * (2 + 2 * cam) + (x % s : ℕ) = x := by exact_mod_cast ex
    have ey' : (s : ℤ) * id + (y % s : ℕ) = y := by exact_mod_cast ey
    have lx' : ((x % s : ℕ) : ℤ) < s := by exact_mod_cast lx
    have ly' : ((y % s : ℕ) : ℤ) < s := by exact_mod_cast ly
    have px : (0 : ℤ) ≤ (x % s : ℕ) := by positivity
    have py : (0 : ℤ) ≤ (y % s : ℕ) := by positivity
    refine ⟨by linarith, by linarith, by linarith, by linarith, ?_⟩
    rcases h with h | h | h | h
    · right; right; left; rw [h] at ey'; push_cast at ey'; linarith
    · right; right; right
      have : ((y % s : ℕ) : ℤ) = s - 1 := by omega
      linarith
    · left; rw [h] at ex'; push_cast at ex'; linarith
    · right; left
      have : ((x % s : ℕ) : ℤ) = s - 1 := by omega
      linarith

lemma inside_congr {p L nMax nCam : ℕ} {m n : Canvas} (hm : IsSheet p L nMax nCam m) (hn : IsSheet p L nMax nCam n) {y x k : ℕ} (h : Inside m y x k) : Inside n y x k :=
  ⟨by rw [hn.1, ← hm.1]; exact h.1, by rw [hn.2.1, ← hm.2.1]; exact h.2.1, by rw [hn.2.2, ← hm.2.2]; exact h.2.2⟩

/-- Patches leave the rims alone. -/
lemma call_rim {p L nMax nCam : ℕ} (hp : Even p) {c : Call} (h : Admissible p L nMax nCam c) {m m' : Canvas} (hm : IsSheet p L nMax nCam m) (e : call p L m c = some m')
    {id cam y x k : ℕ} (hi : Inside m y x k) (hr : OnRim (drawPS p L) id cam y x) : at' m' y x k = at' m y x k := by
  by_cases hc : cellOf c = (y / drawPS p L, x / drawPS p L)
  · rw [hr.1, hr.2.1] at hc
    cases c with
    | reference i mp => simp [cellOf] at hc; omega
    | predicted i a mp => simp [cellOf] at hc; omega
    | updated i a mp =>
      simp only [cellOf, Prod.mk.injEq] at hc
      obtain ⟨rfl, h2⟩ := hc
      obtain rfl : a = cam := by omega
      have hps : drawPS p L = p * 2 ^ (L - 1) + 2 := rfl
      have b2 : (2 + 2 * a + 1) * drawPS p L ≤ (1 + 2 * nCam) * drawPS p L := Nat.mul_le_mul_right _ h.2.1
      have b1 : (i + 1) * drawPS p L ≤ nMax * drawPS p L := Nat.mul_le_mul_right _ h.1
      have mul1 : ∀ a : ℕ, (a + 1) * drawPS p L = a * drawPS p L + drawPS p L := fun a => by ring
      obtain ⟨o, f1, f2⟩ := draw_shows (mp := mp) (cx := drawPB + (2 + 2 * a) * drawPS p L) (cy := drawPB + i * drawPS p L) (m := m) hp (Or.inr hm.2.2)
        (by rw [hm.2.1]; rw [mul1] at b2; unfold drawPB; omega) (by rw [hm.1]; rw [mul1] at b1; unfold drawPB; omega) h.2.2
      have e' : o = m' := by
        simp only [call] at e
        push_cast at f1
        rw [f1, Option.some.injEq] at e
        exact e
      subst e'
      refine f2.rest y x k hi fun l hl _ hcov => ?_
      obtain ⟨a1, a2, a3, a4⟩ := covers_square hp hl hcov
      have ex := Nat.div_add_mod x (drawPS p L)
      have ey := Nat.div_add_mod y (drawPS p L)
      rw [hr.2.1, Nat.mul_comm] at ex
      rw [hr.1, Nat.mul_comm] at ey
      have := hr.2.2
      unfold drawPB at a1 a2 a3 a4
      omega
  · obtain ⟨m1, cx, cy, e1, -, e3, e4, e5, e6, e7⟩ := call_ok hp h hm
    rw [e1, Option.some.injEq] at e
    subst e
    exact call_outside hp e3 e4 e5 e6 e7 hm hi hc

/-- The drawings that an image update may make. -/
def Allowed (p L nMax nCam : ℕ) : Mark → Prop
  | .patch c => Admissible p L nMax nCam c
  | .frame id cam _ => id < nMax ∧ cam < nCam

/-- C115, sheet of patches: whatever patches and frames are drawn, in whatever order, for features and cameras that exist, the drawing is defined; the frame
around the patch of a feature in a camera has the colour of the last status drawn for them, green exactly if it was tracked; and apart from the frames the
sheet is what the patches alone make of it: frames and patches never cover each other. -/
theorem C115_sheet {p L nMax nCam : ℕ} (hp : Even p) (ms : List Mark) (h : ∀ a ∈ ms, Allowed p L nMax nCam a) :
    ∃ m own, marks p L (sheet p L nMax nCam) ms = some m ∧ calls p L (sheet p L nMax nCam) (ms.filterMap patchOf?) = some own ∧
      IsSheet p L nMax nCam m ∧ IsSheet p L nMax nCam own ∧
      (∀ y x k id cam, Inside m y x k → OnRim (drawPS p L) id cam y x → at' m y x k = rimByte (lastVerdict ms id cam) k) ∧
      (∀ y x k, Inside m y x k → (∀ id cam, ¬ OnRim (drawPS p L) id cam y x) → at' m y x k = at' own y x k) := by
  have hps : 0 < drawPS p L := by unfold drawPS drawPB; omega
  induction ms using List.reverseRecOn with
  | nil => exact ⟨_, _, rfl, rfl, ⟨rfl, rfl, rfl⟩, ⟨rfl, rfl, rfl⟩, fun y x k id cam _ _ => rfl, fun _ _ _ _ _ => rfl⟩
  | append_singleton ms a ih =>
    obtain ⟨m, own, e1, e2, i1, i2, hrim, hrest⟩ := ih (fun b hb => h b (by simp [hb]))
    have ha := h a (by simp)
    have hstep : ∀ m', mark p L m a = some m' → marks p L (sheet p L nMax nCam) (ms ++ [a]) = some m' := fun m' hm' => by
      unfold marks at e1 ⊢
      rw [List.foldlM_append, e1]
      simp [hm']
    cases a with
    | patch c =>
      obtain ⟨m', _, _, f1, f2, -⟩ := call_ok hp (c := c) ha i1
      obtain ⟨own', _, _, g1, g2, -⟩ := call_ok hp (c := c) ha i2
      refine ⟨m', own', hstep m' f1, ?_, f2, g2, fun y x k id cam hi hr => ?_, fun y x k hi hr => ?_⟩
      · unfold calls at e2 ⊢
        rw [List.filterMap_append, List.foldlM_append, e2]
        simp [patchOf?, g1]
      · rw [call_rim hp ha i1 f1 (inside_congr f2 i1 hi) hr, hrim y x k id cam (inside_congr f2 i1 hi) hr]
        simp [lastVerdict, verdictOf]
      · exact call_same hp ha i1 i2 f1 g1 (inside_congr f2 i1 hi) (hrest y x k (inside_congr f2 i1 hi) hr)
    | frame id' cam' st =>
      refine ⟨_, own, hstep _ rfl, ?_, i1, i2, fun y x k id cam hi hr => ?_, fun y x k hi hr => ?_⟩
      · rw [List.filterMap_append, show [Mark.frame id' cam' st].filterMap patchOf? = [] from rfl, List.append_nil]
        exact e2
      · have hi' : Inside m y x k := hi
        rw [at_rectangle hi']
        have hk : k < 3 := by have := hi'.2.2; rw [i1.2.2] at this; exact this
        by_cases hc : id' = id ∧ cam' = cam
        · obtain ⟨rfl, rfl⟩ := hc
          rw [if_pos ((onRim_iff hps).2 hr)]
          simp only [lastVerdict, List.filterMap_append, List.filterMap_cons, verdictOf, and_self, if_true, List.filterMap_nil, List.getLast?_append, List.getLast?_singleton, Option.some_or]
          have : k = 0 ∨ k = 1 ∨ k = 2 := by omega
          rcases this with rfl | rfl | rfl <;> cases st <;> rfl
        · rw [if_neg (fun hb => hc (by
            have := (onRim_iff hps).1 hb
            exact ⟨this.1.symm.trans hr.1, by have h1 := this.2.1; have h2 := hr.2.1; omega⟩)), hrim y x k id cam hi' hr]
          simp [lastVerdict, verdictOf, hc]
      · have hi' : Inside m y x k := hi
        rw [at_rectangle hi', if_neg (fun hb => hr id' cam' ((onRim_iff hps).1 hb))]
        exact hrest y x k hi' hr

/-- C115, together: after a visit, the frame in the sheet is green exactly if the feature counts as tracked, and then, by C115_note, so is the outline in the camera image. -/
theorem C115_agree {p L nMax nCam : ℕ} (hp : Even p) (ms : List Mark) (h : ∀ a ∈ ms, Allowed p L nMax nCam a) {id cam : ℕ} (hid : id < nMax) (hcam : cam < nCam)
    (patch : Option MLP) (hg : ∀ mp ∈ patch, Grey p L mp) (a : After) (inFrame own : Bool) :
    ∃ m, marks p L (sheet p L nMax nCam) (ms ++ visitMarks id cam patch (note a inFrame own).1) = some m ∧
      ∀ y x k, Inside m y x k → OnRim (drawPS p L) id cam y x →
        at' m y x k = if (note a inFrame own).1 = .tracked then (if k = 1 then 255 else 0) else (if k = 2 then 255 else 0) := by
  obtain ⟨m, -, h1, -, -, -, h2, -⟩ := C115_sheet (nMax := nMax) (nCam := nCam) hp (ms ++ visitMarks id cam patch (note a inFrame own).1) (fun b hb => by
    rcases List.mem_append.1 hb with hb | hb
    · exact h b hb
    · simp only [visitMarks, List.mem_append, List.mem_map, Option.mem_toList, List.mem_singleton] at hb
      rcases hb with ⟨mp, hmp, rfl⟩ | rfl
      · exact ⟨hid, by simp only [cellOf]; omega, hg mp hmp⟩
      · exact ⟨hid, hcam⟩)
  refine ⟨m, h1, fun y x k hi hr => ?_⟩
  rw [h2 y x k id cam hi hr]
  have : lastVerdict (ms ++ visitMarks id cam patch (note a inFrame own).1) id cam = some (note a inFrame own).1 := by
    simp [lastVerdict, visitMarks, verdictOf]
  rw [this]
  cases (note a inFrame own).1 <;> simp [rimByte]

/-! ## Non-vacuity -/

/-- The iterated update of a feature of another camera converges to an outlier. -/
example : note ⟨true, false, true, true, 9⟩ true false = (.failedTracking, ⟨red 150, some (.mahalanobis 9)⟩) := rfl

/-- Two features, two cameras: the frame of the second feature in the second camera turns from red to green, its corner pixel is at (4,24), its middle is not on the rim. -/
example : (∀ a ∈ [Mark.patch (.reference 0 demoPatch), .frame 1 1 .failedTracking, .patch (.updated 1 1 demoPatch), .frame 0 1 .failedTracking, .frame 1 1 .tracked], Allowed 2 2 2 2 a) ∧
    OnRim (drawPS 2 2) 1 1 6 24 ∧ ¬ OnRim (drawPS 2 2) 1 1 8 26 ∧ lastVerdict [Mark.frame 1 1 .failedTracking, .frame 0 1 .failedTracking, .frame 1 1 .tracked] 1 1 = some .tracked := by
  refine ⟨fun a ha => ?_, by norm_num [OnRim, drawPS, drawPB], by norm_num [OnRim, drawPS, drawPB], by simp [lastVerdict, verdictOf]⟩
  simp only [List.mem_cons, List.not_mem_nil, or_false] at ha
  rcases ha with rfl | rfl | rfl | rfl | rfl
  · exact ⟨by norm_num [cellOf], by norm_num [cellOf], demoPatch_grey⟩
  · exact ⟨by norm_num, by norm_num⟩
  · exact ⟨by norm_num [cellOf], by norm_num [cellOf], demoPatch_grey⟩
  · exact ⟨by norm_num, by norm_num⟩
  · exact ⟨by norm_num, by norm_num⟩

end Rovio.Annot
