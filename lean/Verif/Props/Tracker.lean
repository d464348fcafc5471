import Verif.Lemmas.Tracker

/-!
# C84: the feature tracker node
-/

namespace Rovio.Tracker

open Align Stat

variable {n : ℕ}

/-! ### Specification -/

/-- A feature between two images: it has a pixel and no warp, its remembered previous pixel is the present one and it is marked
tracked. -/
structure Tracking (x : TSlot) : Prop where
  plain : x.sl.coord.Plain
  prevPixel : x.prev.validC = true
  prev : x.prev.c = x.sl.coord.c
  status : x.stat.status 0 = .tracked

/-- The node between two images. -/
structure Inv (s : TSt n) : Prop where
  noWarp : ∀ i, (s.slots i).sl.coord.trackWarping = false
  tracking : ∀ i, (s.slots i).sl.valid = true → Tracking (s.slots i)
  ids : ∀ i, (s.slots i).sl.valid = true → 0 ≤ (s.slots i).sl.idx ∧ (s.slots i).sl.idx < s.maxIdx
  distinct : ∀ i j, (s.slots i).sl.valid = true → (s.slots j).sl.valid = true → (s.slots i).sl.idx = (s.slots j).sl.idx → i = j

/-- An image whose sides fit an `int`. -/
def Frame.Sane (f : Frame) : Prop := f.img.cols ≤ 2147483647 ∧ f.img.rows ≤ 2147483647

/-- The alignment of a feature's patch in the new image, started **at the feature's last pixel**. -/
noncomputable def search (env : Env) (pyr : List Level) (x : TSlot) : Option Out :=
  align2DComposed 8 env.cfg env.junk env.ex env.solve pyr x.sl.patch (x.sl.coord.setC x.sl.coord.c true) 3 1 1

/-- What becomes of a feature found at pixel `q`: it keeps its identifier, moves there, its statistics count one more image, and its
patch is taken anew at `q` if it lies in the image with border, otherwise kept. -/
structure Kept (env : Env) (pyr : List Level) (time : ℝ) (x x' : TSlot) (q : V2) : Prop where
  valid : x'.sl.valid = true
  idx : x'.sl.idx = x.sl.idx
  pixel : x'.sl.coord.c = q
  stat : x'.stat = { increaseStatistics x.stat time with status := fun _ => .tracked }
  patch : ∃ b, MLP.isMultilevelPatchInFrame 8 env.junk pyr x'.sl.coord 3 true = some (x'.sl.coord, b) ∧
    (b = true → MLP.extractMultilevelPatchFromImage 8 env.junk x.sl.patch pyr x'.sl.coord 3 true = some (x'.sl.coord, x'.sl.patch)) ∧
    (b = false → x'.sl.patch = x.sl.patch)

/-- What a newly added feature is: a detected corner whose patch lies in the image with border and has a positive score; the
feature carries that patch. -/
structure New (env : Env) (pyr : List Level) (cands : List FC) (x' : TSlot) : Prop where
  corner : ∃ c ∈ cands, x'.sl.coord.c = c.c ∧ ∃ m, MLP.extractMultilevelPatchFromImage 8 env.junk env.mjunk.reset pyr c 3 true = some (c, m) ∧
    x'.sl.patch = m.computeMultilevelShiTomasiScore 8 1 3
  score : 0 < x'.sl.patch.s
  inFrame : MLP.isMultilevelPatchInFrame 8 env.junk pyr x'.sl.coord 3 true = some (x'.sl.coord, true)

/-- The candidates `cs` are the corners reported on pyramid level `l` (all of them, if inside that level's image), one each, in order:
taken back to level `l` a candidate is the corner. -/
def CornersOf (env : Env) (pyr : List Level) (l : ℕ) (corners : List V2) (cs : List FC) : Prop :=
  ∃ a, pyr[l]? = some a ∧ ((∀ pt ∈ corners, 0 ≤ pt.x ∧ pt.x < a.img.cols ∧ 0 ≤ pt.y ∧ pt.y < a.img.rows) →
    List.Forall₂ (fun (pt : V2) (o : FC) => ∃ o' back, levelTransform env.junk pyr o 0 l = some (o', back) ∧ back.c = pt) corners cs)

/-- The candidates of an image: the corners of levels 1, 2 and 3. -/
def Detected (env : Env) (pyr : List Level) (corners : ℕ → List V2) (cands : List FC) : Prop :=
  ∃ c1 c2 c3, cands = c1 ++ c2 ++ c3 ∧ CornersOf env pyr 1 (corners 1) c1 ∧ CornersOf env pyr 2 (corners 2) c2 ∧ CornersOf env pyr 3 (corners 3) c3

/-! ### One slot -/

lemma predict_eq (env : Env) {pyr : List Level} {a b : Level} (ha : pyr[0]? = some a) (hb : pyr[3]? = some b) (time : ℝ) {x : TSlot} (h : Tracking x)
    (ht : x.sl.coord.trackWarping = false) :
    predictSlot env pyr time x = some { sl := { x.sl with coord := x.sl.coord.setC x.sl.coord.c true }, prev := x.sl.coord,
                                        stat := { increaseStatistics x.stat time with status := fun _ => .unknown } } := by
  have hp : x.prev.getC = some (x.prev, x.prev.c) := by simp [FC.getC, FC.comC, h.prevPixel]
  have hz : x.sl.coord.c + (0.75 : ℝ) • (x.sl.coord.c - x.sl.coord.c) = x.sl.coord.c := by
    ext <;> simp
  have hP := h.plain.setC ht x.sl.coord.c true
  have hin := inFrame_plain (p := patchSize) (junk := env.junk) ha (show pyr[nLevels - 1]? = some b from hb) hP.1 false
  unfold predictSlot
  simp only [h.plain.getC, hp, h.prev, hz, Option.bind_eq_bind, Option.bind_some, Option.pure_def, hin]
  congr 2
  have : (x.sl.coord.setC x.sl.coord.c true).setC x.sl.coord.c true = x.sl.coord.setC x.sl.coord.c true := by simp [FC.setC, ht]
  simp [this]

lemma slot_spec (env : Env) {f : Frame} (hf : f.Sane) {pyr : List Level} (hpyr : computeFromImage 4 f.img (some f.down) = some pyr) {x : TSlot} (h : Tracking x)
    (ht : x.sl.coord.trackWarping = false) :
    ∃ o x1 x2, search env pyr x = some o ∧ predictSlot env pyr f.time x = some x1 ∧ x1.sl.valid = x.sl.valid ∧ trackSlot env pyr x1 = some x2 ∧
      x2.sl.valid = x.sl.valid ∧ x2.sl.idx = x.sl.idx ∧ x2.sl.coord.trackWarping = false ∧
      x2.stat = { increaseStatistics x.stat f.time with status := fun _ => if o.ok then .tracked else .failedAlignment } ∧
      (o.ok = true → ∃ x4, extractSlot env pyr x2 = some x4 ∧ x4.sl.valid = x.sl.valid ∧ (x.sl.valid = true → Kept env pyr f.time x x4 o.c.c ∧ Tracking x4) ∧
        x4.sl.idx = x.sl.idx ∧ x4.sl.coord.trackWarping = false) := by
  obtain ⟨a, ha, _⟩ := pyr_size hpyr 0 (by omega)
  obtain ⟨b, hb, _⟩ := pyr_size hpyr 3 (by omega)
  have hlen := (levelsFrom_spec _ _ _ _ _ hpyr).1
  have hsz : ∀ lvl ∈ pyr, lvl.img.cols ≤ 2147483647 ∧ lvl.img.rows ≤ 2147483647 := by
    intro lvl hl
    obtain ⟨k, hk, rfl⟩ := List.mem_iff_getElem.mp hl
    obtain ⟨c, hc, h1, h2⟩ := pyr_size hpyr k (by omega)
    rw [List.getElem?_eq_getElem hk] at hc
    simp only [Option.some.injEq] at hc
    rw [hc, h1, h2]
    exact ⟨(Nat.div_le_self _ _).trans hf.1, (Nat.div_le_self _ _).trans hf.2⟩
  obtain ⟨o, ho, hog⟩ := align_plain (p := 8) (by norm_num) (cfg := env.cfg) (junk := env.junk) (ex := env.ex) (solve := env.solve) (mp := x.sl.patch) (lo := 1)
    (hi := 3) h.plain ht x.sl.coord.c (by omega) hsz
  have hP := h.plain.setC ht x.sl.coord.c true
  have hpe := predict_eq env ha hb f.time h ht
  have hsame : ∀ q, (x.sl.coord.setC x.sl.coord.c true).setC q true = x.sl.coord.setC q true := by intro q; simp [FC.setC, ht]
  cases hok : o.ok with
  | false =>
    refine ⟨o, _, { sl := { x.sl with coord := x.sl.coord.setC x.sl.coord.c true }, prev := x.sl.coord, stat := { increaseStatistics x.stat f.time with status := Function.update (fun _ => .unknown) 0 .failedAlignment } },
      ho, hpe, rfl, ?_, rfl, rfl, hP.2.2, ?_, fun h => by simp [hok] at h⟩
    · unfold trackSlot patchSize l2 l1
      simp only [ho, Option.bind_eq_bind, Option.bind_some, hok, Bool.false_eq_true, if_false]
      rfl
    · simp only [hok, Bool.false_eq_true, if_false]
      congr 1
      funext i
      fin_cases i
      simp
  | true =>
    have hQ := h.plain.setC ht o.c.c true
    have hin := inFrame_plain (p := 8) (junk := env.junk) ha hb hQ.1 true
    refine ⟨o, _, { sl := { x.sl with coord := x.sl.coord.setC o.c.c true }, prev := x.sl.coord.setC o.c.c true, stat := { increaseStatistics x.stat f.time with status := Function.update (fun _ => .unknown) 0 .tracked } },
      ho, hpe, rfl, ?_, rfl, rfl, ?_, ?_, fun _ => ?_⟩
    · unfold trackSlot patchSize l2 l1
      simp only [ho, Option.bind_eq_bind, Option.bind_some, hok, if_true, hog, hsame]
      rfl
    · exact hQ.2.2
    · simp only [hok, if_true]
      congr 1
      funext i
      fin_cases i
      simp
    · unfold extractSlot patchSize nLevels
      simp only [Function.update_self, if_true, hin, Option.bind_eq_bind, Option.bind_some, Option.pure_def]
      have hu : Function.update (fun _ : Fin 1 => Status.unknown) 0 Status.tracked = fun _ => .tracked := by
        funext i
        fin_cases i
        simp
      rw [hu]
      by_cases hd : (open Classical in decide (Patch.PlainIn b.img (levelPixel a.center b.center 0 3 (x.sl.coord.setC o.c.c true).c) (halfPatch 8 true))) = true
      · rw [hd] at hin
        obtain ⟨⟨m, hm, _⟩, _⟩ := C25_coarsest_decides (by norm_num) hpyr hf.1 hf.2 hin (Or.inr (Or.inr (Or.inr hQ.1.near))) x.sl.patch
        simp only [hd, if_true, hm, Option.bind_some]
        refine ⟨_, rfl, rfl, fun hv => ⟨⟨hv, rfl, hQ.2.1, rfl, true, hin, fun _ => hm, fun h => by simp at h⟩, ⟨hQ.1, hQ.1.pixel, rfl, rfl⟩⟩, rfl, hQ.2.2⟩
      · simp only [hd, Bool.false_eq_true, if_false]
        have hd : (open Classical in decide (Patch.PlainIn b.img (levelPixel a.center b.center 0 3 (x.sl.coord.setC o.c.c true).c) (halfPatch 8 true))) = false := by simpa using hd
        rw [hd] at hin
        refine ⟨_, rfl, rfl, fun hv => ⟨⟨hv, rfl, hQ.2.1, rfl, false, hin, fun h => by simp at h, fun _ => rfl⟩, ⟨hQ.1, hQ.1.pixel, rfl, rfl⟩⟩, rfl, hQ.2.2⟩

/-! ### Adding features -/

lemma mapM_list {α β : Type} (f : α → Option β) (l : List α) (h : ∀ x ∈ l, ∃ y, f x = some y) :
    ∃ r, l.mapM f = some r ∧ r.length = l.length ∧ ∀ (k : ℕ) x, l[k]? = some x → ∃ y, r[k]? = some y ∧ f x = some y := by
  induction l with
  | nil => exact ⟨[], by simp, rfl, by simp⟩
  | cons a l ih =>
    obtain ⟨y, hy⟩ := h a (by simp)
    obtain ⟨r, h1, h2, h3⟩ := ih (fun x hx => h x (by simp [hx]))
    refine ⟨y :: r, by rw [List.mapM_cons, hy, h1]; rfl, by simp [h2], ?_⟩
    intro k x hk
    cases k with
    | zero => simp at hk; subst hk; exact ⟨y, by simp, hy⟩
    | succ k => simp at hk; simpa using h3 k x hk

lemma detect_plain (env : Env) {pyr : List Level} {f : Frame} (hpyr : computeFromImage 4 f.img (some f.down) = some pyr) (corners : ℕ → List V2) :
    ∃ cands, detect env pyr corners = some cands ∧ ∀ c ∈ cands, FC.Plain c := by
  obtain ⟨a, ha, _⟩ := pyr_size hpyr 0 (by omega)
  unfold detect
  have : ∀ ls : List ℕ, (∀ l ∈ ls, l < 4) → ∀ cs : List FC, (∀ c ∈ cs, FC.Plain c) →
      ∃ cands, ls.foldlM (fun cands l => detectFastCorners env.junk pyr cands l (corners l) maxDouble) cs = some cands ∧ ∀ c ∈ cands, FC.Plain c := by
    intro ls
    induction ls with
    | nil => intro _ cs hcs; exact ⟨cs, rfl, hcs⟩
    | cons l ls ih =>
      intro hl cs hcs
      obtain ⟨b, hb, _⟩ := pyr_size hpyr l (hl l (by simp))
      obtain ⟨new, h1, h2⟩ := detect_one (junk := env.junk) ha hb cs (corners l) maxDouble
      obtain ⟨cands, h3, h4⟩ := ih (fun k hk => hl k (by simp [hk])) (cs ++ new) (by
        intro c hc
        rcases List.mem_append.mp hc with h | h
        · exact hcs c h
        · exact h2 c h)
      exact ⟨cands, by rw [List.foldlM_cons, h1]; exact h3, h4⟩
  exact this _ (by intro l hl; simp [l1, l2, List.mem_range'_1] at hl; omega) [] (by simp)

lemma detected_one (env : Env) {pyr : List Level} {f : Frame} (hf : f.Sane) (hpyr : computeFromImage 4 f.img (some f.down) = some pyr) {l : ℕ} (hl : l < 4) (cs : List FC)
    (corners : List V2) : ∃ new, detectFastCorners env.junk pyr cs l corners maxDouble = some (cs ++ new) ∧ CornersOf env pyr l corners new := by
  obtain ⟨a, new, ha, h1, h2⟩ := C64_corners hpyr hl env.junk cs corners maxDouble
  refine ⟨new, h1, a, ha, fun hin => ?_⟩
  have : corners.filter (fun pt => decide ((pt.x - (a.img.cols : ℝ) / 2) ^ 2 + (pt.y - (a.img.rows : ℝ) / 2) ^ 2 ≤ (maxDouble * min (a.img.cols : ℝ) a.img.rows) ^ 2)) = corners := by
    rw [List.filter_eq_self]
    intro pt hpt
    obtain ⟨x0, x1, y0, y1⟩ := hin pt hpt
    obtain ⟨b, hb, hr, hc⟩ := pyr_size hpyr l hl
    rw [ha] at hb
    simp only [Option.some.injEq] at hb
    subst hb
    have hC : (a.img.cols : ℝ) ≤ 2147483647 := by
      have : a.img.cols ≤ 2147483647 := by rw [hc]; exact (Nat.div_le_self _ _).trans hf.1
      exact_mod_cast this
    have hR : (a.img.rows : ℝ) ≤ 2147483647 := by
      have : a.img.rows ≤ 2147483647 := by rw [hr]; exact (Nat.div_le_self _ _).trans hf.2
      exact_mod_cast this
    have c1 : (1:ℝ) ≤ a.img.cols := by
      have : (0:ℝ) < a.img.cols := lt_of_le_of_lt x0 x1
      exact_mod_cast Nat.one_le_iff_ne_zero.mpr (by rintro h; rw [h] at this; simp at this)
    have r1 : (1:ℝ) ≤ a.img.rows := by
      have : (0:ℝ) < a.img.rows := lt_of_le_of_lt y0 y1
      exact_mod_cast Nat.one_le_iff_ne_zero.mpr (by rintro h; rw [h] at this; simp at this)
    have hM : (4294967296 : ℝ) ≤ maxDouble := by
      unfold maxDouble
      have h1 : (2:ℝ) ^ 1023 ≥ 2 ^ 32 := pow_le_pow_right₀ (by norm_num) (by norm_num)
      have h2 : (1:ℝ) ≤ 2 - 2⁻¹ ^ 52 := by norm_num
      calc (4294967296:ℝ) = 1 * 2 ^ 32 := by norm_num
        _ ≤ _ := mul_le_mul h2 h1 (by positivity) (by linarith)
    have hm : (1:ℝ) ≤ min (a.img.cols : ℝ) a.img.rows := le_min c1 r1
    have hM2 : (4294967296 : ℝ) ≤ maxDouble * min (a.img.cols : ℝ) a.img.rows := by
      calc (4294967296:ℝ) ≤ maxDouble := hM
        _ = maxDouble * 1 := (mul_one _).symm
        _ ≤ _ := mul_le_mul_of_nonneg_left hm (by linarith)
    have hsq : (4294967296 : ℝ) ^ 2 ≤ (maxDouble * min (a.img.cols : ℝ) a.img.rows) ^ 2 := pow_le_pow_left₀ (by norm_num) hM2 2
    rw [decide_eq_true_eq]
    have e1 : (pt.x - (a.img.cols : ℝ) / 2) ^ 2 ≤ 2147483647 ^ 2 := by
      rw [sq_le_sq, abs_of_nonneg (by norm_num : (0:ℝ) ≤ 2147483647), abs_le]; constructor <;> linarith
    have e2 : (pt.y - (a.img.rows : ℝ) / 2) ^ 2 ≤ 2147483647 ^ 2 := by
      rw [sq_le_sq, abs_of_nonneg (by norm_num : (0:ℝ) ≤ 2147483647), abs_le]; constructor <;> linarith
    refine le_trans (add_le_add e1 e2) (le_trans ?_ hsq)
    norm_num
  rw [this] at h2
  exact h2

lemma detect_detected (env : Env) {pyr : List Level} {f : Frame} (hf : f.Sane) (hpyr : computeFromImage 4 f.img (some f.down) = some pyr) {corners : ℕ → List V2} {cands : List FC}
    (h : detect env pyr corners = some cands) : Detected env pyr corners cands := by
  obtain ⟨c1, e1, h1⟩ := detected_one env hf hpyr (l := 1) (by omega) [] (corners 1)
  obtain ⟨c2, e2, h2⟩ := detected_one env hf hpyr (l := 2) (by omega) ([] ++ c1) (corners 2)
  obtain ⟨c3, e3, h3⟩ := detected_one env hf hpyr (l := 3) (by omega) ([] ++ c1 ++ c2) (corners 3)
  have : detect env pyr corners = some ([] ++ c1 ++ c2 ++ c3) := by
    have hr : List.range' l1 (l2 + 1 - l1) = [1, 2, 3] := rfl
    unfold detect
    rw [hr, List.foldlM_cons, e1, Option.bind_eq_bind, Option.bind_some, List.foldlM_cons, e2, Option.bind_eq_bind, Option.bind_some, List.foldlM_cons, e3]
    rfl
  rw [this] at h
  simp only [List.nil_append, Option.some.injEq] at h
  exact ⟨c1, c2, c3, h.symm, h1, h2, h3⟩

/-- A candidate that qualifies: its patch lies in the image with border and has a positive score. -/
def Qualifies (env : Env) (pyr : List Level) (c : FC) : Prop := ∃ m, MLP.candidate 8 env.junk env.mjunk pyr c 1 3 = some (m, true) ∧ 0 < m.s

lemma addArgs_sane (env : Env) (cands : List FC) (evals : List (MLP × Bool)) : (addArgs env cands evals).Sane where
  nb_pos := by simp [addArgs]
  nb_le := by simp [addArgs]
  z_nonneg := by simp [addArgs]; norm_num
  z_le := by simp [addArgs]; norm_num
  exp_nonneg := by simp [addArgs]; norm_num

open Classical in
lemma addFeatures_spec {I : USet} (hI : I.Lawful) (env : Env) {f : Frame} (hf : f.Sane) {pyr : List Level} (hpyr : computeFromImage 4 f.img (some f.down) = some pyr)
    (s : TSt n) (hnw : ∀ i, (s.slots i).sl.coord.trackWarping = false) :
    ∃ (s' : TSt n) (ids : Finset (Fin n)) (cands : List FC), addFeatures I env pyr f.corners s = some s' ∧ detect env pyr f.corners = some cands ∧
      s'.maxIdx = s.maxIdx + ids.card ∧ (∀ i, i ∉ ids → s'.slots i = s.slots i) ∧
      (∀ i ∈ ids, (s.slots i).sl.valid = false ∧ (s'.slots i).sl.valid = true ∧ Tracking (s'.slots i) ∧ New env pyr cands (s'.slots i) ∧
        (s.maxIdx : ℤ) ≤ (s'.slots i).sl.idx ∧ (s'.slots i).sl.idx < s'.maxIdx ∧ (s'.slots i).sl.coord.trackWarping = false ∧
        (s'.slots i).stat = { (s.slots i).stat with status := fun _ => Status.tracked }) ∧
      (∀ i ∈ ids, ∀ j ∈ ids, (s'.slots i).sl.idx = (s'.slots j).sl.idx → i = j) ∧
      (50 ≤ s.fsm.getValidCount → ids = ∅) ∧
      (s.fsm.getValidCount < 50 → ids.card = min (min 20 (n - s.fsm.getValidCount))
        ((Finset.range cands.length).filter fun k => ∃ c, cands[k]? = some c ∧ Qualifies env pyr c).card) := by
  obtain ⟨cands, hcd, hcp⟩ := detect_plain env hpyr f.corners
  by_cases hcount : s.fsm.getValidCount < 50
  · have hev := mapM_list (fun c => MLP.candidate patchSize env.junk env.mjunk pyr c l1 l2) cands (fun c hc => by
      obtain ⟨r, h, _⟩ := candidate_plain (p := 8) (by norm_num) hpyr hf.1 hf.2 (junk := env.junk) env.mjunk (lo := 1) (hi := 3) (by omega) (hcp c hc)
      exact ⟨r, h⟩)
    obtain ⟨evals, he1, he2, he3⟩ := hev
    set A := addArgs env cands evals with hA
    have hsane : A.Sane := addArgs_sane env cands evals
    -- what candidate number `k` is
    have hk : ∀ k, k < cands.length → ∃ c ev, cands[k]? = some c ∧ evals[k]? = some ev ∧ MLP.candidate 8 env.junk env.mjunk pyr c 1 3 = some ev ∧
        A.cand k = c.c ∧ A.inFrame k = ev.2 ∧ A.shi k = ev.1.s ∧ A.patch k = ev.1 := by
      intro k hk
      have e : cands[k]? = some cands[k] := List.getElem?_eq_getElem hk
      obtain ⟨ev, h1, h2⟩ := he3 k _ e
      refine ⟨_, ev, e, h1, h2, ?_, ?_, ?_, ?_⟩ <;> simp [hA, addArgs, List.getD, e, h1]
    have hscore : ∀ k, k < cands.length → (A.minScore < A.score k ↔ ∃ c, cands[k]? = some c ∧ Qualifies env pyr c) := by
      intro k hlt
      obtain ⟨c, ev, h1, h2, h3, h4, h5, h6, h7⟩ := hk k hlt
      have hmin : A.minScore = 0 := by simp [hA, addArgs]; norm_num
      constructor
      · intro h
        refine ⟨c, h1, ev.1, ?_, ?_⟩
        · unfold AddArgs.score at h
          rw [h5] at h
          cases hb : ev.2 with
          | true => rw [h3, ← hb]
          | false => rw [hb, hmin] at h; simp at h; linarith
        · unfold AddArgs.score at h
          rw [h5, h6, hmin] at h
          split at h
          · exact h
          · linarith
      · rintro ⟨c', hc', m, hm1, hm2⟩
        rw [h1] at hc'
        simp only [Option.some.injEq] at hc'
        subst hc'
        rw [h3] at hm1
        simp only [Option.some.injEq] at hm1
        unfold AddArgs.score
        rw [h5, h6, hmin, hm1]
        simpa using hm2
    have hset : ((Finset.range A.nc).filter fun x => A.minScore < A.score x) = (Finset.range cands.length).filter fun k => ∃ c, cands[k]? = some c ∧ Qualifies env pyr c := by
      ext k
      have hnc : A.nc = cands.length := by simp [hA, addArgs]
      simp only [Finset.mem_filter, Finset.mem_range, hnc]
      constructor
      · rintro ⟨h1, h2⟩; exact ⟨h1, (hscore k h1).mp h2⟩
      · rintro ⟨h1, h2⟩; exact ⟨h1, (hscore k h1).mpr h2⟩
    have key : ∃ (t : FeatSet MLP n) (ids : Finset (Fin n)), A.addBestCandidates I s.fsm = some (t, ids) ∧ t.maxIdx = s.maxIdx + ids.card ∧
        (∀ i ∈ ids, ∃ k x, t.slots i = A.writeFeature { s.fsm.slots i with idx := (s.maxIdx + k : ℕ), valid := true } x ∧ k < ids.card ∧ x < cands.length ∧ A.minScore < A.score x) ∧
        (∀ i ∈ ids, ∀ j ∈ ids, (t.slots i).idx = (t.slots j).idx → i = j) ∧
        ids.card = min (min 20 (n - s.fsm.getValidCount)) ((Finset.range A.nc).filter fun x => A.minScore < A.score x).card := by
      by_cases hm : A.minScore < A.maxScore
      · obtain ⟨picks, ss, t, h1, h2, h3⟩ := AddArgs.addBestCandidates_spec hI hsane s.fsm hm
        obtain ⟨f1, f2, f3⟩ := h3.free
        have hcard : ss.toFinset.card = ss.length := List.toFinset_card_of_nodup f2
        have hslot : ∀ i ∈ ss, ∃ k x, picks[k]? = some x ∧ ss[k]? = some i ∧ t.slots i = A.writeFeature { s.fsm.slots i with idx := (s.maxIdx + k : ℕ), valid := true } x := by
          intro i hi
          obtain ⟨k, x, hx, hk⟩ := h3.index hi
          exact ⟨k, x, hx, hk, h3.slot k x i hx hk⟩
        refine ⟨t, ss.toFinset, h1, ?_, ?_, ?_, ?_⟩
        · rw [hcard, h3.maxIdx, h3.length]; rfl
        · intro i hi
          obtain ⟨k, x, hx, hki, hs⟩ := hslot i (by simpa using hi)
          have hs' := (AddArgs.greedy_mem h2).2 x (List.mem_of_getElem? hx)
          rw [AddArgs.demoteAll_isSome, AddArgs.initRanks_isSome hm] at hs'
          refine ⟨k, x, hs, ?_, hs'.1, hs'.2⟩
          rw [hcard]
          exact (List.getElem?_eq_some_iff.mp hki).1
        · intro i hi j hj hij
          obtain ⟨k, x, _, hk1, e1⟩ := hslot i (by simpa using hi)
          obtain ⟨k', x', _, hk2, e2⟩ := hslot j (by simpa using hj)
          rw [e1, e2] at hij
          simp only [AddArgs.writeFeature] at hij
          have : k = k' := by omega
          subst this
          rw [hk1] at hk2
          simpa using hk2
        · exact AddArgs.C17_requireMax A I hI hsane _ _ _ h1 (by simp [hA, addArgs]) hm
      · refine ⟨s.fsm, ∅, ?_, by simp [TSt.fsm], by simp, by simp, ?_⟩
        · unfold AddArgs.addBestCandidates
          rw [if_pos (not_lt.mp hm)]
        · have : ((Finset.range A.nc).filter fun x => A.minScore < A.score x) = ∅ := by
            rw [Finset.filter_eq_empty_iff]
            intro x hx hlt
            exact hm (lt_of_lt_of_le hlt (AddArgs.score_le_maxScore (by simpa using hx)))
          rw [this]; simp
    obtain ⟨t, ids, k1, k2, k3, k4, k5⟩ := key
    obtain ⟨c1, c2, c3, c4, _⟩ := AddArgs.C17_effect A I hI hsane _ _ _ k1
    refine ⟨⟨fun i => if i ∈ ids then { sl := t.slots i, prev := (t.slots i).coord, stat := { (s.slots i).stat with status := fun _ => .tracked } } else { s.slots i with sl := t.slots i }, t.maxIdx⟩, ids, cands, ?_, hcd, ?_, ?_, ?_, ?_, ?_, ?_⟩
    · unfold addFeatures
      rw [if_pos (show s.fsm.getValidCount < minFeatureCount from hcount)]
      simp only [hcd, he1, Option.bind_eq_bind, Option.bind_some, Option.pure_def]
      rw [← hA, k1]
      rfl
    · exact k2
    · intro i hi
      simp only [hi, if_false]
      rw [c2 i hi]
      rfl
    · intro i hi
      obtain ⟨k, x, e, hkc, hx, hs⟩ := k3 i hi
      obtain ⟨c, ev, h1, h2, h3, h4, h5, h6, h7⟩ := hk x hx
      obtain ⟨c', hc', m, hm1, hm2⟩ := (hscore x hx).mp hs
      rw [h1] at hc'
      simp only [Option.some.injEq] at hc'
      subst hc'
      rw [h3] at hm1
      simp only [Option.some.injEq] at hm1
      have hcpl := hcp c (List.mem_of_getElem? h1)
      obtain ⟨r, hr1, hr2, hr3⟩ := candidate_plain (p := 8) (by norm_num) hpyr hf.1 hf.2 (junk := env.junk) env.mjunk (lo := 1) (hi := 3) (by omega) hcpl
      rw [h3] at hr1
      simp only [Option.some.injEq] at hr1
      subst hr1
      have hev2 : ev.2 = true := by rw [hm1]
      obtain ⟨m', hm', hme⟩ := hr3 hev2
      have hv := (c1 i).mp hi
      have hnwi := hnw i
      have hco : (t.slots i).coord.Plain ∧ (t.slots i).coord.c = c.c ∧ (t.slots i).coord.trackWarping = false ∧ (t.slots i).patch = ev.1 ∧ (t.slots i).idx = (s.maxIdx + k : ℕ) := by
        rw [e]
        refine ⟨⟨?_, ?_, ?_⟩, ?_, ?_, ?_, ?_⟩ <;> simp [AddArgs.writeFeature, FC.setC, FC.setWarpIdentity, TSt.fsm, hnwi, h4, h7]
      obtain ⟨g1, g2, g3, g4, g5⟩ := hco
      dsimp only
      rw [if_pos hi]
      refine ⟨hv.1, hv.2, ⟨g1, g1.pixel, rfl, rfl⟩, ⟨⟨c, List.mem_of_getElem? h1, g2, m', hm', by rw [g4, hme]⟩, ?_, ?_⟩, ?_, ?_, g3, rfl⟩
      · simp only [g4, hm1]; exact hm2
      · obtain ⟨a, ha, _⟩ := pyr_size hpyr 0 (by omega)
        obtain ⟨b, hb, _⟩ := pyr_size hpyr 3 (by omega)
        rw [inFrame_plain ha hb g1 true]
        rw [inFrame_plain ha hb hcpl true, hev2] at hr2
        simp only [Option.some.injEq, Prod.mk.injEq, true_and] at hr2
        simp only [g2, hr2]
      · rw [g5]; push_cast; omega
      · rw [g5, k2]; push_cast; omega
    · intro i hi j hj hij
      simp only [hi, hj, if_true] at hij
      exact k4 i hi j hj hij
    · intro h; omega
    · intro _; rw [k5, hset]
  · refine ⟨s, ∅, cands, ?_, hcd, by simp, by simp, by simp, by simp, by simp, fun h => absurd h hcount⟩
    unfold addFeatures
    rw [if_neg (show ¬ s.fsm.getValidCount < minFeatureCount from hcount)]

/-! ### One image -/

open Classical in
/-- The features found again in the new image. -/
noncomputable def found (env : Env) (pyr : List Level) (s : TSt n) : Finset (Fin n) :=
  Finset.univ.filter fun i => (s.slots i).sl.valid = true ∧ ∃ o, search env pyr (s.slots i) = some o ∧ o.ok = true

open Classical in
/-- The number of corners that qualify as features. -/
noncomputable def qualifying (env : Env) (pyr : List Level) (cands : List FC) : ℕ :=
  ((Finset.range cands.length).filter fun k => ∃ c, cands[k]? = some c ∧ Qualifies env pyr c).card

/-- **C84, one image.**  In every state between two images and for every image, the callback completes, leaves such a state, and:
a feature is kept exactly if its patch is found again, then it keeps its identifier, moves to where it was found and takes the patch
there; other features are dropped; empty slots stay as they are unless filled; the filled slots hold qualifying corners of this image
with identifiers never used before; how many are filled is determined by the number found, the free slots and the number of
qualifying corners. -/
theorem C84_image {I : USet} (hI : I.Lawful) (env : Env) {s : TSt n} (hs : Inv s) {f : Frame} (hf : f.Sane) :
    ∃ pyr cands s', ∃ added : Finset (Fin n), computeFromImage 4 f.img (some f.down) = some pyr ∧ Detected env pyr f.corners cands ∧
      imgCallback I env s f = some s' ∧ Inv s' ∧
      (∀ i ∈ found env pyr s, i ∉ added ∧ ∃ o, search env pyr (s.slots i) = some o ∧ Kept env pyr f.time (s.slots i) (s'.slots i) o.c.c) ∧
      (∀ i, i ∉ found env pyr s → i ∉ added → (s'.slots i).sl.valid = false) ∧
      (∀ i, (s.slots i).sl.valid = false → i ∉ added → s'.slots i = s.slots i) ∧
      (∀ i ∈ added, (s'.slots i).sl.valid = true ∧ New env pyr cands (s'.slots i) ∧ (s.maxIdx : ℤ) ≤ (s'.slots i).sl.idx) ∧
      s'.maxIdx = s.maxIdx + added.card ∧
      added.card = (if (found env pyr s).card < 50 then min (min 20 (n - (found env pyr s).card)) (qualifying env pyr cands) else 0) ∧
      (∀ i ∈ added, (s'.slots i).stat = { (if (s.slots i).sl.valid then increaseStatistics (s.slots i).stat f.time else (s.slots i).stat) with status := fun _ => Status.tracked }) ∧
      (∀ i, (s.slots i).sl.valid = true → i ∉ found env pyr s → i ∉ added →
        (s'.slots i).stat = { increaseStatistics (s.slots i).stat f.time with status := fun _ => Status.failedAlignment }) := by
  classical
  obtain ⟨pyr, hpyr⟩ : ∃ pyr, computeFromImage 4 f.img (some f.down) = some pyr := levelsFrom_total _ _ _ _
  have spec := fun i (h : (s.slots i).sl.valid = true) => slot_spec env hf hpyr (hs.tracking i h) (hs.noWarp i)
  -- prediction
  obtain ⟨sA, eA, mA, hA⟩ := forValid_spec (predictSlot env pyr f.time) s (fun i h => by
    obtain ⟨o, x1, x2, _, h2, _⟩ := spec i h; exact ⟨x1, h2⟩)
  have vA : ∀ i, (sA.slots i).sl.valid = (s.slots i).sl.valid := by
    intro i
    cases h : (s.slots i).sl.valid with
    | false => rw [(hA i).2 h, h]
    | true =>
      obtain ⟨o, x1, x2, _, h2, h3, _⟩ := spec i h
      have := (hA i).1 h
      rw [h2] at this
      simp only [Option.some.injEq] at this
      rw [← this, h3, h]
  -- tracking
  have trackA : ∀ i, (s.slots i).sl.valid = true → ∃ o x2, search env pyr (s.slots i) = some o ∧ trackSlot env pyr (sA.slots i) = some x2 ∧
      x2.sl.valid = true ∧ x2.sl.idx = (s.slots i).sl.idx ∧ x2.sl.coord.trackWarping = false ∧
      x2.stat = { increaseStatistics (s.slots i).stat f.time with status := fun _ => if o.ok then .tracked else .failedAlignment } ∧
      (o.ok = true → ∃ x4, extractSlot env pyr x2 = some x4 ∧ x4.sl.valid = true ∧ Kept env pyr f.time (s.slots i) x4 o.c.c ∧ Tracking x4 ∧
        x4.sl.idx = (s.slots i).sl.idx ∧ x4.sl.coord.trackWarping = false) := by
    intro i h
    obtain ⟨o, x1, x2, h1, h2, h3, h4, h5, h6, h7, h8, h9⟩ := spec i h
    have := (hA i).1 h
    rw [h2] at this
    simp only [Option.some.injEq] at this
    refine ⟨o, x2, h1, by rw [← this]; exact h4, by rw [h5, h], h6, h7, h8, fun hok => ?_⟩
    obtain ⟨x4, k1, k2, k3, k4, k5⟩ := h9 hok
    exact ⟨x4, k1, by rw [k2, h], (k3 h).1, (k3 h).2, k4, k5⟩
  obtain ⟨sB, eB, mB, hB⟩ := forValid_spec (trackSlot env pyr) sA (fun i h => by
    obtain ⟨o, x2, _, h2, _⟩ := trackA i (by rw [← vA i]; exact h); exact ⟨x2, h2⟩)
  have dB : ∀ i, (s.slots i).sl.valid = true → ∃ o, search env pyr (s.slots i) = some o ∧ 
      (sB.slots i).sl.valid = true ∧ (sB.slots i).sl.idx = (s.slots i).sl.idx ∧ (sB.slots i).sl.coord.trackWarping = false ∧
      (sB.slots i).stat = { increaseStatistics (s.slots i).stat f.time with status := fun _ => if o.ok then .tracked else .failedAlignment } ∧
      (o.ok = true → ∃ x4, extractSlot env pyr (sB.slots i) = some x4 ∧ x4.sl.valid = true ∧ Kept env pyr f.time (s.slots i) x4 o.c.c ∧ Tracking x4 ∧
        x4.sl.idx = (s.slots i).sl.idx ∧ x4.sl.coord.trackWarping = false) := by
    intro i h
    obtain ⟨o, x2, h1, h2, h3⟩ := trackA i h
    have := (hB i).1 (by rw [vA i]; exact h)
    rw [h2] at this
    simp only [Option.some.injEq] at this
    subst this
    exact ⟨o, h1, h3⟩
  have uB : ∀ i, (s.slots i).sl.valid = false → sB.slots i = s.slots i := by
    intro i h
    rw [(hB i).2 (by rw [vA i]; exact h), (hA i).2 h]
  -- pruning
  obtain ⟨sC, eC, mC, hC⟩ := forValid_spec (fun x => some (pruneSlot x)) sB (fun i h => ⟨_, rfl⟩)
  have uC : ∀ i, (s.slots i).sl.valid = false → sC.slots i = s.slots i := by
    intro i h
    have := uB i h
    rw [(hC i).2 (by rw [this]; exact h), this]
  have mem : ∀ i o, (s.slots i).sl.valid = true → search env pyr (s.slots i) = some o → (i ∈ found env pyr s ↔ o.ok = true) := by
    intro i o hv ho
    simp only [found, Finset.mem_filter, Finset.mem_univ, true_and, hv, ho, Option.some.injEq]
    constructor
    · rintro ⟨o', rfl, h⟩; exact h
    · intro h; exact ⟨o, rfl, h⟩
  have fC : ∀ i ∈ found env pyr s, sC.slots i = sB.slots i := by
    intro i hi
    have hv : (s.slots i).sl.valid = true := by simp only [found, Finset.mem_filter] at hi; exact hi.2.1
    obtain ⟨o, h1, h2, _, _, h3, _⟩ := dB i hv
    have := (hC i).1 h2
    simp only [Option.some.injEq] at this
    rw [← this]
    unfold pruneSlot
    rw [if_neg]
    rw [h3, (mem i o hv h1).mp hi]
    simp
  have dC : ∀ i, (s.slots i).sl.valid = true → i ∉ found env pyr s → sC.slots i = { sB.slots i with sl := { (sB.slots i).sl with valid := false } } := by
    intro i hv hi
    obtain ⟨o, h1, h2, _, _, h3, _⟩ := dB i hv
    have := (hC i).1 h2
    simp only [Option.some.injEq] at this
    rw [← this]
    unfold pruneSlot
    rw [if_pos]
    have : ¬ o.ok = true := fun h => hi ((mem i o hv h1).mpr h)
    rw [h3]
    simp [this]
  have vC : ∀ i, (sC.slots i).sl.valid = true ↔ i ∈ found env pyr s := by
    intro i
    cases h : (s.slots i).sl.valid with
    | false =>
      rw [uC i h, h]
      simp [found, h]
    | true =>
      by_cases hi : i ∈ found env pyr s
      · obtain ⟨o, h1, h2, _⟩ := dB i h
        rw [fC i hi, h2]; simp [hi]
      · rw [dC i h hi]; simp [hi]
  -- new patches
  obtain ⟨sD, eD, mD, hD⟩ := forValid_spec (extractSlot env pyr) sC (fun i h => by
    have hi := (vC i).mp h
    have hv : (s.slots i).sl.valid = true := by simp only [found, Finset.mem_filter] at hi; exact hi.2.1
    obtain ⟨o, h1, h2, _, _, _, h3⟩ := dB i hv
    obtain ⟨x4, h4, _⟩ := h3 ((mem i o hv h1).mp hi)
    exact ⟨x4, by rw [fC i hi]; exact h4⟩)
  have fD : ∀ i ∈ found env pyr s, ∃ o, search env pyr (s.slots i) = some o ∧ (sD.slots i).sl.valid = true ∧ Kept env pyr f.time (s.slots i) (sD.slots i) o.c.c ∧
      Tracking (sD.slots i) ∧ (sD.slots i).sl.idx = (s.slots i).sl.idx ∧ (sD.slots i).sl.coord.trackWarping = false := by
    intro i hi
    have hv : (s.slots i).sl.valid = true := by simp only [found, Finset.mem_filter] at hi; exact hi.2.1
    obtain ⟨o, h1, h2, _, _, _, h3⟩ := dB i hv
    obtain ⟨x4, h4, h5⟩ := h3 ((mem i o hv h1).mp hi)
    have := (hD i).1 ((vC i).mpr hi)
    rw [fC i hi, h4] at this
    simp only [Option.some.injEq] at this
    subst this
    exact ⟨o, h1, h5⟩
  have nD : ∀ i, i ∉ found env pyr s → sD.slots i = sC.slots i := by
    intro i hi
    refine (hD i).2 ?_
    rw [← Bool.not_eq_true]
    exact fun h => hi ((vC i).mp h)
  have vD : ∀ i, (sD.slots i).sl.valid = true ↔ i ∈ found env pyr s := by
    intro i
    by_cases hi : i ∈ found env pyr s
    · obtain ⟨o, _, h, _⟩ := fD i hi; simp [h, hi]
    · rw [nD i hi, vC i]
  have wD : ∀ i, (sD.slots i).sl.coord.trackWarping = false := by
    intro i
    by_cases hi : i ∈ found env pyr s
    · obtain ⟨o, _, _, _, _, _, h⟩ := fD i hi; exact h
    · rw [nD i hi]
      cases h : (s.slots i).sl.valid with
      | false => rw [uC i h]; exact hs.noWarp i
      | true =>
        rw [dC i h hi]
        obtain ⟨o, _, _, _, h3, _⟩ := dB i h
        exact h3
  have cD : sD.fsm.getValidCount = (found env pyr s).card := by
    rw [FeatSet.getValidCount_eq]
    congr 1
    ext i
    simp only [Finset.mem_filter, Finset.mem_univ, true_and]
    exact vD i
  -- new features
  obtain ⟨s', ids, cands, eE, hcd, mE, kE, aE, inj, full, cnt⟩ := addFeatures_spec hI env hf hpyr sD wD
  have hmax : sD.maxIdx = s.maxIdx := by rw [mD, mC, mB, mA]
  have nf : ∀ i ∈ found env pyr s, i ∉ ids := by
    intro i hi h
    have h1 := (vD i).mpr hi
    rw [(aE i h).1] at h1
    simp at h1
  have split : ∀ i, (s'.slots i).sl.valid = true → i ∈ ids ∨ (i ∈ found env pyr s ∧ s'.slots i = sD.slots i) := by
    intro i h
    by_cases hi : i ∈ ids
    · exact Or.inl hi
    · right
      rw [kE i hi] at h
      exact ⟨(vD i).mp h, kE i hi⟩
  have idxf : ∀ i ∈ found env pyr s, (sD.slots i).sl.idx = (s.slots i).sl.idx ∧ 0 ≤ (s.slots i).sl.idx ∧ (s.slots i).sl.idx < s.maxIdx := by
    intro i hi
    have hv : (s.slots i).sl.valid = true := by simp only [found, Finset.mem_filter] at hi; exact hi.2.1
    obtain ⟨o, _, _, _, _, h, _⟩ := fD i hi
    exact ⟨h, hs.ids i hv⟩
  refine ⟨pyr, cands, s', ids, hpyr, detect_detected env hf hpyr hcd, ?_, ⟨?_, ?_, ?_, ?_⟩, ?_, ?_, ?_, ?_, ?_, ?_, ?_, ?_⟩
  · unfold imgCallback nLevels
    simp only [hpyr, eA, eB, eC, eD, Option.bind_eq_bind, Option.bind_some]
    exact eE
  · intro i
    by_cases hi : i ∈ ids
    · exact (aE i hi).2.2.2.2.2.2.1
    · rw [kE i hi]; exact wD i
  · intro i h
    rcases split i h with hi | ⟨hi, e⟩
    · exact (aE i hi).2.2.1
    · obtain ⟨o, _, _, _, h, _⟩ := fD i hi
      rw [e]; exact h
  · intro i h
    rcases split i h with hi | ⟨hi, e⟩
    · obtain ⟨_, _, _, _, h1, h2, _⟩ := aE i hi
      rw [hmax] at h1
      constructor <;> omega
    · obtain ⟨h1, h2, h3⟩ := idxf i hi
      rw [e, h1, mE, hmax]
      push_cast
      constructor <;> omega
  · intro i j h h' hij
    rcases split i h with hi | ⟨hi, e⟩ <;> rcases split j h' with hj | ⟨hj, e'⟩
    · exact inj i hi j hj hij
    · obtain ⟨_, _, _, _, h1, _⟩ := aE i hi
      obtain ⟨h2, _, h3⟩ := idxf j hj
      rw [hij, e', h2, hmax] at h1
      omega
    · obtain ⟨_, _, _, _, h1, _⟩ := aE j hj
      obtain ⟨h2, _, h3⟩ := idxf i hi
      rw [← hij, e, h2, hmax] at h1
      omega
    · rw [e, e', (idxf i hi).1, (idxf j hj).1] at hij
      have hv : ∀ k, k ∈ found env pyr s → (s.slots k).sl.valid = true := by intro k hk; simp only [found, Finset.mem_filter] at hk; exact hk.2.1
      exact hs.distinct i j (hv i hi) (hv j hj) hij
  · intro i hi
    obtain ⟨o, h1, _, h2, _⟩ := fD i hi
    exact ⟨nf i hi, o, h1, by rw [kE i (nf i hi)]; exact h2⟩
  · intro i hi hn
    rw [kE i hn, ← Bool.not_eq_true]
    exact fun h => hi ((vD i).mp h)
  · intro i hv hn
    have hi : i ∉ found env pyr s := by simp [found, hv]
    rw [kE i hn, nD i hi, uC i hv]
  · intro i hi
    obtain ⟨_, h1, _, h2, h3, _⟩ := aE i hi
    exact ⟨h1, h2, by rw [← hmax]; exact h3⟩
  · rw [mE, hmax]
  · split_ifs with h
    · rw [← cD] at h
      rw [cnt h, cD]
      rfl
    · rw [← cD] at h
      rw [full (by omega)]; rfl
  · intro i hi
    obtain ⟨_, _, _, _, _, _, _, h⟩ := aE i hi
    have hi' : i ∉ found env pyr s := fun hf => nf i hf hi
    rw [h, nD i hi']
    cases hv : (s.slots i).sl.valid with
    | false => rw [uC i hv]; simp
    | true =>
      obtain ⟨o, _, _, _, _, h3, _⟩ := dB i hv
      rw [dC i hv hi']
      simp only [h3, if_true]
  · intro i hv hi hn
    obtain ⟨o, h1, _, _, _, h3, _⟩ := dB i hv
    have : ¬ o.ok = true := fun h => hi ((mem i o hv h1).mpr h)
    rw [kE i hn, nD i hi, dC i hv hi]
    simp only [h3, this, Bool.false_eq_true, if_false]

/-! ### Runs -/

lemma start_inv (junk : Fin n → FC) (pjunk : Fin n → MLP) (stat : FeatureStatistics 1) : Inv (start n junk pjunk stat) where
  noWarp := by intro i; simp [start, FC.construct, FC.resetCoordinates, FC.setWarpIdentity]
  tracking := by intro i h; simp [start] at h
  ids := by intro i h; simp [start] at h
  distinct := by intro i j h; simp [start] at h

/-- **C84, runs.**  From the node's start, whatever the images, the corners OpenCV reports in them and the solver's answers, every
callback completes (no memory is read outside an image or before it is written) and the features' identifiers stay distinct. -/
theorem C84_run {I : USet} (hI : I.Lawful) (env : Env) (junk : Fin n → FC) (pjunk : Fin n → MLP) (stat : FeatureStatistics 1) (fs : List Frame) (hf : ∀ f ∈ fs, f.Sane) :
    ∃ s, run I env (start n junk pjunk stat) fs = some s ∧ Inv s := by
  have : ∀ fs : List Frame, (∀ f ∈ fs, f.Sane) → ∀ s : TSt n, Inv s → ∃ s', run I env s fs = some s' ∧ Inv s' := by
    intro fs
    induction fs with
    | nil => intro _ s hs; exact ⟨s, rfl, hs⟩
    | cons f fs ih =>
      intro hf s hs
      obtain ⟨_, _, s1, _, _, _, h1, h2, _⟩ := C84_image hI env hs (hf f (by simp))
      obtain ⟨s', h3, h4⟩ := ih (fun g hg => hf g (by simp [hg])) s1 h2
      exact ⟨s', by unfold run; rw [List.foldlM_cons, h1]; exact h3, h4⟩
  exact this fs hf _ (start_inv _ _ _)

/-- **C84, identity.**  An identifier stays with one feature: a feature that carries, after any number of images, an identifier already
given out before them is the feature that carried it then, in the same slot; numbers of dropped features are never used again. -/
theorem C84_identity {I : USet} (hI : I.Lawful) (env : Env) (fs : List Frame) (hf : ∀ f ∈ fs, f.Sane) {s s' : TSt n} (hs : Inv s) (hr : run I env s fs = some s')
    {i : Fin n} (hv : (s'.slots i).sl.valid = true) (hold : (s'.slots i).sl.idx < s.maxIdx) :
    (s.slots i).sl.valid = true ∧ (s.slots i).sl.idx = (s'.slots i).sl.idx := by
  induction fs generalizing s with
  | nil =>
    simp only [run, List.foldlM_nil, Option.pure_def, Option.some.injEq] at hr
    subst hr
    exact ⟨hv, rfl⟩
  | cons f fs ih =>
    obtain ⟨pyr, cands, s1, added, _, _, h1, h2, h3, h4, h5, h6, h7, _⟩ := C84_image hI env hs (hf f (by simp))
    have hr' : run I env s1 fs = some s' := by
      unfold run at hr
      rw [List.foldlM_cons, h1] at hr
      exact hr
    obtain ⟨k1, k2⟩ := ih (fun g hg => hf g (by simp [hg])) h2 hr' (by rw [h7]; push_cast; omega)
    by_cases ha : i ∈ added
    · have := (h6 i ha).2.2
      rw [k2] at this
      omega
    · by_cases hfo : i ∈ found env pyr s
      · obtain ⟨_, o, _, hk⟩ := h3 i hfo
        refine ⟨?_, by rw [← k2, hk.idx]⟩
        simp only [found, Finset.mem_filter] at hfo
        exact hfo.2.1
      · rw [h4 i hfo ha] at k1
        simp at k1

/-- **C84, finding: no motion model.**  The documented prediction "using the previous 2 image locations" does not take place: in every
state between two images the search starts at the feature's last pixel, wherever the feature was before. -/
theorem C84_finding_no_motion_model (env : Env) {s : TSt n} (hs : Inv s) {f : Frame} {pyr : List Level} (hpyr : computeFromImage 4 f.img (some f.down) = some pyr)
    {i : Fin n} (hv : (s.slots i).sl.valid = true) :
    ∃ x, predictSlot env pyr f.time (s.slots i) = some x ∧ x.sl.coord.c = (s.slots i).sl.coord.c := by
  obtain ⟨a, ha, _⟩ := pyr_size hpyr 0 (by omega)
  obtain ⟨b, hb, _⟩ := pyr_size hpyr 3 (by omega)
  exact ⟨_, predict_eq env ha hb f.time (hs.tracking i hv) (hs.noWarp i), by simp [FC.setC, hs.noWarp i]⟩

/-- **C84, finding: features never get their own statistics.**  Whatever the images, all features' statistics claim the same time of
initialisation, the one of the node's construction, also for features added much later. -/
theorem C84_finding_init_time {I : USet} (hI : I.Lawful) (env : Env) (junk : Fin n → FC) (pjunk : Fin n → MLP) (stat : FeatureStatistics 1) (fs : List Frame) (hf : ∀ f ∈ fs, f.Sane)
    {s : TSt n} (hr : run I env (start n junk pjunk stat) fs = some s) (i : Fin n) : (s.slots i).stat.initTime = stat.initTime := by
  have inc : ∀ (x : FeatureStatistics 1) (time : ℝ), (increaseStatistics x time).initTime = x.initTime := by
    intro x time; simp [increaseStatistics]
  have : ∀ fs : List Frame, (∀ f ∈ fs, f.Sane) → ∀ s s' : TSt n, Inv s → run I env s fs = some s' → (∀ i, (s.slots i).stat.initTime = stat.initTime) →
      ∀ i, (s'.slots i).stat.initTime = stat.initTime := by
    intro fs
    induction fs with
    | nil =>
      intro _ s s' _ hr h i
      simp only [run, List.foldlM_nil, Option.pure_def, Option.some.injEq] at hr
      subst hr
      exact h i
    | cons f fs ih =>
      intro hf s s' hs hr h
      obtain ⟨pyr, cands, s1, added, hpyr, _, h1, h2, h3, h4, h5, h6, h7, h8, h9, h10⟩ := C84_image hI env hs (hf f (by simp))
      have hr' : run I env s1 fs = some s' := by
        unfold run at hr
        rw [List.foldlM_cons, h1] at hr
        exact hr
      refine ih (fun g hg => hf g (by simp [hg])) s1 s' h2 hr' ?_
      intro i
      by_cases ha : i ∈ added
      · rw [h9 i ha]
        cases (s.slots i).sl.valid with
        | false => simpa using h i
        | true => simpa [inc] using h i
      · by_cases hfo : i ∈ found env pyr s
        · obtain ⟨_, o, _, hk⟩ := h3 i hfo
          rw [hk.stat]; simpa [inc] using h i
        · cases hv : (s.slots i).sl.valid with
          | false => rw [h5 i hv ha]; exact h i
          | true => rw [h10 i hv hfo ha]; simpa [inc] using h i
  exact this fs hf _ _ (start_inv _ _ _) hr (by intro i; rfl) i

/-! ### The hypotheses are met -/

/-- Three slots, the middle one holding feature 4 at pixel (30.5, 20), seen before at other images. -/
def demoTracker (junk : FC) (m : MLP) (stat : FeatureStatistics 1) : TSt 3 where
  slots := fun i =>
    { sl := ⟨i = 1, if i = 1 then 4 else -1, { FC.constructPixel junk ⟨30.5, 20⟩ with trackWarping := false }, m⟩,
      prev := FC.constructPixel junk ⟨30.5, 20⟩, stat := { stat with status := fun _ => .tracked } }
  maxIdx := 7

lemma demoTracker_inv (junk : FC) (m : MLP) (stat : FeatureStatistics 1) : Inv (demoTracker junk m stat) where
  noWarp := fun _ => rfl
  tracking := fun i _ => ⟨⟨rfl, rfl, rfl⟩, rfl, rfl, rfl⟩
  ids := by intro i h; simp [demoTracker] at h; subst h; simp [demoTracker]
  distinct := by intro i j h h'; simp [demoTracker] at h h'; intro _; rw [h, h']

example (junk : FC) (m : MLP) (stat : FeatureStatistics 1) (env : Env) (fs : List Frame) (hf : ∀ f ∈ fs, f.Sane) :
    (∃ s' added, imgCallback AddArgs.listUSet env (demoTracker junk m stat) ⟨⟨480, 752, fun y x => (7 * x + 13 * y) % 256⟩, 12.5, fun i x y => i.px (2 * y) (2 * x), fun _ => [⟨40, 40⟩]⟩ = some s' ∧
      Inv s' ∧ s'.maxIdx = 7 + Finset.card (α := Fin 3) added) ∧
    (∀ s', run AddArgs.listUSet env (demoTracker junk m stat) fs = some s' → ∀ i, (s'.slots i).sl.valid = true → (s'.slots i).sl.idx < 7 → i = 1) := by
  refine ⟨?_, ?_⟩
  · obtain ⟨_, _, s', added, _, _, h1, h2, _, _, _, _, h3, _⟩ := C84_image AddArgs.listUSet_lawful env (demoTracker_inv junk m stat)
      (f := ⟨⟨480, 752, fun y x => (7 * x + 13 * y) % 256⟩, 12.5, fun i x y => i.px (2 * y) (2 * x), fun _ => [⟨40, 40⟩]⟩) (by simp [Frame.Sane])
    exact ⟨s', added, h1, h2, h3⟩
  · intro s' hr i hv hi
    have := (C84_identity AddArgs.listUSet_lawful env fs hf (demoTracker_inv junk m stat) hr hv hi).1
    simpa [demoTracker] using this

end Rovio.Tracker
