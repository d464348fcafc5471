import Verif.Model.Tracker
import Verif.Props.Alignment
import Verif.Props.Patch
import Verif.Props.Pyramid
import Verif.Props.FeatureManager

/-!
# Helper lemmas for the feature tracker
-/

namespace Rovio

open Align

/-- Coordinates with a valid pixel and an identity warp. -/
structure FC.Plain (c : FC) : Prop where
  pixel : c.validC = true
  warp : c.validWarpC = true
  one : c.warpC = M2.one

namespace FC.Plain

variable {c : FC}

lemma settled (h : c.Plain) : c.Settled := ⟨h.warp, by simp [FC.comC, h.pixel]⟩

lemma getC (h : c.Plain) : c.getC = some (c, c.c) := h.settled.getC

lemma near (h : c.Plain) : c.warpC.distOne < 1e-6 := by
  rw [h.one]
  have : M2.one.distOne = 0 := by simp [M2.distOne, M2.one]
  rw [this]; norm_num

lemma setC (h : c.Plain) (ht : c.trackWarping = false) (q : V2) (b : Bool) : (c.setC q b).Plain ∧ (c.setC q b).c = q ∧ (c.setC q b).trackWarping = false := by
  refine ⟨⟨?_, ?_, ?_⟩, ?_, ?_⟩ <;> simp [FC.setC, ht, h.warp, h.one]

lemma front (h : c.Plain) : c.isInFront = true := by simp [FC.isInFront, h.pixel]

end FC.Plain

lemma setC_false_of {c : FC} (ht : c.trackWarping = false) (q : V2) : c.setC q true = c.setC q false := by simp [FC.setC, ht]

/-- The in-frame test of coordinates with an identity warp is the unwarped test of the transformed pixel. -/
lemma inFrame_plain {p : ℕ} {junk c : FC} {pyr : List Level} {l : ℕ} {a b : Level} (ha : pyr[0]? = some a) (hb : pyr[l]? = some b) (h : c.Plain) (wb : Bool) :
    MLP.isMultilevelPatchInFrame p junk pyr c l wb = some (c, (open Classical in decide (Patch.PlainIn b.img (levelPixel a.center b.center 0 l c.c) (halfPatch p wb)))) := by
  obtain ⟨o, ho, hos, hof, hoc, how, hoi⟩ := levelTransform_settled (junk := junk) ha hb h.settled
  have hnear : o.nearB = true := by
    unfold FC.nearB
    rw [hoi, how]
    cases hcam : c.cam with
    | none => simp
    | some cam =>
      have := h.near
      simp [this]
  unfold MLP.isMultilevelPatchInFrame
  simp only [h.front, Bool.not_true, Bool.false_eq_true, if_false, FC.comWarpC_valid h.warp, ho, hb, Option.bind_eq_bind, Option.bind_some, Option.pure_def]
  unfold Patch.isPatchInFrame
  simp only [hof, if_true, FC.comWarpC_valid hos.warp, FC.isNear_valid hos.warp, hnear, hos.getC, Option.bind_eq_bind, Option.bind_some, Option.pure_def, hoc]
  congr 2
  unfold Patch.PlainIn
  rw [Bool.eq_iff_iff]
  simp only [Bool.not_eq_true', Bool.or_eq_false_iff, decide_eq_false_iff_not, not_lt, decide_eq_true_eq]
  tauto

lemma align_plain {p : ℕ} (hp : 2 ≤ p) {cfg : AlignCfg} {junk : FC} {ex : ℕ → Patch} {pyr : List Level} {mp : MLP} {c : FC} {lo hi : ℕ}
    {solve : Option (List Row) → SolveRes} (h : c.Plain) (ht : c.trackWarping = false) (q : V2) (hl : hi < pyr.length)
    (hsz : ∀ lvl ∈ pyr, lvl.img.cols ≤ 2147483647 ∧ lvl.img.rows ≤ 2147483647) :
    ∃ o, align2DComposed p cfg junk ex solve pyr mp (c.setC q true) hi lo lo = some o ∧ o.c.getC = some (o.c, o.c.c) := by
  have e1 : (List.range' lo (lo + 1 - lo)).reverse = [lo] := by
    have : lo + 1 - lo = 1 := by omega
    rw [this]; rfl
  have hP := h.setC ht q true
  obtain ⟨o, ho⟩ := C67_align2D_defined (cfg := cfg) (junk := junk) (ex := ex) (mp := mp) (l1 := lo) (maxIter := 10) (tol := 0.03) (solve := solve)
    hp hP.1.pixel hP.1.warp hl hsz (Or.inr hP.1.near)
  have hY : ∃ Y, o.c = c.setC Y false := by
    rw [setC_false_of ht] at ho
    exact loop_same h.warp (fun hs h => equations_settled hs h) 10 _ o ho
  have hg : o.c.getC = some (o.c, o.c.c) := by
    obtain ⟨Y, hY⟩ := hY
    rw [hY]
    exact (h.setC ht Y false).1.getC
  unfold align2DComposed
  rw [e1]
  simp only [composedLoop, ho, Option.bind_eq_bind, Option.bind_some]
  cases hk : o.ok with
  | true => exact ⟨⟨o.c, false, true⟩, rfl, hg⟩
  | false => exact ⟨o, rfl, hg⟩

lemma detect_one {junk : FC} {pyr : List Level} {a b : Level} {l : ℕ} (ha : pyr[0]? = some a) (hb : pyr[l]? = some b) (cands : List FC) (kps : List V2) (r : ℝ) :
    ∃ new, detectFastCorners junk pyr cands l kps r = some (cands ++ new) ∧ ∀ c ∈ new, c.Plain := by
  unfold detectFastCorners
  simp only [hb, Option.bind_eq_bind, Option.bind_some, Option.pure_def]
  have : ∀ ks : List V2, ∃ new, ks.mapM (fun pt => (levelTransform junk pyr (FC.constructPixel junk pt) l 0).bind fun x => some x.2) = some new ∧ ∀ c ∈ new, FC.Plain c := by
    intro ks
    induction ks with
    | nil => exact ⟨[], by simp, by simp⟩
    | cons pt ks ih =>
      obtain ⟨new, h1, h2⟩ := ih
      have hs : (FC.constructPixel junk pt).Settled := ⟨rfl, rfl⟩
      obtain ⟨o, ho, hos, hof, hoc, how, hoi⟩ := levelTransform_settled (junk := junk) hb ha hs
      have hg : (FC.constructPixel junk pt).getC = some (FC.constructPixel junk pt, pt) := rfl
      obtain ⟨_, _, _, _, _, ov, _⟩ := levelTransform_pixel hg ho
      refine ⟨o :: new, ?_, ?_⟩
      · rw [List.mapM_cons, ho, h1]; rfl
      · intro c hc
        rcases List.mem_cons.mp hc with rfl | hc
        · exact ⟨ov, hos.warp, by rw [how]; rfl⟩
        · exact h2 c hc
  obtain ⟨new, h1, h2⟩ := this (kps.filter (inValidRadius b.img r))
  exact ⟨new, by rw [h1]; rfl, h2⟩

lemma candidate_plain {p : ℕ} (hp : 2 ≤ p) {n : ℕ} {img : Img} {cv : Option (Img → ℕ → ℕ → ℕ)} {pyr : List Level}
    (hpyr : computeFromImage n img cv = some pyr) (hc : img.cols ≤ 2147483647) (hr : img.rows ≤ 2147483647) {junk c : FC} (mj : MLP) {lo hi : ℕ} (hl : hi < n) (h : c.Plain) :
    ∃ r, MLP.candidate p junk mj pyr c lo hi = some r ∧ MLP.isMultilevelPatchInFrame p junk pyr c hi true = some (c, r.2) ∧
      (r.2 = true → ∃ m, MLP.extractMultilevelPatchFromImage p junk mj.reset pyr c hi true = some (c, m) ∧ r.1 = m.computeMultilevelShiTomasiScore p lo hi) := by
  obtain ⟨a, ha, _⟩ := pyr_size hpyr 0 (by omega)
  obtain ⟨b, hb, _⟩ := pyr_size hpyr hi hl
  have hin := inFrame_plain (p := p) (junk := junk) ha hb h true
  unfold MLP.candidate
  simp only [hin, Option.bind_eq_bind, Option.bind_some, Option.pure_def]
  split
  · rename_i hd
    rw [hd] at hin ⊢
    obtain ⟨⟨m, hm, _⟩, _⟩ := C25_coarsest_decides hp hpyr hc hr hin (Or.inr (Or.inr (Or.inr h.near))) mj.reset
    exact ⟨_, by rw [hm]; rfl, rfl, fun _ => ⟨m, hm, rfl⟩⟩
  · rename_i hd
    have hd : (open Classical in decide (Patch.PlainIn b.img (levelPixel a.center b.center 0 hi c.c) (halfPatch p true))) = false := by simpa using hd
    exact ⟨_, rfl, by rw [hd], fun h => by simp at h⟩

namespace Tracker

variable {n : ℕ}

lemma forValid_spec (f : TSlot → Option TSlot) (s : TSt n) (h : ∀ i, (s.slots i).sl.valid = true → ∃ x, f (s.slots i) = some x) :
    ∃ s', forValid f s = some s' ∧ s'.maxIdx = s.maxIdx ∧
      ∀ i, ((s.slots i).sl.valid = true → f (s.slots i) = some (s'.slots i)) ∧ ((s.slots i).sl.valid = false → s'.slots i = s.slots i) := by
  have main : ∀ (l : List (Fin n)), l.Nodup → ∀ s : TSt n, (∀ i ∈ l, (s.slots i).sl.valid = true → ∃ x, f (s.slots i) = some x) →
      ∃ s', l.foldlM (fun s i => if (s.slots i).sl.valid then (f (s.slots i)).map fun x => { s with slots := Function.update s.slots i x } else some s) s = some s' ∧
        s'.maxIdx = s.maxIdx ∧ (∀ i, i ∉ l → s'.slots i = s.slots i) ∧
        ∀ i ∈ l, ((s.slots i).sl.valid = true → f (s.slots i) = some (s'.slots i)) ∧ ((s.slots i).sl.valid = false → s'.slots i = s.slots i) := by
    intro l
    induction l with
    | nil => intro _ s _; exact ⟨s, rfl, rfl, fun _ _ => rfl, by simp⟩
    | cons j l ih =>
      intro hn s hs
      obtain ⟨hj, hl⟩ := List.nodup_cons.mp hn
      rw [List.foldlM_cons]
      by_cases hv : (s.slots j).sl.valid = true
      · obtain ⟨x, hx⟩ := hs j (by simp) hv
        have hne : ∀ i, i ≠ j → Function.update s.slots j x i = s.slots i := fun i hi => Function.update_of_ne hi _ _
        obtain ⟨s', h1, h2, h3, h4⟩ := ih hl { s with slots := Function.update s.slots j x } (fun i hi => by
          have : i ≠ j := fun e => hj (e ▸ hi)
          simp only [hne i this]
          exact hs i (by simp [hi]))
        refine ⟨s', by rw [if_pos hv, hx]; exact h1, h2, ?_, ?_⟩
        · intro i hi
          simp only [List.mem_cons, not_or] at hi
          rw [h3 i hi.2]; exact hne i hi.1
        · intro i hi
          by_cases hij : i = j
          · subst hij
            have := h3 i hj
            simp only [Function.update_self] at this
            exact ⟨fun _ => by rw [hx, this], fun hf => by rw [hv] at hf; simp at hf⟩
          · have hil : i ∈ l := by simpa [hij] using hi
            have := h4 i hil
            simp only [hne i hij] at this
            exact this
      · have hv : (s.slots j).sl.valid = false := by simpa using hv
        obtain ⟨s', h1, h2, h3, h4⟩ := ih hl s (fun i hi => hs i (by simp [hi]))
        refine ⟨s', by rw [if_neg (by simp [hv])]; exact h1, h2, ?_, ?_⟩
        · intro i hi
          simp only [List.mem_cons, not_or] at hi
          exact h3 i hi.2
        · intro i hi
          by_cases hij : i = j
          · subst hij
            exact ⟨fun hf => by rw [hv] at hf; simp at hf, fun _ => h3 i hj⟩
          · exact h4 i (by simpa [hij] using hi)
  obtain ⟨s', h1, h2, _, h4⟩ := main (List.finRange n) (List.nodup_finRange n) s (fun i _ => h i)
  exact ⟨s', h1, h2, fun i => h4 i (List.mem_finRange i)⟩

end Tracker

end Rovio
