import Verif.Model.Camera
import Verif.Lemmas.Geom
import Mathlib.Topology.Order.Basic

namespace Rovio

open Filter Topology

lemma HasDerivV2.congr_of_eventuallyEq {f f₁ : ℝ → V2} {f' : V2} {t : ℝ} (h : HasDerivV2 f f' t)
    (e : ∀ᶠ s in 𝓝 t, f₁ s = f s) : HasDerivV2 f₁ f' t :=
  ⟨h.x.congr_of_eventuallyEq (e.mono fun s hs => by simp [hs]),
   h.y.congr_of_eventuallyEq (e.mono fun s hs => by simp [hs])⟩

lemma lit1 : (1.0 : ℝ) = 1 := by norm_num
lemma lit2 : (2.0 : ℝ) = 2 := by norm_num
lemma lit4 : (4.0 : ℝ) = 4 := by norm_num
lemma lit6 : (6.0 : ℝ) = 6 := by norm_num

namespace Camera

variable (C : Camera)

lemma distortJ_fst (i : V2) : (C.distortJ i).1 = C.distort i := by
  unfold distortJ distort
  cases C.type
  · rfl
  · simp only [distortEquidistJ, distortEquidist]; split <;> rfl
  · simp only [distortDoubleSphereJ, distortDoubleSphere]; split <;> rfl

section deriv

variable {C} {P : ℝ → V2} {P' : V2} {t : ℝ}

lemma hasDeriv_radtan (hP : HasDerivV2 P P' t) :
    HasDerivV2 (fun s => C.distortRadtan (P s)) ((C.distortRadtanJ (P t)).2.mulVec P') t := by
  have hx := hP.x
  have hy := hP.y
  have x2 := hx.mul hx
  have y2 := hy.mul hy
  have xy := hx.mul hy
  have r2 := x2.add y2
  have kr := ((((((r2.const_mul C.k3).add_const C.k2).mul r2).add_const C.k1).mul r2).const_add 1)
  constructor
  · refine (((hx.mul kr).add (xy.const_mul (C.p1 * 2))).add ((r2.add (x2.const_mul 2)).const_mul C.p2)).congr_deriv ?_
    simp [distortRadtanJ, M2.mulVec, lit2, lit4, lit6]; ring
  · refine (((hy.mul kr).add ((r2.add (y2.const_mul 2)).const_mul C.p1)).add (xy.const_mul (C.p2 * 2))).congr_deriv ?_
    simp [distortRadtanJ, M2.mulVec, lit2, lit4, lit6]; ring

lemma hasDeriv_radius (hP : HasDerivV2 P P' t) (h0 : (P t).x * (P t).x + (P t).y * (P t).y ≠ 0) :
    HasDerivAt (fun s => Real.sqrt ((P s).x * (P s).x + (P s).y * (P s).y))
      (((P t).x * P'.x + (P t).y * P'.y) / Real.sqrt ((P t).x * (P t).x + (P t).y * (P t).y)) t := by
  refine (((hP.x.mul hP.x).add (hP.y.mul hP.y)).sqrt h0).congr_deriv ?_
  simp only [Pi.mul_apply, Pi.add_apply]
  have : Real.sqrt ((P t).x * (P t).x + (P t).y * (P t).y) ≠ 0 := by
    rw [Real.sqrt_ne_zero (by nlinarith [mul_self_nonneg (P t).x, mul_self_nonneg (P t).y])]
    exact h0
  field_simp
  ring

lemma cont_sq (hP : HasDerivV2 P P' t) :
    ContinuousAt (fun s => (P s).x * (P s).x + (P s).y * (P s).y) t :=
  (hP.x.continuousAt.mul hP.x.continuousAt).add (hP.y.continuousAt.mul hP.y.continuousAt)

lemma hasDeriv_equidist (hP : HasDerivV2 P P' t)
    (h0 : Real.sqrt ((P t).x * (P t).x + (P t).y * (P t).y) ≠ 1e-8) :
    HasDerivV2 (fun s => C.distortEquidist (P s)) ((C.distortEquidistJ (P t)).2.mulVec P') t := by
  have hc := (cont_sq hP).sqrt
  rcases lt_or_gt_of_ne h0 with hlt | hgt
  · have hev : ∀ᶠ s in 𝓝 t, C.distortEquidist (P s) = P s := by
      filter_upwards [hc.eventually_lt_const hlt] with s hs
      simp only [distortEquidist]
      rw [if_pos hs]
    refine HasDerivV2.congr_deriv (hP.congr_of_eventuallyEq hev) ?_
    simp only [distortEquidistJ]
    rw [if_pos hlt]
    ext <;> simp [M2.mulVec, M2.one]
  · have hpos : 0 < Real.sqrt ((P t).x * (P t).x + (P t).y * (P t).y) := lt_trans (by norm_num) hgt
    have hne : (P t).x * (P t).x + (P t).y * (P t).y ≠ 0 := by
      intro e; rw [e] at hpos; simp at hpos
    have hr := hasDeriv_radius hP hne
    have hev : ∀ᶠ s in 𝓝 t, ¬ Real.sqrt ((P s).x * (P s).x + (P s).y * (P s).y) < 1e-8 := by
      filter_upwards [hc.eventually_const_lt hgt] with s hs
      exact not_lt.mpr hs.le
    set r := fun s => Real.sqrt ((P s).x * (P s).x + (P s).y * (P s).y) with hrdef
    have hth := hr.arctan
    have hth2 := hth.mul hth
    have hth4 := hth2.mul hth2
    have hth6 := hth2.mul hth4
    have hth8 := hth2.mul hth6
    have hthd := hth.mul (((((hth2.const_mul C.k1).const_add 1).add (hth4.const_mul C.k2)).add
      (hth6.const_mul C.k3)).add (hth8.const_mul C.k4))
    have hrt : r t ≠ 0 := hpos.ne'
    have hs := hthd.div hr hrt
    have hrt' : Real.sqrt ((P t).x * (P t).x + (P t).y * (P t).y) ≠ 0 := hpos.ne'
    have key : HasDerivV2 (fun s => (⟨(P s).x * (Real.arctan (r s) * (1 + C.k1 * (Real.arctan (r s) * Real.arctan (r s))
          + C.k2 * (Real.arctan (r s) * Real.arctan (r s) * (Real.arctan (r s) * Real.arctan (r s)))
          + C.k3 * (Real.arctan (r s) * Real.arctan (r s) * (Real.arctan (r s) * Real.arctan (r s) * (Real.arctan (r s) * Real.arctan (r s))))
          + C.k4 * (Real.arctan (r s) * Real.arctan (r s) * (Real.arctan (r s) * Real.arctan (r s) * (Real.arctan (r s) * Real.arctan (r s) * (Real.arctan (r s) * Real.arctan (r s)))))) / r s),
        (P s).y * (Real.arctan (r s) * (1 + C.k1 * (Real.arctan (r s) * Real.arctan (r s))
          + C.k2 * (Real.arctan (r s) * Real.arctan (r s) * (Real.arctan (r s) * Real.arctan (r s)))
          + C.k3 * (Real.arctan (r s) * Real.arctan (r s) * (Real.arctan (r s) * Real.arctan (r s) * (Real.arctan (r s) * Real.arctan (r s))))
          + C.k4 * (Real.arctan (r s) * Real.arctan (r s) * (Real.arctan (r s) * Real.arctan (r s) * (Real.arctan (r s) * Real.arctan (r s) * (Real.arctan (r s) * Real.arctan (r s)))))) / r s)⟩ : V2))
        ((C.distortEquidistJ (P t)).2.mulVec P') t := by
      have hnot : ¬ Real.sqrt ((P t).x * (P t).x + (P t).y * (P t).y) < 1e-8 := not_lt.mpr hgt.le
      have h1 : (1 + Real.sqrt ((P t).x * (P t).x + (P t).y * (P t).y) ^ 2) ≠ 0 := by positivity
      have h2 : (Real.sqrt ((P t).x * (P t).x + (P t).y * (P t).y) * Real.sqrt ((P t).x * (P t).x + (P t).y * (P t).y) + 1) ≠ 0 := by positivity
      constructor
      · refine (hP.x.mul hs).congr_deriv ?_
        simp only [distortEquidistJ]
        rw [if_neg hnot]
        simp only [M2.mulVec, Pi.mul_apply, Pi.add_apply, Pi.div_apply, hrdef, lit1]
        generalize Real.sqrt ((P t).x * (P t).x + (P t).y * (P t).y) = R at *
        generalize Real.arctan R = T
        have h3 : (1 + R * R) ≠ 0 := by rw [add_comm]; exact h2
        rw [show 1 + R ^ 2 = R * R + 1 by ring]
        field_simp
        ring
      · refine (hP.y.mul hs).congr_deriv ?_
        simp only [distortEquidistJ]
        rw [if_neg hnot]
        simp only [M2.mulVec, Pi.mul_apply, Pi.add_apply, Pi.div_apply, hrdef, lit1]
        generalize Real.sqrt ((P t).x * (P t).x + (P t).y * (P t).y) = R at *
        generalize Real.arctan R = T
        rw [show 1 + R ^ 2 = R * R + 1 by ring]
        field_simp
        ring
    refine key.congr_of_eventuallyEq ?_
    filter_upwards [hev] with s hs'
    simp only [distortEquidist, lit1]
    rw [if_neg hs']

lemma hasDeriv_doubleSphere (hP : HasDerivV2 P P' t)
    (h0 : (P t).x * (P t).x + (P t).y * (P t).y ≠ 1e-16)
    (hden : 1e-16 < (P t).x * (P t).x + (P t).y * (P t).y → C.dsDen (P t) ≠ 0) :
    HasDerivV2 (fun s => C.distortDoubleSphere (P s)) ((C.distortDoubleSphereJ (P t)).2.mulVec P') t := by
  have hc := cont_sq hP
  rcases lt_or_gt_of_ne h0 with hlt | hgt
  · have hev : ∀ᶠ s in 𝓝 t, C.distortDoubleSphere (P s) = P s := by
      filter_upwards [hc.eventually_lt_const hlt] with s hs
      simp only [distortDoubleSphere]
      rw [if_pos hs]
    refine HasDerivV2.congr_deriv (hP.congr_of_eventuallyEq hev) ?_
    simp only [distortDoubleSphereJ]
    rw [if_pos hlt]
    ext <;> simp [M2.mulVec, M2.one]
  · have hd := hden hgt
    have hnn : 0 < (P t).x * (P t).x + (P t).y * (P t).y := lt_trans (by norm_num) hgt
    have hr2 := (hP.x.mul hP.x).add (hP.y.mul hP.y)
    have hd1pos : 0 < (P t).x * (P t).x + (P t).y * (P t).y + 1 := by linarith
    have hd1 := (hr2.add_const 1).sqrt (by simpa using hd1pos.ne')
    have hk := (hd1.const_mul C.k1).add_const 1
    set D1 : ℝ → ℝ := fun s => Real.sqrt ((P s).x * (P s).x + (P s).y * (P s).y + 1) with hD1
    have hd2pos : 0 < (P t).x * (P t).x + (P t).y * (P t).y + (C.k1 * D1 t + 1) * (C.k1 * D1 t + 1) := by
      have := mul_self_nonneg (C.k1 * D1 t + 1); linarith
    have hd2 := (hr2.add (hk.mul hk)).sqrt (by
      have := hd2pos.ne'
      simpa [hD1] using this)
    have hdenD := (hd2.const_mul C.k2).add (hk.const_mul (1 - C.k2))
    have hs := (hasDerivAt_const t (1:ℝ)).div hdenD (by simpa [dsDen, hD1, lit1] using hd)
    have hev : ∀ᶠ s in 𝓝 t, ¬ (P s).x * (P s).x + (P s).y * (P s).y < 1e-16 := by
      filter_upwards [hc.eventually_const_lt hgt] with s hs
      exact not_lt.mpr hs.le
    have hnot : ¬ (P t).x * (P t).x + (P t).y * (P t).y < 1e-16 := not_lt.mpr hgt.le
    have hs1 : Real.sqrt ((P t).x * (P t).x + (P t).y * (P t).y + 1) ≠ 0 := (Real.sqrt_pos.mpr hd1pos).ne'
    have hs2 : Real.sqrt ((P t).x * (P t).x + (P t).y * (P t).y + (C.k1 * D1 t + 1) * (C.k1 * D1 t + 1)) ≠ 0 :=
      (Real.sqrt_pos.mpr hd2pos).ne'
    have key : HasDerivV2 (fun s => (⟨(P s).x * (1 / C.dsDen (P s)), (P s).y * (1 / C.dsDen (P s))⟩ : V2))
        ((C.distortDoubleSphereJ (P t)).2.mulVec P') t := by
      have hd' := hd
      simp only [dsDen, lit1] at hd'
      simp only [hD1] at hs2
      constructor
      · simp only [dsDen, lit1]
        refine (hP.x.mul hs).congr_deriv ?_
        simp only [distortDoubleSphereJ]
        rw [if_neg hnot]
        simp only [M2.mulVec, Pi.mul_apply, Pi.add_apply, Pi.div_apply, dsDen, lit1]
        generalize Real.sqrt ((P t).x * (P t).x + (P t).y * (P t).y + 1) = A at *
        generalize Real.sqrt ((P t).x * (P t).x + (P t).y * (P t).y + (C.k1 * A + 1) * (C.k1 * A + 1)) = B at *
        generalize hE : C.k2 * B + (1 - C.k2) * (C.k1 * A + 1) = E at *
        field_simp
        ring
      · simp only [dsDen, lit1]
        refine (hP.y.mul hs).congr_deriv ?_
        simp only [distortDoubleSphereJ]
        rw [if_neg hnot]
        simp only [M2.mulVec, Pi.mul_apply, Pi.add_apply, Pi.div_apply, dsDen, lit1]
        generalize Real.sqrt ((P t).x * (P t).x + (P t).y * (P t).y + 1) = A at *
        generalize Real.sqrt ((P t).x * (P t).x + (P t).y * (P t).y + (C.k1 * A + 1) * (C.k1 * A + 1)) = B at *
        generalize hE : C.k2 * B + (1 - C.k2) * (C.k1 * A + 1) = E at *
        field_simp
        ring
    refine key.congr_of_eventuallyEq ?_
    filter_upwards [hev] with s hs'
    simp only [distortDoubleSphere, lit1]
    rw [if_neg hs']

end deriv

/-- What the Gauss-Newton loop guarantees on success. -/
lemma gnLoop_success (y : V2) (fuel : ℕ) (y0 : V2) (r : V2)
    (h : C.gnLoop y fuel (some y0) = some (some r)) :
    ∃ yb : V2, (y - C.distort yb).dot (y - C.distort yb) ≤ 1e-10 ∧
      ((C.distortJ yb).2.tr.mul (C.distortJ yb).2).det ≠ 0 ∧
      r = yb + (((C.distortJ yb).2.tr.mul (C.distortJ yb).2).inv.mul (C.distortJ yb).2.tr).mulVec (y - C.distort yb) := by
  have hnone : ∀ n, C.gnLoop y n none = none := by
    intro n
    induction n with
    | zero => rfl
    | succ n ih => simpa [gnLoop] using ih
  induction fuel generalizing y0 with
  | zero => simp [gnLoop] at h
  | succ n ih =>
    simp only [gnLoop] at h
    rw [distortJ_fst] at h
    by_cases he : (y - C.distort y0).dot (y - C.distort y0) ≤ 1e-10
    · rw [if_pos he] at h
      by_cases hdet : ((C.distortJ y0).2.tr.mul (C.distortJ y0).2).det = 0
      · simp [hdet] at h
      · rw [if_neg hdet] at h
        simp only [Option.some.injEq] at h
        exact ⟨y0, he, hdet, h.symm⟩
    · rw [if_neg he] at h
      by_cases hdet : ((C.distortJ y0).2.tr.mul (C.distortJ y0).2).det = 0
      · rw [if_pos hdet, hnone] at h; simp at h
      · rw [if_neg hdet] at h
        exact ih _ h

end Camera

end Rovio
