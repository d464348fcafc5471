import Verif.Props.Scene3D
import Verif.Spec.Fragment

/-!
# C91: the colours of the 3D view
-/

namespace Rovio.Scene3D

open Rovio.Scene3D.Spec

private theorem default_fragment (any : V3) (t : Option V4) (c : V4) (n : V3) : fragment any Light.default t c n = t.getD c := by
  have h : ∀ x : ℝ, Light.default.scaled (Light.default.diffuse * x) = ⟨0, 0, 0, 0⟩ := fun x => by simp [Light.scaled, Light.default]
  have h1 : Light.default.scaled Light.default.ambient = ⟨1, 1, 1, 1⟩ := by simp [Light.scaled, Light.default]
  unfold fragment
  simp only [h, h1, ite_self]
  cases t <;> simp [V4.times, V4.plus]

/-- C91: with the light of the view a pixel between corners shows the mean of the colours of the drawn vertices, or the texture, wherever the light comes from and
whatever the normals are (also without a direction): the light changes no colour.  An object coloured as a whole shows exactly this colour. -/
theorem C91_colour (s : View) (o : Obj) (d : Drawn) (h : s.drawObj o = some d) (any : V3) {m : ℕ} (k : Fin m → ℕ) (vs : List Vertex) (hvs : o.elements = some vs)
    (v : Fin m → Vertex) (hv : ∀ i, vs[k i]? = some (v i)) (w : Fin m → ℝ) (hw : Weights w) :
    ∃ sh : Fin m → Shaded, (∀ i, d.verts[k i]? = some (sh i)) ∧
      (∀ texel, fragment any Light.default (some texel) (meanColor w fun i => (sh i).color) (meanNormal w fun i => (sh i).normal) = texel) ∧
      fragment any Light.default none (meanColor w fun i => (sh i).color) (meanNormal w fun i => (sh i).normal) = meanColor w (fun i => (v i).color) ∧
      ∀ c : V4, (∀ u ∈ vs, u.color = c) →
        fragment any Light.default none (meanColor w fun i => (sh i).color) (meanNormal w fun i => (sh i).normal) = c := by
  simp only [View.drawObj, Option.bind_eq_bind, Option.bind_eq_some_iff, Option.pure_def, Option.some.injEq] at h
  obtain ⟨vs', hvs', rfl⟩ := h
  obtain rfl : vs = vs' := by rw [hvs] at hvs'; exact Option.some.inj hvs'
  refine ⟨fun i => shade _ _ (v i), fun i => by rw [List.getElem?_map, hv i]; rfl, fun t => default_fragment _ _ _ _, default_fragment _ _ _ _, fun c hc => ?_⟩
  rw [default_fragment]
  have : ∀ i, (v i).color = c := fun i => hc _ (List.mem_of_getElem? (hv i))
  simp only [Option.getD_none, meanColor, shade, this, ← Finset.sum_mul, hw.2, one_mul]

/-- Non-vacuity: the middle of a red line with two ends is red. -/
example (s : View) (any : V3) (o : Obj) : ∃ d, s.drawObj (((o.makeLine [⟨0, 0, 1⟩, ⟨1, 0, 1⟩])).setColorFull ⟨1, 0, 0, 1⟩) = some d ∧
    ∃ sh : Fin 2 → Shaded, (∀ i : Fin 2, d.verts[i.val]? = some (sh i)) ∧
      fragment any Light.default none (meanColor (fun _ => 1 / 2) fun i => (sh i).color) (meanNormal (fun _ => 1 / 2) fun i => (sh i).normal) = ⟨1, 0, 0, 1⟩ := by
  have he : (((o.makeLine [⟨0, 0, 1⟩, ⟨1, 0, 1⟩])).setColorFull ⟨1, 0, 0, 1⟩).elements =
      some [⟨⟨0, 0, 1⟩, ⟨0, 0, 1⟩, ⟨1, 0, 0, 1⟩⟩, ⟨⟨1, 0, 1⟩, ⟨0, 0, 1⟩, ⟨1, 0, 0, 1⟩⟩] := by
    simp [Obj.elements, Obj.setColorFull, Obj.makeLine, Obj.prolonge, Obj.clear, Obj.allocateBuffer, Vertex.ofPos, List.range, List.range.loop]
  have hd : ∃ d, s.drawObj (((o.makeLine [⟨0, 0, 1⟩, ⟨1, 0, 1⟩])).setColorFull ⟨1, 0, 0, 1⟩) = some d := by
    simp only [View.drawObj, he, Option.bind_eq_bind, Option.bind_some, Option.pure_def, Option.some.injEq, exists_eq']
  obtain ⟨d, hd⟩ := hd
  obtain ⟨sh, h1, -, -, h2⟩ := C91_colour s _ d hd any (m := 2) (fun i => i.val) _ he ![⟨⟨0, 0, 1⟩, ⟨0, 0, 1⟩, ⟨1, 0, 0, 1⟩⟩, ⟨⟨1, 0, 1⟩, ⟨0, 0, 1⟩, ⟨1, 0, 0, 1⟩⟩]
    (by intro i; fin_cases i <;> rfl) (fun _ => 1 / 2) ⟨fun _ => by norm_num, by norm_num⟩
  exact ⟨d, hd, sh, h1, h2 _ (by simp)⟩

/-- C91: with any light whose direction has length one, a surface with a normal is as bright as the ambient light plus the diffuse light times the cosine of the angle at
which the light falls on it, nothing if it falls on the back. -/
theorem C91_light (any : V3) (l : Light) (hd : l.direction.norm = 1) (c : V4) (n : V3) (hn : 0 < n.norm) :
    ∃ b : ℝ, fragment any l none c n = ⟨c.x * (l.color.x * b), c.y * (l.color.y * b), c.z * (l.color.z * b), c.w * b⟩ ∧
      b = l.ambient + l.diffuse * max 0 (n.dot (-l.direction) / n.norm) ∧ n.dot (-l.direction) / n.norm ≤ 1 := by
  have hdot : (normalizeOr any n).dot (-l.direction) = n.dot (-l.direction) / n.norm := by
    simp only [normalizeOr, hn.ne', if_false, V3.normalized, V3.dot]
    simp only [V3.smul_x, V3.smul_y, V3.smul_z]
    ring
  refine ⟨_, ?_, rfl, ?_⟩
  · unfold fragment
    simp only [hdot]
    split_ifs with h
    · simp only [V4.times, V4.plus, Light.scaled, max_eq_right h.le]
      congr 1 <;> ring
    · simp only [V4.times, V4.plus, Light.scaled, max_eq_left (not_lt.mp h)]
      congr 1 <;> ring
  · rw [div_le_one hn]
    have h1 : n.dot (-l.direction) ^ 2 ≤ n.normSq * l.direction.normSq := by
      simp only [V3.dot, V3.normSq, V3.neg_x, V3.neg_y, V3.neg_z]
      nlinarith [sq_nonneg (n.x * l.direction.y - n.y * l.direction.x), sq_nonneg (n.x * l.direction.z - n.z * l.direction.x),
        sq_nonneg (n.y * l.direction.z - n.z * l.direction.y)]
    have h2 : l.direction.normSq = 1 := by
      have := hd
      unfold V3.norm at this
      rwa [Real.sqrt_eq_one] at this
    rw [h2, mul_one] at h1
    exact Real.le_sqrt_of_sq_le h1

/-- Non-vacuity: light from above on a level surface. -/
example (any : V3) : fragment any ⟨⟨1, 1, 1⟩, 0.2, ⟨0, 0, -1⟩, 0.5⟩ none ⟨1, 1, 0, 1⟩ ⟨0, 0, 2⟩ = ⟨0.7, 0.7, 0, 0.7⟩ := by
  have h2 : V3.norm ⟨0, 0, 2⟩ = 2 := by
    rw [V3.norm, V3.normSq, show ((0:ℝ) ^ 2 + 0 ^ 2 + 2 ^ 2) = 2 ^ 2 by norm_num, Real.sqrt_sq (by norm_num)]
  obtain ⟨b, h, hb, -⟩ := C91_light any ⟨⟨1, 1, 1⟩, 0.2, ⟨0, 0, -1⟩, 0.5⟩ (by rw [V3.norm, V3.normSq]; norm_num) ⟨1, 1, 0, 1⟩ ⟨0, 0, 2⟩ (by rw [h2]; norm_num)
  rw [h, hb, h2]
  simp only [V3.dot, V3.neg_x, V3.neg_y, V3.neg_z]
  norm_num

end Rovio.Scene3D
