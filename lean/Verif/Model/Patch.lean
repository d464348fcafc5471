import Verif.Model.Pyramid

/-!
# Model of `include/rovio/Patch.hpp`

`p` is the template argument `patchSize` (even, at least 2: a zero-sized array is not valid C++).
Arrays are functions of the flat index, row-major as in the code; `float` is real.  Images have at
most `INT_MAX` rows and columns (stated as a hypothesis where it matters).  The drawing functions are
modelled in `Verif/Model/Draw.lean`.
-/

namespace Rovio

/-- `const int u = floor(x)` (e.g. include/rovio/Patch.hpp:215): undefined if the value does not fit
in a 32 bit `int`. -/
noncomputable def floorInt (x : ℝ) : Option ℤ :=
  if -2147483648 ≤ ⌊x⌋ ∧ ⌊x⌋ ≤ 2147483647 then some ⌊x⌋ else none

/-- Data members, include/rovio/Patch.hpp:44-54. -/
structure Patch where
  patch : ℕ → ℝ
  border : ℕ → ℝ
  dx : ℕ → ℝ
  dy : ℕ → ℝ
  H : M3
  s : ℝ
  e0 : ℝ
  e1 : ℝ
  validGradient : Bool

/-- `patchSize/2+(int)withBorder`, include/rovio/Patch.hpp:202, 242. -/
def halfPatch (p : ℕ) (wb : Bool) : ℕ := p / 2 + (if wb then 1 else 0)

namespace Patch

/-- The constructor, include/rovio/Patch.hpp:57-63 (the arrays are uninitialised). -/
def construct (junk : Patch) : Patch := { junk with validGradient := false, s := 0, e0 := 0, e1 := 0 }

/-- `J` in the loop body of `computeGradientParameters`, include/rovio/Patch.hpp:82-86: `it` points
to index `(y+1)*refStep + 1 + x` of the expanded patch. -/
noncomputable def gradAt (p : ℕ) (border : ℕ → ℝ) (y x : ℕ) : V3 :=
  let refStep := p + 2
  let it := (y + 1) * refStep + 1 + x
  ⟨0.5 * (border (it + 1) - border (it - 1)), 0.5 * (border (it + refStep) - border (it - refStep)), 1⟩

/-- The values of `J` in loop order, include/rovio/Patch.hpp:81-91. -/
noncomputable def gradList (p : ℕ) (border : ℕ → ℝ) : List V3 :=
  (List.range p).flatMap fun y => (List.range p).map fun x => gradAt p border y x

/-- `H_ += J*J.transpose()` over the loop, include/rovio/Patch.hpp:74, 89. -/
def sumOuter (js : List V3) : M3 := js.foldl (fun H J => H + M3.outer J J) 0

/-- The smaller eigenvalue formula, include/rovio/Patch.hpp:96 and MultilevelPatch.hpp:98. -/
noncomputable def eig0 (dXX dYY dXY : ℝ) : ℝ :=
  0.5 * (dXX + dYY - Real.sqrt ((dXX + dYY) * (dXX + dYY) - 4 * (dXX * dYY - dXY * dXY)))

/-- The larger eigenvalue formula, include/rovio/Patch.hpp:97 and MultilevelPatch.hpp:99. -/
noncomputable def eig1 (dXX dYY dXY : ℝ) : ℝ :=
  0.5 * (dXX + dYY + Real.sqrt ((dXX + dYY) * (dXX + dYY) - 4 * (dXX * dYY - dXY * dXY)))

/-- `computeGradientParameters`, include/rovio/Patch.hpp:72-101. -/
noncomputable def computeGradientParameters (p : ℕ) (s : Patch) : Patch :=
  if s.validGradient then s
  else
    let H := sumOuter (gradList p s.border)
    let dXX := H.r1.x / (p * p)
    let dYY := H.r2.y / (p * p)
    let dXY := H.r1.y / (p * p)
    let e0 := eig0 dXX dYY dXY
    let e1 := eig1 dXX dYY dXY
    { s with
      dx := fun k => if k < p * p then (gradAt p s.border (k / p) (k % p)).x else s.dx k
      dy := fun k => if k < p * p then (gradAt p s.border (k / p) (k % p)).y else s.dy k
      H := H, e0 := e0, e1 := e1, s := e0 + e1, validGradient := true }

/-- `getHessian`, `getScore`, include/rovio/Patch.hpp:122-152: compute the gradient parameters if
necessary and return the member. -/
noncomputable def getHessian (p : ℕ) (s : Patch) : Patch × M3 :=
  let s := s.computeGradientParameters p
  (s, s.H)

/-- `getScore`, include/rovio/Patch.hpp:122-125. -/
noncomputable def getScore (p : ℕ) (s : Patch) : Patch × ℝ :=
  let s := s.computeGradientParameters p
  (s, s.s)

/-- `extractPatchFromPatchWithBorder`, include/rovio/Patch.hpp:106-114. -/
def extractPatchFromPatchWithBorder (p : ℕ) (s : Patch) : Patch :=
  { s with patch := fun k => if k < p * p then s.border ((k / p + 1) * (p + 2) + 1 + k % p) else s.patch k }

/-- One iteration of the corner loop of `isPatchInFrame`, include/rovio/Patch.hpp:211-221: `true` if
the corner passes. -/
noncomputable def cornerOk (img : Img) (q : V2) (W : M2) (hs : ℕ) (yx : ℕ × ℕ) : Option Bool := do
  let dx : ℝ := (yx.2 : ℝ) - hs + 0.5
  let dy : ℝ := (yx.1 : ℝ) - hs + 0.5
  let wdx := W.a * dx + W.b * dy
  let wdy := W.c * dx + W.d * dy
  let u ← floorInt (q.x + wdx - 0.5)
  let v ← floorInt (q.y + wdy - 0.5)
  return !(decide (u < 0) || decide (v < 0) || decide ((img.cols : ℤ) - 1 ≤ u) || decide ((img.rows : ℤ) - 1 ≤ v))

/-- The corner loop of `isPatchInFrame`, include/rovio/Patch.hpp:209-224: the loops over `y` and `x`
with step `2*halfpatch_size-1` visit the two values `0` and `2*halfpatch_size-1`; the first failing
corner ends them. -/
noncomputable def cornersOk (img : Img) (q : V2) (W : M2) (hs : ℕ) : Option Bool :=
  [(0, 0), (0, 2 * hs - 1), (2 * hs - 1, 0), (2 * hs - 1, 2 * hs - 1)].allM (cornerOk img q W hs)

/-- `isPatchInFrame`, include/rovio/Patch.hpp:200-230.  Repeated queries of `c` in the
loop are made once (after the first they only return the cached value). -/
noncomputable def isPatchInFrame (p : ℕ) (img : Img) (c : FC) (wb : Bool) : Option (FC × Bool) :=
  if c.isInFront then do
    let (c, b) ← c.comWarpC
    if b then
      let hs := halfPatch p wb
      let (c, near) ← c.isNearIdentityWarping
      if near then
        let (c, q) ← c.getC
        return (c, !(decide (q.x < hs) || decide (q.y < hs) || decide ((img.cols : ℝ) - hs < q.x) || decide ((img.rows : ℝ) - hs < q.y)))
      else
        let (c, W) ← c.getWarpC
        let (c, q) ← c.getC
        let ok ← cornersOk img q W hs
        return (c, ok)
    else return (c, false)
  else some (c, false)

/-- The interpolation of one patch pixel, include/rovio/Patch.hpp:269-272 and 293-296: `img_ptr`
points to row `v`, column `u`. -/
noncomputable def bilinear (img : Img) (v u : ℤ) (sx sy : ℝ) : Option ℝ := do
  let wTL := (1.0 - sx) * (1.0 - sy)
  let wTR := sx * (1.0 - sy)
  let wBL := (1.0 - sx) * sy
  let wBR := sx * sy
  let tl ← img.read v u
  let r := wTL * (tl : ℝ)
  let r ← if sx > 0 then (img.read v (u + 1)).map (fun g => r + wTR * (g : ℝ)) else some r
  let r ← if sy > 0 then (img.read (v + 1) u).map (fun g => r + wBL * (g : ℝ)) else some r
  if sx > 0 ∧ sy > 0 then (img.read (v + 1) (u + 1)).map (fun g => r + wBR * (g : ℝ)) else some r

/-- One pixel of the unwarped extraction, include/rovio/Patch.hpp:254-274. -/
noncomputable def samplePlain (img : Img) (q : V2) (hs y x : ℕ) : Option ℝ := do
  let u ← floorInt q.x
  let v ← floorInt q.y
  bilinear img (v + y - hs) (u + x - hs) (q.x - u) (q.y - v)

/-- One pixel of the warped extraction, include/rovio/Patch.hpp:278-296. -/
noncomputable def sampleWarped (img : Img) (q : V2) (W : M2) (hs y x : ℕ) : Option ℝ := do
  let dx : ℝ := (x : ℝ) - hs + 0.5
  let dy : ℝ := (y : ℝ) - hs + 0.5
  let wdx := W.a * dx + W.b * dy
  let wdy := W.c * dx + W.d * dy
  let up := q.x + wdx - 0.5
  let vp := q.y + wdy - 0.5
  let u ← floorInt up
  let v ← floorInt vp
  bilinear img v u (up - u) (vp - v)

/-- `extractPatchFromImage`, include/rovio/Patch.hpp:240-304.  The `assert` of line 241 is not
evaluated (release build); the question is exactly whether a check made before suffices. -/
noncomputable def extractPatchFromImage (p : ℕ) (old : Patch) (img : Img) (c : FC) (wb : Bool) :
    Option (FC × Patch) := do
  let hs := halfPatch p wb
  let w := 2 * hs
  let (c, near) ← c.isNearIdentityWarping
  let (c, g) ← (if near then do
      let (c, q) ← c.getC
      let g ← fill 0 w w (samplePlain img q hs)
      return (c, g)
    else do
      let (c, W) ← c.getWarpC
      let (c, q) ← c.getC
      let g ← fill 0 w w (sampleWarped img q W hs)
      return (c, g) : Option (FC × (ℕ → ℕ → ℝ)))
  let new := if wb then
      extractPatchFromPatchWithBorder p
        { old with border := fun k => if k < w * w then g (k / w) (k % w) else old.border k }
    else { old with patch := fun k => if k < w * w then g (k / w) (k % w) else old.patch k }
  return (c, { new with validGradient := false })

end Patch

end Rovio
