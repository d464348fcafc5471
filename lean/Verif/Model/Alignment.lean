import Verif.Model.MultilevelPatch
import Mathlib.Analysis.SpecialFunctions.Pow.Real
import Mathlib.LinearAlgebra.Matrix.NonsingularInverse

/-!
# Model of `include/rovio/MultilevelPatchAlignment.hpp`

`none` is undefined behaviour (reads outside an image, null camera, missing level).  A NaN produced by
a division by zero (singular warp, constant reference patch) is the explicit outcome `nonfinite`.
The caches inside the object (`extractedPatches_`, `mlpError_`, `mlpTemp_`, the gradient parameters of
the reference patch) are recomputed here instead of threaded: each is completely overwritten before it
is read (`mutable` members holding the same value, cf. C27).  The SVD solver (Eigen) is a parameter.
`align2D_old` is not modelled: it calls a four argument `levelTranformCoordinates` that does not
exist, so it cannot be instantiated.  The debug-build `assert(false)` on a NaN update is
not modelled.  `getLinearAlignEquationsReduced` is modelled with Eigen's QR decomposition as a parameter (`QR`,
`reduced`).
-/

namespace Rovio

/-- The settings of the alignment object, include/rovio/MultilevelPatchAlignment.hpp:56-61. -/
structure AlignCfg where
  huber : ℝ
  w : ℕ → ℝ
  useWeighting : Bool
  useOffset : Bool
  useSqew : Bool
  gradExp : ℝ

namespace AlignCfg

/-- `const int x_coor = x-0.5*(patch_size-1)`, include/rovio/MultilevelPatchAlignment.hpp:84-85 (the
value always fits an `int`). -/
noncomputable def coor (p x : ℕ) : ℤ := truncZ ((x : ℝ) - 0.5 * ((p : ℝ) - 1))

/-- `computeWeightings(sigma)`, include/rovio/MultilevelPatchAlignment.hpp:78-91. -/
noncomputable def computeWeightings (p nLevels : ℕ) (cfg : AlignCfg) (sigma : ℝ) : AlignCfg :=
  let use := decide (sigma > 0)
  if use then
    { cfg with
      useWeighting := use
      w := fun k => if k < nLevels * (p * p) then
          let x := k % (p * p) % p
          let y := k % (p * p) / p
          Real.exp (-((coor p x * coor p x + coor p y * coor p y : ℤ) : ℝ) / (2 * sigma * sigma))
        else cfg.w k }
  else { cfg with useWeighting := use }

end AlignCfg

/-- What the first loop stores per pixel, include/rovio/MultilevelPatchAlignment.hpp:148-160: the
weight `*it_w`, reference value `*it_patch`, extracted value `*it_patch_extracted` and the error
gradients `*it_dx_error`, `*it_dy_error`. -/
structure Raw where
  w : ℝ
  x : ℝ
  y : ℝ
  dx : ℝ
  dy : ℝ

/-- One row of the equations `A*x = b`. -/
structure Row where
  a0 : ℝ
  a1 : ℝ
  b : ℝ

/-- Outcome of `getLinearAlignEquations`: returned `false`; returned `true` with NaN entries; returned
`true`. -/
inductive EqRes where
  | fail
  | nonfinite
  | ok (rows : List Row)

namespace Align

/-- One iteration of the pixel loop, include/rovio/MultilevelPatchAlignment.hpp:155-167, for pixel `k`
of level `l`: `P` is the reference patch after `computeGradientParameters`, `E` the extracted one. -/
noncomputable def rawPixel (p : ℕ) (cfg : AlignCfg) (affInv : M2) (near : Bool) (l : ℕ) (P E : Patch) (k : ℕ) : Raw :=
  let Jx := -(0.5 : ℝ) ^ l * P.dx k
  let Jy := -(0.5 : ℝ) ^ l * P.dy k
  { w := cfg.w (l * p * p + k), x := P.patch k, y := E.patch k
    dx := if near then Jx else Jx * affInv.a + Jy * affInv.c
    dy := if near then Jy else Jx * affInv.b + Jy * affInv.d }

/-- One level of the first loop, include/rovio/MultilevelPatchAlignment.hpp:137-203 (`none` inside =
level not used).  `ex` are the previous contents of `extractedPatches_`. -/
noncomputable def rawLevel (p : ℕ) (cfg : AlignCfg) (junk : FC) (pyr : List Level) (mp : MLP) (ex : ℕ → Patch)
    (c : FC) (affInv : M2) (near : Bool) (l : ℕ) : Option (Option (List Raw)) := do
  let (_, cl) ← levelTransform junk pyr c 0 l
  if mp.isValidPatch l then
    let lvl ← pyr[l]?
    let (cl, b) ← Patch.isPatchInFrame p lvl.img cl false
    if b then
      let P := (mp.patches l).computeGradientParameters p
      if P.validGradient then
        let (_, E) ← Patch.extractPatchFromImage p (ex l) lvl.img cl false
        return some ((List.range (p * p)).map (rawPixel p cfg affInv near l P E))
      else return none
    else return none
  else return none

/-- The brightness regression, include/rovio/MultilevelPatchAlignment.hpp:209. -/
structure Reg where
  a : ℝ
  adx : ℝ
  ady : ℝ
  b : ℝ
  bdx : ℝ
  bdy : ℝ

/-- Weight of a pixel in the means, include/rovio/MultilevelPatchAlignment.hpp:169-182. -/
def wt (cfg : AlignCfg) (r : Raw) : ℝ := if cfg.useWeighting then r.w else 1

/-- An accumulated sum of the first loop, e.g. include/rovio/MultilevelPatchAlignment.hpp:170. -/
def S (cfg : AlignCfg) (raws : List Raw) (f : Raw → ℝ) : ℝ := (raws.map fun r => wt cfg r * f r).sum

/-- A mean, e.g. include/rovio/MultilevelPatchAlignment.hpp:211. -/
noncomputable def mean (cfg : AlignCfg) (raws : List Raw) (f : Raw → ℝ) : ℝ := S cfg raws f / S cfg raws (fun _ => 1)

/-- The regression, include/rovio/MultilevelPatchAlignment.hpp:209-246; `none` if a division by zero
makes it NaN. -/
noncomputable def regress (cfg : AlignCfg) (raws : List Raw) : Option Reg :=
  let m := mean cfg raws
  let mx := m (·.x)
  let my := m (·.y)
  let mdx := m (·.dx)
  let mdy := m (·.dy)
  let var := m (fun r => r.x * r.x) - mx * mx
  if S cfg raws (fun _ => 1) = 0 then none
  else if cfg.useSqew ∧ var = 0 then none
  else
    let ra : ℝ × ℝ × ℝ :=
      if cfg.useSqew then
        let a := (m (fun r => r.x * r.y) - mx * my) / var
        if a < 0.5 then (0.5, 0, 0)
        else (a, (m (fun r => r.x * r.dx) - mx * mdx) / var, (m (fun r => r.x * r.dy) - mx * mdy) / var)
      else (1, 0, 0)
    let rb : ℝ × ℝ × ℝ :=
      if cfg.useOffset then (my - ra.1 * mx, mdx - ra.2.1 * mx, mdy - ra.2.2 * mx)
      else (0, 0, 0)
    some ⟨ra.1, ra.2.1, ra.2.2, rb.1, rb.2.1, rb.2.2⟩

/-- Error and gradient after the brightness fix, include/rovio/MultilevelPatchAlignment.hpp:263-270
(`none` = no regression was requested). -/
noncomputable def fixed (reg : Option Reg) (r : Raw) : Row :=
  match reg with
  | none => ⟨r.dx, r.dy, r.y - r.x⟩
  | some g => ⟨g.a * (r.dx - g.adx * r.x - g.bdx), g.a * (r.dy - g.ady * r.x - g.bdy), r.y - g.a * r.x - g.b⟩

/-- The Huber norm, include/rovio/MultilevelPatchAlignment.hpp:272-280. -/
noncomputable def huberRow (k : ℝ) (r : Row) : Row :=
  if k > 0 then
    let bAbs := |r.b|
    if bAbs > k then
      let sgn : ℝ := if 0 ≤ r.b then 1 else -1
      let b := Real.sqrt (k * (2.0 * bAbs - k)) * sgn
      let f := k / b * sgn
      ⟨f * r.a0, f * r.a1, b⟩
    else r
  else r

/-- Scaling of a row, include/rovio/MultilevelPatchAlignment.hpp:284-286, 290-292. -/
def scaleRow (s : ℝ) (r : Row) : Row := ⟨r.a0 * s, r.a1 * s, r.b * s⟩

/-- `gradientBasedWeighting`, include/rovio/MultilevelPatchAlignment.hpp:283, from the gradient before
the Huber scaling. -/
noncomputable def gradWeight (e dx dy : ℝ) : ℝ := 1.0 - ((dx * dx + dy * dy) / (2 * 128 * 128)) ^ (0.5 * e)

/-- One iteration of the second pixel loop, include/rovio/MultilevelPatchAlignment.hpp:262-294. -/
noncomputable def rowOf (cfg : AlignCfg) (reg : Option Reg) (r : Raw) : Row :=
  let f := fixed reg r
  let h := huberRow cfg.huber f
  let g := if cfg.gradExp > 0 then scaleRow (gradWeight cfg.gradExp f.a0 f.a1) h else h
  if cfg.useWeighting then scaleRow r.w g else g

/-- Second half of `getLinearAlignEquations`, include/rovio/MultilevelPatchAlignment.hpp:205-299, given
the levels that were used. -/
noncomputable def assemble (cfg : AlignCfg) (lvls : List (List Raw)) : EqRes :=
  if lvls = [] then .fail
  else
    let raws := lvls.flatten
    if cfg.useOffset || cfg.useSqew then
      match regress cfg raws with
      | none => .nonfinite
      | some g => .ok (raws.map (rowOf cfg (some g)))
    else .ok (raws.map (rowOf cfg none))

/-- `getLinearAlignEquations`, include/rovio/MultilevelPatchAlignment.hpp:112-299.  The queried
coordinates object (whose caches may be filled) is returned. -/
noncomputable def equations (p : ℕ) (cfg : AlignCfg) (junk : FC) (ex : ℕ → Patch) (pyr : List Level) (mp : MLP)
    (c : FC) (l1 l2 : ℕ) : Option (FC × EqRes) := do
  let (c, b) ← c.comC
  if !b then return (c, .fail)
  let (c, b) ← c.comWarpC
  if !b then return (c, .fail)
  let (c, W) ← c.getWarpC
  let (c, near) ← c.isNearIdentityWarping
  let lvls ← (List.range' l1 (l2 + 1 - l1)).mapM (rawLevel p cfg junk pyr mp ex c W.inv near)
  let used := lvls.filterMap id
  if used ≠ [] ∧ near = false ∧ W.det = 0 then return (c, .nonfinite)
  return (c, assemble cfg used)

/-- What the linear solver did with `A_`, `b_`, include/rovio/MultilevelPatchAlignment.hpp:531-535:
fewer than two non-zero singular values; a NaN update; an update. -/
inductive SolveRes where
  | lowRank
  | nonfinite
  | ok (u : V2)

/-- Result of an alignment: the output coordinates, whether their pixel is NaN, the return value. -/
structure Out where
  c : FC
  nan : Bool
  ok : Bool

/-- The solver call, include/rovio/MultilevelPatchAlignment.hpp:529-535: not reached if
`getLinearAlignEquations` returned `false`. -/
def answer (solve : Option (List Row) → SolveRes) (r : EqRes) : Option SolveRes :=
  match r with
  | .fail => none
  | .nonfinite => some (solve none)
  | .ok rows => some (solve (some rows))

/-- The iteration of `align2D`, include/rovio/MultilevelPatchAlignment.hpp:523-543, with `fuel`
iterations left.  `solve` is the SVD solver applied to the rows; on NaN input (`none`) its answer is
still its own. -/
noncomputable def loop (solve : Option (List Row) → SolveRes) (eqs : FC → Option (FC × EqRes)) (minPixUpd : ℝ) :
    ℕ → FC → Option Out
  | 0, c => some ⟨c, false, false⟩
  | fuel + 1, c => do
    let (c, _) ← c.getC
    let (c, r) ← eqs c
    match answer solve r with
    | none => return ⟨c, false, false⟩
    | some .lowRank => return ⟨c, false, false⟩
    | some .nonfinite => return ⟨c.setC c.c false, true, false⟩
    | some (.ok u) =>
      let (c, q) ← c.getC
      let c := c.setC (q + u) false
      if u.x * u.x + u.y * u.y < minPixUpd * minPixUpd then return ⟨c, false, true⟩
      else loop solve eqs minPixUpd fuel c

/-- `align2D`, include/rovio/MultilevelPatchAlignment.hpp:515-544 (negative `maxIter` behaves as 0).
After a NaN update the remaining iteration, if any, returns `false` at line 525-528. -/
noncomputable def align2D (p : ℕ) (cfg : AlignCfg) (junk : FC) (ex : ℕ → Patch) (solve : Option (List Row) → SolveRes)
    (pyr : List Level) (mp : MLP) (cInit : FC) (l1 l2 : ℕ) (maxIter : ℕ := 10) (minPixUpd : ℝ := 0.03) : Option Out :=
  loop solve (fun c => equations p cfg junk ex pyr mp c l1 l2) minPixUpd maxIter cInit

/-- `align2DSingleLevel`, include/rovio/MultilevelPatchAlignment.hpp:555-557. -/
noncomputable def align2DSingleLevel (p : ℕ) (cfg : AlignCfg) (junk : FC) (ex : ℕ → Patch) (solve : Option (List Row) → SolveRes)
    (pyr : List Level) (mp : MLP) (cInit : FC) (l : ℕ) : Option Out :=
  align2D p cfg junk ex solve pyr mp cInit l l

/-- The loop of `align2DComposed`, include/rovio/MultilevelPatchAlignment.hpp:573-578, over the listed
start levels. -/
noncomputable def composedLoop (al : FC → ℕ → Option Out) : List ℕ → FC → Option Out
  | [], c => some ⟨c, false, true⟩
  | l :: ls, c => do
    let o ← al c l
    if o.ok then composedLoop al ls o.c else return o

/-- `align2DComposed`, include/rovio/MultilevelPatchAlignment.hpp:570-580: start levels
`start_level, start_level-1, …, highest_level`. -/
noncomputable def align2DComposed (p : ℕ) (cfg : AlignCfg) (junk : FC) (ex : ℕ → Patch) (solve : Option (List Row) → SolveRes)
    (pyr : List Level) (mp : MLP) (cInit : FC) (lowest highest start : ℕ) : Option Out :=
  composedLoop (fun c l => align2D p cfg junk ex solve pyr mp c l lowest)
    (List.range' highest (start + 1 - highest)).reverse cInit

/-- The seed distance `convergencePixelRange*pow(2.0,lowest_level+1)`,
include/rovio/MultilevelPatchAlignment.hpp:598, 603. -/
noncomputable def seedStep (range : ℝ) (lowest : ℕ) : ℝ := range * 2.0 ^ (lowest + 1)

/-- `n`, include/rovio/MultilevelPatchAlignment.hpp:598 (converting a value that does not fit an `int`
is undefined).  The divisor is assumed non-zero by the theorems. -/
noncomputable def seedCount (sigma1 coverage range : ℝ) (lowest : ℕ) (maxUni : ℤ) : Option ℤ :=
  (cInt (⌈(sigma1 * coverage) / seedStep range lowest - 0.5⌉ : ℝ)).map fun z => min (max z 0) maxUni

/-- State of the loop of `align2DAdaptive`: `cOut` and the best match so far
(`bestIntensityError_ = -1` is `none`). -/
structure Ad where
  c : FC
  best : Option (FC × ℝ)

/-- One iteration of the loop of `align2DAdaptive`, include/rovio/MultilevelPatchAlignment.hpp:602-615.
`al` is `align2D` on these images, `evalAt` returns the average error if the patch is in frame. -/
noncomputable def adStep (al : FC → Option Out) (evalAt : FC → Option (FC × Option ℝ)) (q dir : V2) (step : ℝ)
    (st : Ad) (i : ℤ) : Option Ad := do
  let o ← al (st.c.setC (q + (i * step) • dir) false)
  if o.ok then
    let (c, e) ← evalAt o.c
    match e with
    | none => return ⟨c, st.best⟩
    | some err =>
      match st.best with
      | none => return ⟨c, some (c, err)⟩
      | some (_, be) => if err < be then return ⟨c, some (c, err)⟩ else return ⟨c, st.best⟩
  else return ⟨o.c, st.best⟩

/-- Lines 605-609 of include/rovio/MultilevelPatchAlignment.hpp: in-frame test, extraction and average
difference. -/
noncomputable def evalAt (p : ℕ) (junk : FC) (tmp : MLP) (pyr : List Level) (mp : MLP) (lowest highest : ℕ) (c : FC) :
    Option (FC × Option ℝ) := do
  let (c, b) ← MLP.isMultilevelPatchInFrame p junk pyr c lowest false
  if b then
    let (c, m) ← MLP.extractMultilevelPatchFromImage p junk tmp pyr c lowest false
    return (c, some (MLP.computeAverageDifference p m mp highest lowest))
  else return (c, none)

/-- The seeds `-n, …, n`. -/
def seeds (n : ℤ) : List ℤ := (List.range (2 * n + 1).toNat).map fun k : ℕ => (k : ℤ) - n

/-- `align2DAdaptive`, include/rovio/MultilevelPatchAlignment.hpp:594-621.  `sigma1`, `dir` are
`cInit.sigma1_`, `cInit.eigenVector1_`. -/
noncomputable def align2DAdaptive (p : ℕ) (cfg : AlignCfg) (junk : FC) (ex : ℕ → Patch) (tmp : MLP)
    (solve : Option (List Row) → SolveRes) (pyr : List Level) (mp : MLP) (cInit : FC) (sigma1 : ℝ) (dir : V2)
    (lowest highest : ℕ) (range coverage : ℝ) (maxUni : ℤ) : Option Out := do
  let n ← seedCount sigma1 coverage range lowest maxUni
  if n = 0 then align2D p cfg junk ex solve pyr mp cInit highest lowest
  else if seeds n = [] then return ⟨cInit, false, false⟩
  else
    let (_, q) ← cInit.getC
    let st ← (seeds n).foldlM (adStep (fun c => align2D p cfg junk ex solve pyr mp c highest lowest)
      (evalAt p junk tmp pyr mp lowest highest) q dir (seedStep range lowest)) ⟨cInit, none⟩
    match st.best with
    | none => return ⟨st.c, false, false⟩
    | some (c, _) => return ⟨c, false, true⟩

/-! ### Reduced equations -/

/-- The matrix `A_` (include/rovio/MultilevelPatchAlignment.hpp:62). -/
def rowsA (rows : List Row) : Matrix (Fin rows.length) (Fin 2) ℝ := fun i j => if j = 0 then rows[i].a0 else rows[i].a1

/-- The vector `b_` (include/rovio/MultilevelPatchAlignment.hpp:63). -/
def rowsB (rows : List Row) : Fin rows.length → ℝ := fun i => rows[i].b

/-- What `Eigen::ColPivHouseholderQR` stores (used at include/rovio/MultilevelPatchAlignment.hpp:312-316): the orthogonal factor, the packed matrix
returned by `matrixR()` (triangular factor on and above the diagonal, Householder vectors below it) and the column permutation. -/
structure QR (m : ℕ) where
  Q : Matrix (Fin m) (Fin m) ℝ
  packed : Matrix (Fin m) (Fin 2) ℝ
  perm : Equiv.Perm (Fin 2)

/-- The triangular factor stored in the packed matrix (Eigen's documented storage, used at
include/rovio/MultilevelPatchAlignment.hpp:314). -/
def QR.upper {m : ℕ} (d : QR m) : Matrix (Fin m) (Fin 2) ℝ := fun i j => if i.val ≤ j.val then d.packed i j else 0

/-- `colsPermutation()` as a matrix in Eigen's convention (column `j` is the unit vector of index `perm j`), used at
include/rovio/MultilevelPatchAlignment.hpp:316. -/
def QR.P {m : ℕ} (d : QR m) : Matrix (Fin 2) (Fin 2) ℝ := fun i j => if d.perm j = i then 1 else 0

/-- Eigen's contract for the decomposition (assumed, not modelled): `A * P = Q * R` with orthogonal `Q` (used at
include/rovio/MultilevelPatchAlignment.hpp:312). -/
structure QR.Decomposes {m : ℕ} (d : QR m) (A : Matrix (Fin m) (Fin 2) ℝ) : Prop where
  orth : d.Q.transpose * d.Q = 1
  eq : A * d.P = d.Q * d.upper

/-- `getLinearAlignEquationsReduced`, include/rovio/MultilevelPatchAlignment.hpp:308-319, after the equations have been set up: `b_red` is the head of
`Q⁻¹ b`, `A_red` the upper 2×2 block of the packed matrix with entry (1,0) cleared, times the column permutation.  Fewer than two rows would be
an out-of-range block (`none`).  The double overload (337-347) only casts. -/
noncomputable def reduced {m : ℕ} (d : QR m) (b : Fin m → ℝ) : Option (Matrix (Fin 2) (Fin 2) ℝ × (Fin 2 → ℝ)) :=
  if h : 2 ≤ m then
    let b_red : Fin 2 → ℝ := fun i => (d.Q⁻¹).mulVec b (i.castLE h)
    let A_red : Matrix (Fin 2) (Fin 2) ℝ := fun i j => if i = 1 ∧ j = 0 then 0.0 else d.packed (i.castLE h) j
    some (A_red * d.P, b_red)
  else none

end Align

end Rovio
