import Verif.Model.CNum
import Verif.Model.FeatureCoordinates
import Mathlib.Analysis.SpecialFunctions.Pow.Real
import Mathlib.Data.Fintype.Card
import Mathlib.Data.Fintype.Basic
import Mathlib.Data.List.FinRange

/-!
# Model of `include/rovio/FeatureManager.hpp` (class `FeatureSetManager`)

`none` is undefined behaviour: writing to `features_[-1]`, indexing the bucket vector out of range, a
float-to-integer conversion that does not fit, or (never reached, proved) exhausted loop fuel.
`std::unordered_set<int>` is an arbitrary implementation `USet` satisfying the contract of the standard
(`USet.Lawful`), so nothing depends on the hash order.  Logging is dropped, `float` and `double` are
reals and the identifier counter `maxIdx_` is unbounded.
-/

namespace Rovio

/-- An implementation of `std::unordered_set<int>` (include/rovio/FeatureManager.hpp:308): `elems`
lists the elements in iteration order. -/
structure USet where
  σ : Type
  empty : σ
  insert : σ → ℕ → σ
  erase : σ → ℕ → σ
  elems : σ → List ℕ

/-- The contract of `std::unordered_set`: inserting an absent element adds it somewhere and may
reorder everything (rehash), inserting a present one keeps the elements, erasing keeps the order of the
remaining elements (C++14 [unord.req]). -/
structure USet.Lawful (I : USet) : Prop where
  empty : I.elems I.empty = []
  insert_new : ∀ s x, x ∉ I.elems s → (I.elems (I.insert s x)).Perm (x :: I.elems s)
  insert_old : ∀ s x, x ∈ I.elems s → (I.elems (I.insert s x)).Perm (I.elems s)
  erase : ∀ s x, I.elems (I.erase s x) = (I.elems s).erase x

/-- One array position of `features_`/`isValid_`, include/rovio/FeatureManager.hpp:51-68 and 132-133.
`P` is the type of multilevel patches.  Distance and statistics of the feature are not touched by this
class and not part of the slot. -/
structure Slot (P : Type) where
  valid : Bool
  idx : ℤ
  coord : FC
  patch : P

/-- Data members, include/rovio/FeatureManager.hpp:132-135 (`nMax = n`). -/
structure FeatSet (P : Type) (n : ℕ) where
  slots : Fin n → Slot P
  maxIdx : ℕ

namespace FeatSet

variable {P : Type} {n : ℕ}

/-- `reset`, include/rovio/FeatureManager.hpp:181-186. -/
def reset (s : FeatSet P n) : FeatSet P n :=
  { slots := fun i => { s.slots i with valid := false }, maxIdx := 0 }

/-- `getFreeIndex`, include/rovio/FeatureManager.hpp:193-201 (`none` is the return value `false`). -/
def getFreeIndex (s : FeatSet P n) : Option (Fin n) :=
  (List.finRange n).find? fun i => (s.slots i).valid = false

/-- `getValidCount`, include/rovio/FeatureManager.hpp:207-213. -/
def getValidCount (s : FeatSet P n) : ℕ :=
  (List.finRange n).foldl (fun count i => if (s.slots i).valid = true then count + 1 else count) 0

/-- `makeNewFeature`, include/rovio/FeatureManager.hpp:220-229 (`none` is the returned index -1). -/
def makeNewFeature (s : FeatSet P n) : FeatSet P n × Option (Fin n) :=
  match s.getFreeIndex with
  | some i =>
    ({ slots := Function.update s.slots i { s.slots i with idx := s.maxIdx, valid := true },
       maxIdx := s.maxIdx + 1 }, some i)
  | none => (s, none)

/-- Removal of a feature, `fsm_.isValid_[i] = false`, include/rovio/ImgUpdate.hpp:798, 946, 961 and
include/rovio/featureTracker.hpp:210: frees the slot and keeps the identifier counter. -/
def removeFeature (s : FeatSet P n) (i : Fin n) : FeatSet P n :=
  { s with slots := Function.update s.slots i { s.slots i with valid := false } }

/-- `getAverageScore`, include/rovio/FeatureManager.hpp:235-246, over the scores `s_` of the patches. -/
noncomputable def getAverageScore (s : FeatSet P n) (score : P → ℝ) : ℝ :=
  let r := (List.finRange n).foldl (fun (acc : ℝ × ℕ) i =>
    if (s.slots i).valid = true then (acc.1 + max (score (s.slots i).patch) 0.0, acc.2 + 1) else acc) (0, 0)
  if r.2 > 0 then r.1 / r.2 else r.1

/-- Camera index selected by `setAllCameraPointers`, include/rovio/FeatureManager.hpp:161-169. -/
def cameraIndex (nCam : ℕ) (camID : ℤ) : ℤ :=
  if camID < nCam ∧ camID ≥ 0 then camID else 0

end FeatSet

/-- Arguments of `addBestCandidates`, include/rovio/FeatureManager.hpp:284-286, together with what the
call computes from image and cameras: candidate `i < nc` has pixel `cand i` (`candidates[i].get_c()`),
`inFrame i`/`shi i`/`patch i` are the results of the patch functions called in lines 293-301, `view`
is the pixel of an existing feature in camera `camID` if it is in front of it (lines 326-331:
`transformFeature`, `isInFront`, `get_c`) and `cam` is `cameras_[camID]`. -/
structure AddArgs (P : Type) where
  nc : ℕ
  cand : ℕ → V2
  inFrame : ℕ → Bool
  shi : ℕ → ℝ
  patch : ℕ → P
  view : Slot P → Option V2
  cam : CamI
  camID : ℤ
  maxAdded : ℤ
  nb : ℕ
  exponent : ℝ
  penaltyDistance : ℝ
  zeroPenalty : ℝ
  requireMax : Bool
  minScore : ℝ

namespace AddArgs

variable {P : Type} {n : ℕ} (A : AddArgs P)

/-- Squared pixel distance, include/rovio/FeatureManager.hpp:331 and 370. -/
def sqDist (p q : V2) : ℝ := (p.x - q.x) ^ 2 + (p.y - q.y) ^ 2

/-- `t2`, include/rovio/FeatureManager.hpp:322. -/
def t2 : ℝ := A.penaltyDistance ^ 2

/-- `multilevelPatches[i].s_` after lines 292-301 of include/rovio/FeatureManager.hpp. -/
def score (i : ℕ) : ℝ := if A.inFrame i then A.shi i else -1

/-- `maxScore` after the loop, include/rovio/FeatureManager.hpp:291-302. -/
noncomputable def maxScore : ℝ :=
  (List.range A.nc).foldl (fun m i => if A.inFrame i then (if A.shi i > m then A.shi i else m) else m) (-1.0)

/-- The bucket vector; only indices below `nb` exist. -/
abbrev Buckets (I : USet) := ℕ → I.σ

/-- One iteration of the filling loop, include/rovio/FeatureManager.hpp:311-318. -/
noncomputable def fillOne (I : USet) (bk : Buckets I) (i : ℕ) : Option (Buckets I) :=
  let relScore := (A.score i - A.minScore) / (A.maxScore - A.minScore)
  if relScore > 0.0 then
    match cUInt ⌈((A.nb : ℝ) - 1) * relScore ^ A.exponent⌉ with
    | none => none
    | some b =>
      let b := if b > A.nb - 1 then A.nb - 1 else b
      if b < A.nb then some (Function.update bk b (I.insert (bk b) i)) else none
  else some bk

/-- The filling loop, include/rovio/FeatureManager.hpp:308-318. -/
noncomputable def fill (I : USet) : Option (Buckets I) :=
  (List.range A.nc).foldlM (A.fillOne I) (fun _ => I.empty)

/-- `newBucketID` of the penalty, include/rovio/FeatureManager.hpp:333 and 372. -/
noncomputable def newBucket (b : ℕ) (d2 : ℝ) : Option ℕ :=
  (cInt ((b : ℝ) - (A.t2 - d2) / A.t2 * A.zeroPenalty)).map fun z => (max z 0).toNat

/-- Visit of one candidate in the penalty loop, include/rovio/FeatureManager.hpp:330-344 and 369-383. -/
noncomputable def visit (I : USet) (p : V2) (b : ℕ) (bk : Buckets I) (x : ℕ) : Option (Buckets I) :=
  let d2 := sqDist p (A.cand x)
  if d2 < A.t2 then
    match A.newBucket b d2 with
    | none => none
    | some nb' =>
      if b ≠ nb' then
        if nb' < A.nb then
          let bk := Function.update bk nb' (I.insert (bk nb') x)
          some (Function.update bk b (I.erase (bk b) x))
        else none
      else some bk
  else some bk

/-- Loop over one bucket, include/rovio/FeatureManager.hpp:329-345 and 368-384.  Erasing the visited
element keeps the rest of the iteration order, insertions go to other buckets. -/
noncomputable def penaliseBucket (I : USet) (p : V2) (bk : Buckets I) (b : ℕ) : Option (Buckets I) :=
  (I.elems (bk b)).foldlM (A.visit I p b) bk

/-- Loop over the buckets `1..hi`, include/rovio/FeatureManager.hpp:328-346 (`hi = nDetectionBuckets-1`)
and 367-385 (`hi = bucketID`). -/
noncomputable def penalise (I : USet) (p : V2) (hi : ℕ) (bk : Buckets I) : Option (Buckets I) :=
  (List.range' 1 hi).foldlM (A.penaliseBucket I p) bk

/-- Loop over the existing features, include/rovio/FeatureManager.hpp:324-350. -/
noncomputable def penaliseExisting (I : USet) (s : FeatSet P n) (bk : Buckets I) : Option (Buckets I) :=
  (List.finRange n).foldlM (fun bk i =>
    if (s.slots i).valid then
      match A.view (s.slots i) with
      | some p => A.penalise I p (A.nb - 1) bk
      | none => some bk
    else some bk) bk

/-- Writes to the new feature, include/rovio/FeatureManager.hpp:358-362. -/
def writeFeature (sl : Slot P) (nf : ℕ) : Slot P :=
  let c := sl.coord.setC (A.cand nf) true
  let c := { c with camID := A.camID }
  let c := c.setWarpIdentity
  { sl with coord := { c with cam := some A.cam }, patch := A.patch nf }

/-- State of the insertion loop. -/
structure St (P : Type) (n : ℕ) (I : USet) where
  set : FeatSet P n
  bk : Buckets I
  added : ℤ
  ids : Finset (Fin n)

/-- The `while` loop on one bucket, include/rovio/FeatureManager.hpp:355-386.  The loop is given fuel;
running out of it is `none`, and proved not to happen. -/
noncomputable def whileBucket (I : USet) (b : ℕ) : ℕ → St P n I → Option (St P n I)
  | 0, _ => none
  | fuel + 1, st =>
    match I.elems (st.bk b) with
    | [] => some st
    | nf :: _ =>
      if st.added < A.maxAdded ∧ st.set.getValidCount ≠ n then
        let bk := Function.update st.bk b (I.erase (st.bk b) nf)
        match st.set.makeNewFeature with
        | (_, none) => none
        | (set, some ind) =>
          let set := { set with slots := Function.update set.slots ind (A.writeFeature (set.slots ind) nf) }
          match A.penalise I (A.cand nf) b bk with
          | none => none
          | some bk => whileBucket I b fuel ⟨set, bk, st.added + 1, insert ind st.ids⟩
      else some st

/-- The `for` loop over the buckets, include/rovio/FeatureManager.hpp:354-387: buckets
`lo + k - 1, ..., lo` where `lo = !requireMax`. -/
noncomputable def addLoop (I : USet) (lo : ℕ) : ℕ → St P n I → Option (St P n I)
  | 0, st => some st
  | k + 1, st =>
    match A.whileBucket I (lo + k) (n + 1) st with
    | none => none
    | some st => addLoop I lo k st

/-- `addBestCandidates`, include/rovio/FeatureManager.hpp:284-390. -/
noncomputable def addBestCandidates (I : USet) (s : FeatSet P n) : Option (FeatSet P n × Finset (Fin n)) :=
  if A.maxScore ≤ A.minScore then some (s, ∅)
  else
    let lo := if A.requireMax then 0 else 1
    match A.fill I with
    | none => none
    | some bk =>
      match A.penaliseExisting I s bk with
      | none => none
      | some bk =>
        match A.addLoop I lo (A.nb - lo) ⟨s, bk, 0, ∅⟩ with
        | none => none
        | some st => some (st.set, st.ids)

/-! ### `addBestCandidatesNew` (not called anywhere in /repo) -/

/-- Number of grid cells along a side, include/rovio/FeatureManager.hpp:402-404 (sizes at least 1). -/
def nCells (size : ℕ) : ℕ := (size - 1) / 10 + 1

/-- `nRange`, include/rovio/FeatureManager.hpp:406. -/
noncomputable def nRange : Option ℤ := cInt (A.penaltyDistance / 10)

/-- Cell of a pixel, include/rovio/FeatureManager.hpp:428-430 and 451-452. -/
noncomputable def cellOf (c : V2) : Option (ℤ × ℤ) :=
  match cInt (c.x / 10), cInt (c.y / 10) with
  | some x, some y => some (x, y)
  | _, _ => none

/-- The accepted candidates with their cell number, include/rovio/FeatureManager.hpp:418-434. -/
noncomputable def cellList (rows : ℕ) : Option (List (ℕ × ℤ)) :=
  (List.range A.nc).foldlM (fun acc i =>
    if A.inFrame i ∧ ¬ A.shi i < A.minScore then
      match cellOf (A.cand i) with
      | some (xc, yc) => some (acc ++ [(i, xc * nCells rows + yc)])
      | none => none
    else some acc) []

/-- Weight increase around a cell, include/rovio/FeatureManager.hpp:453-457 and 479-483; the double
loop visits every cell of the clipped square once. -/
noncomputable def addWeights (cols rows : ℕ) (range : ℤ) (xc yc : ℤ) (w : ℕ → ℝ) : ℕ → ℝ := fun k =>
  let x : ℤ := k / nCells rows
  let y : ℤ := k % nCells rows
  if max (xc - range) 0 ≤ x ∧ x < min (xc + range + 1) (nCells cols) ∧
     max (yc - range) 0 ≤ y ∧ y < min (yc + range + 1) (nCells rows) then
    w k + max (1.0 - Real.sqrt (((x - xc) * (x - xc) + (y - yc) * (y - yc) : ℤ)) / A.penaltyDistance) 0.0 * A.zeroPenalty
  else w k

/-- Weights of the existing features, include/rovio/FeatureManager.hpp:443-460. -/
noncomputable def existingWeights (cols rows : ℕ) (range : ℤ) (s : FeatSet P n) : Option (ℕ → ℝ) :=
  (List.finRange n).foldlM (fun w i =>
    if (s.slots i).valid then
      match A.view (s.slots i) with
      | some p =>
        match cellOf p with
        | some (xc, yc) => some (A.addWeights cols rows range xc yc w)
        | none => none
      | none => some w
    else some w) (fun _ => 0)

/-- The insertion loop, include/rovio/FeatureManager.hpp:463-487.  Reading `weight` out of range and
writing to `features_[-1]` are undefined behaviour. -/
noncomputable def newLoop (cols rows : ℕ) (range : ℤ) :
    List (ℕ × ℤ) → (ℕ → ℝ) → ℤ → FeatSet P n → Finset (Fin n) → Option (FeatSet P n × Finset (Fin n))
  | [], _, _, s, ids => some (s, ids)
  | (nf, cell) :: l, w, added, s, ids =>
    if added < A.maxAdded then
      if 0 ≤ cell ∧ cell < nCells cols * nCells rows then
        if w cell.toNat < 100.0 then
          match s.makeNewFeature with
          | (_, none) => none
          | (s, some ind) =>
            let s := { s with slots := Function.update s.slots ind (A.writeFeature (s.slots ind) nf) }
            newLoop cols rows range l (A.addWeights cols rows range (cell / nCells rows) (cell % nCells rows) w)
              (added + 1) s (insert ind ids)
        else newLoop cols rows range l w added s ids
      else none
    else some (s, ids)

/-- `addBestCandidatesNew`, include/rovio/FeatureManager.hpp:396-490.  `std::list::sort` is stable. -/
noncomputable def addBestCandidatesNew (cols rows : ℕ) (s : FeatSet P n) : Option (FeatSet P n × Finset (Fin n)) :=
  match A.nRange, A.cellList rows with
  | some range, some cells =>
    if cells = [] then some (s, ∅)
    else
      match A.existingWeights cols rows range s with
      | none => none
      | some w => A.newLoop cols rows range
          (cells.mergeSort (fun a b => decide (A.shi b.1 ≤ A.shi a.1))) w 0 s ∅
  | _, _ => none

end AddArgs

end Rovio
