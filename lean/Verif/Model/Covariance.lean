import Verif.Model.ImuPrediction
import Mathlib.Data.Matrix.Mul
import Mathlib.Data.Fintype.Sum
import Mathlib.Data.Fintype.Prod
import Mathlib.Data.List.Sort

/-!
# Model of the covariance handling of `include/rovio/FilterStates.hpp`

The rows and columns of the covariance are named by `Ix`; `Ix.id` is their position in the Eigen matrix, and the block operations
of the code are modelled on these positions.
-/

namespace Rovio

open Distance

variable {n nCam nPose : ℕ}

/-- The components of the error vector, include/rovio/FilterStates.hpp:110-118 (order of the state elements) and
include/rovio/RobocentricFeatureElement.hpp:60-68 (a feature: two bearing components, then the distance parameter). -/
inductive Ix (n nCam nPose : ℕ) where
  | pos (k : Fin 3)
  | vel (k : Fin 3)
  | acb (k : Fin 3)
  | gyb (k : Fin 3)
  | att (k : Fin 3)
  | vep (c : Fin nCam) (k : Fin 3)
  | vea (c : Fin nCam) (k : Fin 3)
  | nor (i : Fin n) (k : Fin 2)
  | dep (i : Fin n)
  | pop (j : Fin nPose) (k : Fin 3)
  | poa (j : Fin nPose) (k : Fin 3)
deriving DecidableEq

namespace Ix

/-- Number of rows, LWF `State::D_` of include/rovio/FilterStates.hpp:110-118. -/
def D (n nCam nPose : ℕ) : ℕ := 15 + 6 * nCam + 3 * n + 6 * nPose

/-- Row of a component, LWF `State::getId<element>(index)` plus the offset inside the element, for the element order of
include/rovio/FilterStates.hpp:110-118. -/
def id : Ix n nCam nPose → ℕ
  | pos k => k
  | vel k => 3 + k
  | acb k => 6 + k
  | gyb k => 9 + k
  | att k => 12 + k
  | vep c k => 15 + 3 * c + k
  | vea c k => 15 + 3 * nCam + 3 * c + k
  | nor i k => 15 + 6 * nCam + 3 * i + k
  | dep i => 15 + 6 * nCam + 3 * i + 2
  | pop j k => 15 + 6 * nCam + 3 * n + 3 * j + k
  | poa j k => 15 + 6 * nCam + 3 * n + 3 * nPose + 3 * j + k

/-- `mtState::getId<mtState::_fea>(i)`, include/rovio/FilterStates.hpp:606. -/
def feaId (n nCam nPose : ℕ) (i : ℕ) : ℕ := 15 + 6 * nCam + 3 * i

end Ix

/-- The covariance matrix `cov_`, include/rovio/FilterStates.hpp:535. -/
abbrev Cov (n nCam nPose : ℕ) := Matrix (Ix n nCam nPose) (Ix n nCam nPose) ℝ

/-- Component of a vector by its number. -/
def V3.at (v : V3) : Fin 3 → ℝ := ![v.x, v.y, v.z]
/-- Component of a vector by its number. -/
def V2.at (v : V2) : Fin 2 → ℝ := ![v.x, v.y]

namespace DState

/-- The entry of an error vector at a row. -/
def get (δ : DState n nCam nPose) : Ix n nCam nPose → ℝ
  | .pos k => δ.pos.at k
  | .vel k => δ.vel.at k
  | .acb k => δ.acb.at k
  | .gyb k => δ.gyb.at k
  | .att k => δ.att.at k
  | .vep c k => (δ.vep c).at k
  | .vea c k => (δ.vea c).at k
  | .nor i k => (δ.nor i).at k
  | .dep i => δ.dep i
  | .pop j k => (δ.pop j).at k
  | .poa j k => (δ.poa j).at k

/-- The error vector with given entries. -/
def ofFn (v : Ix n nCam nPose → ℝ) : DState n nCam nPose where
  pos := ⟨v (.pos 0), v (.pos 1), v (.pos 2)⟩
  vel := ⟨v (.vel 0), v (.vel 1), v (.vel 2)⟩
  acb := ⟨v (.acb 0), v (.acb 1), v (.acb 2)⟩
  gyb := ⟨v (.gyb 0), v (.gyb 1), v (.gyb 2)⟩
  att := ⟨v (.att 0), v (.att 1), v (.att 2)⟩
  vep := fun c => ⟨v (.vep c 0), v (.vep c 1), v (.vep c 2)⟩
  vea := fun c => ⟨v (.vea c 0), v (.vea c 1), v (.vea c 2)⟩
  nor := fun i => ⟨v (.nor i 0), v (.nor i 1)⟩
  dep := fun i => v (.dep i)
  pop := fun j => ⟨v (.pop j 0), v (.pop j 1), v (.pop j 2)⟩
  poa := fun j => ⟨v (.poa j 0), v (.poa j 1), v (.poa j 2)⟩

/-- The unit error vector of a row. -/
def unit (a : Ix n nCam nPose) : DState n nCam nPose := ofFn (Pi.single a 1)

end DState

instance : Fintype (Ix n nCam nPose) :=
  Fintype.ofSurjective
    (fun x : (Fin 5 × Fin 3) ⊕ (Fin nCam × Fin 3) ⊕ (Fin nCam × Fin 3) ⊕ (Fin n × Fin 3) ⊕ (Fin nPose × Fin 3) ⊕ (Fin nPose × Fin 3) =>
      match x with
      | .inl (0, k) => .pos k
      | .inl (1, k) => .vel k
      | .inl (2, k) => .acb k
      | .inl (3, k) => .gyb k
      | .inl (4, k) => .att k
      | .inr (.inl (c, k)) => .vep c k
      | .inr (.inr (.inl (c, k))) => .vea c k
      | .inr (.inr (.inr (.inl (i, 0)))) => .nor i 0
      | .inr (.inr (.inr (.inl (i, 1)))) => .nor i 1
      | .inr (.inr (.inr (.inl (i, 2)))) => .dep i
      | .inr (.inr (.inr (.inr (.inl (j, k))))) => .pop j k
      | .inr (.inr (.inr (.inr (.inr (j, k))))) => .poa j k)
    (fun a => by
      cases a with
      | pos k => exact ⟨.inl (0, k), rfl⟩
      | vel k => exact ⟨.inl (1, k), rfl⟩
      | acb k => exact ⟨.inl (2, k), rfl⟩
      | gyb k => exact ⟨.inl (3, k), rfl⟩
      | att k => exact ⟨.inl (4, k), rfl⟩
      | vep c k => exact ⟨.inr (.inl (c, k)), rfl⟩
      | vea c k => exact ⟨.inr (.inr (.inl (c, k))), rfl⟩
      | nor i k =>
        fin_cases k
        · exact ⟨.inr (.inr (.inr (.inl (i, 0)))), rfl⟩
        · exact ⟨.inr (.inr (.inr (.inl (i, 1)))), rfl⟩
      | dep i => exact ⟨.inr (.inr (.inr (.inl (i, 2)))), rfl⟩
      | pop j k => exact ⟨.inr (.inr (.inr (.inr (.inl (j, k))))), rfl⟩
      | poa j k => exact ⟨.inr (.inr (.inr (.inr (.inr (j, k))))), rfl⟩)

/-- Assignment to `cov_.block<nr,nc>(r,c)` (Eigen), as used in include/rovio/FilterStates.hpp:606-613. -/
def Cov.setBlock (P : Cov n nCam nPose) (r c : ℕ) {nr nc : ℕ} (B : Fin nr → Fin nc → ℝ) : Cov n nCam nPose := fun a b =>
  if h : (r ≤ a.id ∧ a.id < r + nr) ∧ c ≤ b.id ∧ b.id < c + nc then
    B ⟨a.id - r, by omega⟩ ⟨b.id - c, by omega⟩
  else P a b

/-- `initCov.block<nr,nc>(r,c)` (Eigen), include/rovio/FilterStates.hpp:610-613. -/
def subBlock (C : Matrix (Fin 3) (Fin 3) ℝ) (r c nr nc : ℕ) (hr : r + nr ≤ 3) (hc : c + nc ≤ 3) : Fin nr → Fin nc → ℝ :=
  fun i j => C ⟨r + i, by omega⟩ ⟨c + j, by omega⟩

/-- `resetFeatureCovariance`, include/rovio/FilterStates.hpp:605-614. -/
def Cov.resetFeature (P : Cov n nCam nPose) (i : Fin n) (C : Matrix (Fin 3) (Fin 3) ℝ) : Cov n nCam nPose :=
  let f := Ix.feaId n nCam nPose i
  let d := Ix.D n nCam nPose
  let P := P.setBlock 0 (f + 2) (nr := d) (nc := 1) fun _ _ => 0
  let P := P.setBlock (f + 2) 0 (nr := 1) (nc := d) fun _ _ => 0
  let P := P.setBlock 0 f (nr := d) (nc := 2) fun _ _ => 0
  let P := P.setBlock f 0 (nr := 2) (nc := d) fun _ _ => 0
  let P := P.setBlock (f + 2) (f + 2) (subBlock C 0 0 1 1 (by omega) (by omega))
  let P := P.setBlock (f + 2) f (subBlock C 0 1 1 2 (by omega) (by omega))
  let P := P.setBlock f (f + 2) (subBlock C 1 0 2 1 (by omega) (by omega))
  P.setBlock f f (subBlock C 1 1 2 2 (by omega) (by omega))

namespace State

/-- The row of the distance parameter in the Jacobian of the feature output (camera `b`), column by column. -/
noncomputable def distRow (s : State n nCam nPose) (sfv : V3 → Nor) (i : Fin n) (b : Fin nCam) : Option (Ix n nCam nPose → ℝ) :=
  if h : ∀ a : Ix n nCam nPose, (s.featureJac sfv false i b (DState.unit a)).isSome then
    some fun a => ((s.featureJac sfv false i b (DState.unit a)).get (h a)).2
  else none

/-- `featureOutputCov_(2,2)` after `transformCovMat` (LWF: `J*cov*J.transpose()`), include/rovio/FilterStates.hpp:637-638. -/
noncomputable def distVar (s : State n nCam nPose) (P : Cov n nCam nPose) (sfv : V3 → Nor) (i : Fin n) (b : Fin nCam) : Option ℝ := do
  let J ← s.distRow sfv i b
  return J ⬝ᵥ P.mulVec J

/-- The test of include/rovio/FilterStates.hpp:638-640.  The square root of a negative number is NaN and a division by zero is
infinite or NaN in the code; the comparison is false then. -/
noncomputable def smallUncertainty (v : ℝ) (d : FeatureDistance) (ratio : ℝ) : Bool :=
  decide (0 ≤ v) && decide (getDistance d ≠ 0) && decide (|Real.sqrt v * getDistanceDerivative d| / getDistance d < ratio)

/-- The body of the two loops, include/rovio/FilterStates.hpp:633-643.  The output object `featureOutput_` is a member: every
iteration writes to what the previous one left. -/
noncomputable def medianStep (s : State n nCam nPose) (P : Cov n nCam nPose) (mc : MultiCamera nCam) (sfv : V3 → Nor) (ratio : ℝ) (i : Fin n)
    (acc : Fea × (Fin nCam → List ℝ)) (b : Fin nCam) : Option (Fea × (Fin nCam → List ℝ)) := do
  let out ← s.featureOut mc sfv i b acc.1
  if out.c.isInFront then do
    let v ← s.distVar P sfv i b
    if smallUncertainty v out.d ratio then return (out, Function.update acc.2 b (acc.2 b ++ [out.d.p]))
    else return (out, acc.2)
  else return (out, acc.2)

/-- `std::nth_element(begin, begin + k, end)` followed by reading element `k`: the element a sorted sequence would have there
(include/rovio/FilterStates.hpp:651-652). -/
noncomputable def nthElement (l : List ℝ) (k : ℕ) : Option ℝ := (l.insertionSort (· ≤ ·))[k]?

/-- The selection, include/rovio/FilterStates.hpp:649-653, for a collection of one camera. -/
noncomputable def medianOf (init : ℝ) (l : List ℝ) : Option ℝ := if l.length > 3 then nthElement l (l.length / 2) else some init

/-- The collection loop, include/rovio/FilterStates.hpp:630-646. -/
noncomputable def medianCollect (s : State n nCam nPose) (P : Cov n nCam nPose) (mc : MultiCamera nCam) (sfv : V3 → Nor) (valid : Fin n → Bool)
    (ratio : ℝ) (out : Fea) : Option (Fea × (Fin nCam → List ℝ)) :=
  (List.finRange n).foldlM (fun acc i => if valid i then (List.finRange nCam).foldlM (s.medianStep P mc sfv ratio i) acc else some acc)
    (out, fun _ => [])

/-- `getMedianDepthParameters`, include/rovio/FilterStates.hpp:624-655, with the validity flags of the feature set and the current
content `out` of `featureOutput_`. -/
noncomputable def medianDepth (s : State n nCam nPose) (P : Cov n nCam nPose) (mc : MultiCamera nCam) (sfv : V3 → Nor) (valid : Fin n → Bool)
    (init ratio : ℝ) (out : Fea) : Option (Fin nCam → ℝ) := do
  let r ← s.medianCollect P mc sfv valid ratio out
  optAll fun b => medianOf init (r.2 b)

end State

end Rovio
