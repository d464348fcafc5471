import Verif.Model.FeatureManager
import Mathlib.Analysis.SpecialFunctions.Pow.Real

/-!
# Specification of candidate selection

Independent of buckets, hash sets and loops: every candidate has a rank (or none), a placed feature
lowers the ranks of the candidates near it, and the best ranked candidate is taken next.
-/

namespace Rovio.Spec

/-- Current rank of every remaining candidate. -/
abbrev Ranks := ℕ → Option ℕ

/-- Squared distance of two pixels. -/
def sqDist (p q : V2) : ℝ := (p.x - q.x) ^ 2 + (p.y - q.y) ^ 2

/-- Rank of a candidate at squared distance `d2` of a placed feature: rank 0 stays, closer than
the penalty distance `D` the rank drops by `(1 - d2/D²)·Z`, rounded down, not below zero. -/
noncomputable def lower (D Z : ℝ) (d2 : ℝ) (b : ℕ) : ℕ :=
  if b = 0 then 0 else if d2 < D ^ 2 then ⌊(b : ℝ) - (1 - d2 / D ^ 2) * Z⌋₊ else b

/-- Effect of a placed feature at `p` on all ranks. -/
noncomputable def demote (D Z : ℝ) (cand : ℕ → V2) (p : V2) (r : Ranks) : Ranks :=
  fun x => (r x).map (lower D Z (sqDist p (cand x)))

/-- Effect of several placed features, one after the other. -/
noncomputable def demoteAll (D Z : ℝ) (cand : ℕ → V2) (ps : List V2) (r : Ranks) : Ranks :=
  ps.foldl (fun r p => demote D Z cand p r) r

/-- Removing a candidate. -/
def without (r : Ranks) (x : ℕ) : Ranks := fun y => if y = x then none else r y

/-- Greedy selection of at most `budget` candidates of rank at least `lo`: each pick has the highest
current rank, and selection ends only when the budget is used up or no candidate of sufficient rank is
left. -/
inductive Greedy (D Z : ℝ) (cand : ℕ → V2) (lo : ℕ) : Ranks → ℕ → List ℕ → Prop
  | stop (r : Ranks) (budget : ℕ) (h : budget = 0 ∨ ∀ x b, r x = some b → b < lo) : Greedy D Z cand lo r budget []
  | pick (r : Ranks) (budget x b : ℕ) (xs : List ℕ) (hx : r x = some b) (hlo : lo ≤ b)
      (hmax : ∀ y b', r y = some b' → b' ≤ b)
      (rest : Greedy D Z cand lo (demote D Z cand (cand x) (without r x)) budget xs) :
      Greedy D Z cand lo r (budget + 1) (x :: xs)

/-- Initial rank of a candidate with score `s`, given the largest score: `none` unless the score
exceeds the minimum, otherwise `⌈(nb-1)·rel^e⌉` capped at `nb-1`. -/
noncomputable def scoreRank (nb : ℕ) (e minScore maxScore s : ℝ) : Option ℕ :=
  let rel := (s - minScore) / (maxScore - minScore)
  if 0 < rel then some (min ⌈((nb : ℝ) - 1) * rel ^ e⌉₊ (nb - 1)) else none

/-- Squared distances at which a placed feature excludes a candidate, whatever its score. -/
def Crit (D Z : ℝ) (nb : ℕ) (d2 : ℝ) : Prop := d2 < D ^ 2 ∧ (nb : ℝ) - 2 < (1 - d2 / D ^ 2) * Z

end Rovio.Spec

namespace Rovio.AddArgs

variable {P : Type} {n : ℕ}

/-- The argument ranges under which nothing overflows. -/
structure Sane (A : AddArgs P) : Prop where
  nb_pos : 1 ≤ A.nb
  nb_le : A.nb ≤ 2147483648
  z_nonneg : 0 ≤ A.zeroPenalty
  z_le : A.zeroPenalty ≤ 2147483648
  exp_nonneg : 0 ≤ A.exponent

/-- Pixels at which existing features are visible, in slot order. -/
def seen (A : AddArgs P) (s : FeatSet P n) : List V2 :=
  (List.finRange n).filterMap fun i => if (s.slots i).valid then A.view (s.slots i) else none

/-- Initial ranks, from the scores alone. -/
noncomputable def initRanks (A : AddArgs P) : Spec.Ranks :=
  fun x => if x < A.nc then Spec.scoreRank A.nb A.exponent A.minScore A.maxScore (A.score x) else none

end Rovio.AddArgs

