import Verif.Model.Draw

/-!
# Specification vocabulary for drawn patches (C90)

A multilevel patch drawn at `(cx,cy)` is a stack of concentric squares: level `l` has `n × n` fields of `2^l·s × 2^l·s` pixels each, where
finer levels lie on top.
-/

namespace Rovio.Draw.Spec

/-- The byte of channel `k` of the pixel in row `y` and column `x`. -/
def at' (m : Canvas) (y x k : ℕ) : ℕ := m.data ((y * m.cols + x) * m.ch + k)

/-- The pixels of the canvas, with their channels. -/
def Inside (m : Canvas) (y x k : ℕ) : Prop := y < m.rows ∧ x < m.cols ∧ k < m.ch

/-- Level `l` of a multilevel patch drawn at `(cx,cy)` has its field `(fy,fx)` at pixel `(y,x)`; `o` is the distance of the square of level
`l` from the edge of the drawing, `n` the number of fields per side, `s` the magnification. -/
def FieldAt (n s o cx cy l : ℕ) (y x fy fx : ℕ) : Prop :=
  fy < n ∧ fx < n ∧ cy + o + fy * (s * 2 ^ l) ≤ y ∧ y < cy + o + (fy + 1) * (s * 2 ^ l) ∧
    cx + o + fx * (s * 2 ^ l) ≤ x ∧ x < cx + o + (fx + 1) * (s * 2 ^ l)

/-- The square of level `l` covers the pixel. -/
def Covers (n s o cx cy l : ℕ) (y x : ℕ) : Prop := ∃ fy fx, FieldAt n s o cx cy l y x fy fx

/-- Distance of the square of level `l` from the edge of a drawing of side `p·2^(L-1)` if the squares are concentric. -/
def inset (p L l : ℕ) : ℕ := (p * 2 ^ (L - 1) - p * 2 ^ l) / 2

/-- The intensities of all valid levels are grey values. -/
def Grey (p L : ℕ) (mp : MLP) : Prop :=
  ∀ l < L, mp.isValidPatch l = true → ∀ k < p * p, 0 ≤ (mp.patches l).patch k ∧ (mp.patches l).patch k ≤ 255

/-- The canvas `m'` is `m` with the multilevel patch drawn at `(cx,cy)`: every pixel shows the finest valid level that covers it, and is
left alone if there is none. -/
structure Shows (p L : ℕ) (m m' : Canvas) (mp : MLP) (cx cy : ℕ) : Prop where
  rows : m'.rows = m.rows
  cols : m'.cols = m.cols
  ch : m'.ch = m.ch
  top : ∀ y x k l fy fx, Inside m y x k → l < L → mp.isValidPatch l = true → FieldAt p 1 (inset p L l) cx cy l y x fy fx →
    (∀ l' < l, mp.isValidPatch l' = true → ¬ Covers p 1 (inset p L l') cx cy l' y x) →
    (at' m' y x k : ℤ) = ⌊(mp.patches l).patch (fy * p + fx)⌋
  rest : ∀ y x k, Inside m y x k → (∀ l < L, mp.isValidPatch l = true → ¬ Covers p 1 (inset p L l) cx cy l y x) →
    at' m' y x k = at' m y x k

/-- The cell of the sheet in which a drawing belongs: row and column of the cell. -/
def cellOf : Call → ℕ × ℕ
  | .reference id _ => (id, 0)
  | .predicted id cam _ => (id, 1 + 2 * cam)
  | .updated id cam _ => (id, 2 + 2 * cam)

/-- What is drawn. -/
def patchOf : Call → MLP
  | .reference _ mp => mp
  | .predicted _ _ mp => mp
  | .updated _ _ mp => mp

end Rovio.Draw.Spec
