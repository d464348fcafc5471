import Verif.Spec.Draw
import Mathlib.Tactic.Linarith
import Mathlib.Tactic.NormNum
import Mathlib.Tactic.Ring

/-!
# Lemmas about drawing (C90)
-/

namespace Rovio.Draw

open Spec

lemma foldlM_write {m : Canvas} {ws : List (ℤ × ℝ)}
    (h : ∀ w ∈ ws, (0 ≤ w.1 ∧ w.1 < m.rows * m.cols * m.ch) ∧ -1 < w.2 ∧ w.2 < 256) :
    ∃ m', ws.foldlM Canvas.write m = some m' ∧ m'.rows = m.rows ∧ m'.cols = m.cols ∧ m'.ch = m.ch ∧
      (∀ o : ℕ, (∀ w ∈ ws, w.1 ≠ o) → m'.data o = m.data o) ∧
      (∀ o b : ℕ, (∃ w ∈ ws, w.1 = o) → (∀ w ∈ ws, w.1 = o → ⌊w.2⌋.toNat = b) → m'.data o = b) := by
  induction ws generalizing m with
  | nil => exact ⟨m, rfl, rfl, rfl, rfl, fun _ _ => rfl, fun _ _ h => by simp at h⟩
  | cons w ws ih =>
    obtain ⟨hw, hv⟩ := h w (by simp)
    have e : m.write w = some { m with data := Function.update m.data w.1.toNat ⌊w.2⌋.toNat } := by
      simp only [Canvas.write, toByte, if_pos hw, if_pos hv, Option.map_some]
    obtain ⟨m', h1, h2, h3, h4, h5, h6⟩ := ih (m := { m with data := Function.update m.data w.1.toNat ⌊w.2⌋.toNat })
      (fun w' hw' => h w' (by simp [hw']))
    refine ⟨m', ?_, h2, h3, h4, ?_, ?_⟩
    · simp only [List.foldlM_cons, e, Option.bind_eq_bind, Option.bind_some, h1]
    · intro o ho
      rw [h5 o (fun w' hw' => ho w' (by simp [hw']))]
      have : o ≠ w.1.toNat := by
        have := ho w (by simp)
        omega
      simp [Function.update_of_ne this]
    · intro o b hex hall
      by_cases hx : ∃ w' ∈ ws, w'.1 = (o : ℤ)
      · exact h6 o b hx (fun w' hw' => hall w' (by simp [hw']))
      · push Not at hx
        rw [h5 o hx]
        obtain ⟨w', hw', hwo⟩ := hex
        rcases List.mem_cons.1 hw' with rfl | hw''
        · have : o = w'.1.toNat := by omega
          have hb := hall w' (by simp) hwo
          simp [this, hb]
        · exact absurd hwo (hx w' hw'')

/-- Uniqueness of the decomposition by rows. -/
lemma split_unique {n a b a' b' : ℕ} (hb : b < n) (hb' : b' < n) (h : a * n + b = a' * n + b') : a = a' ∧ b = b' := by
  have hn : 0 < n := by omega
  have h1 : (a * n + b) / n = a := by
    rw [Nat.add_comm, Nat.add_mul_div_right _ _ hn, Nat.div_eq_of_lt hb, Nat.zero_add]
  have h2 : (a' * n + b') / n = a' := by
    rw [Nat.add_comm, Nat.add_mul_div_right _ _ hn, Nat.div_eq_of_lt hb', Nat.zero_add]
  have : a = a' := by rw [← h1, ← h2, h]
  subst this
  exact ⟨rfl, by omega⟩

/-- Offset of a byte, with row, column and channel. -/
def byteAt (cols ch y x k : ℕ) : ℕ := (y * cols + x) * ch + k

lemma byteAt_inj {cols ch y x k y' x' k' : ℕ} (hx : x < cols) (hx' : x' < cols) (hk : k < ch) (hk' : k' < ch)
    (h : byteAt cols ch y x k = byteAt cols ch y' x' k') : y = y' ∧ x = x' ∧ k = k' := by
  obtain ⟨h1, h2⟩ := split_unique hk hk' h
  obtain ⟨h3, h4⟩ := split_unique hx hx' h1
  exact ⟨h3, h4, h2⟩

lemma byteAt_lt {rows cols ch y x k : ℕ} (hy : y < rows) (hx : x < cols) (hk : k < ch) : byteAt cols ch y x k < rows * cols * ch := by
  have h1 : y * cols + x + 1 ≤ rows * cols := by nlinarith
  have h2 : (y * cols + x + 1) * ch ≤ rows * cols * ch := Nat.mul_le_mul_right _ h1
  unfold byteAt
  nlinarith

lemma mem_channels {ch k : ℕ} (hch : ch = 1 ∨ ch = 3) : k ∈ channels ch ↔ k < ch := by
  rcases hch with rfl | rfl
  · simp [channels]
  · simp only [channels, if_true, List.mem_cons, List.not_mem_nil, or_false]; omega

lemma mem_writes {cols ch cx cy n s : ℕ} {f : ℕ → ℝ} (hch : ch = 1 ∨ ch = 3) {w : ℤ × ℝ} :
    w ∈ writes cols ch cx cy n s f ↔ ∃ fy fx i j k, fy < n ∧ fx < n ∧ i < s ∧ j < s ∧ k < ch ∧
      w = (((byteAt cols ch (cy + fy * s + i) (cx + fx * s + j) k : ℕ) : ℤ), f (fy * n + fx)) := by
  simp only [writes, List.mem_flatMap, List.mem_range, List.mem_map, mem_channels hch]
  constructor
  · rintro ⟨y, hy, x, hx, i, hi, j, hj, k, hk, rfl⟩
    refine ⟨y, x, i, j, k, hy, hx, hi, hj, hk, ?_⟩
    simp only [byteAt, Prod.mk.injEq, and_true]
    push_cast
    ring
  · rintro ⟨y, x, i, j, k, hy, hx, hi, hj, hk, rfl⟩
    refine ⟨y, hy, x, hx, i, hi, j, hj, k, hk, ?_⟩
    simp only [byteAt, Prod.mk.injEq, and_true]
    push_cast
    ring

/-- FieldAt of a single drawn patch. -/
lemma field_of {a s fy i y : ℕ} (hi : i < s) (h : y = a + fy * s + i) : a + fy * s ≤ y ∧ y < a + (fy + 1) * s := by
  subst h
  constructor
  · omega
  · nlinarith

lemma field_unique {a s fy fy' y : ℕ} (h1 : a + fy * s ≤ y) (h2 : y < a + (fy + 1) * s) (h3 : a + fy' * s ≤ y)
    (h4 : y < a + (fy' + 1) * s) : fy = fy' := by
  rcases lt_trichotomy fy fy' with h | h | h
  · have : (fy + 1) * s ≤ fy' * s := Nat.mul_le_mul_right _ h
    omega
  · exact h
  · have : (fy' + 1) * s ≤ fy * s := Nat.mul_le_mul_right _ h
    omega

/-- What `drawPatch` does to the canvas. -/
lemma writes_effect {m : Canvas} (hch : m.ch = 1 ∨ m.ch = 3) {cx cy n s : ℕ} {f : ℕ → ℝ} (hx : cx + n * s ≤ m.cols)
    (hy : cy + n * s ≤ m.rows) (hf : ∀ k < n * n, -1 < f k ∧ f k < 256) :
    ∃ m', (writes m.cols m.ch cx cy n s f).foldlM Canvas.write m = some m' ∧ m'.rows = m.rows ∧ m'.cols = m.cols ∧ m'.ch = m.ch ∧
      (∀ y x k fy fx, Inside m y x k → fy < n → fx < n → cy + fy * s ≤ y → y < cy + (fy + 1) * s → cx + fx * s ≤ x →
        x < cx + (fx + 1) * s → at' m' y x k = ⌊f (fy * n + fx)⌋.toNat) ∧
      (∀ y x k, Inside m y x k → (∀ fy fx, ¬ (fy < n ∧ fx < n ∧ cy + fy * s ≤ y ∧ y < cy + (fy + 1) * s ∧ cx + fx * s ≤ x ∧
        x < cx + (fx + 1) * s)) → at' m' y x k = at' m y x k) := by
  have bound : ∀ a i, a < n → i < s → a * s + i < n * s := by
    intro a i ha hi
    have : (a + 1) * s ≤ n * s := Nat.mul_le_mul_right _ ha
    nlinarith
  obtain ⟨m', h1, h2, h3, h4, h5, h6⟩ := foldlM_write (m := m) (ws := writes m.cols m.ch cx cy n s f) (by
    intro w hw
    obtain ⟨fy, fx, i, j, k, hfy, hfx, hi, hj, hk, rfl⟩ := (mem_writes hch).1 hw
    have b1 := bound fy i hfy hi
    have b2 := bound fx j hfx hj
    refine ⟨⟨by positivity, ?_⟩, hf _ ?_⟩
    · have := byteAt_lt (rows := m.rows) (cols := m.cols) (y := cy + fy * s + i) (x := cx + fx * s + j) (by omega) (by omega) hk
      dsimp only
      exact_mod_cast this
    · have : (fy + 1) * n ≤ n * n := Nat.mul_le_mul_right _ hfy
      nlinarith)
  refine ⟨m', h1, h2, h3, h4, ?_, ?_⟩
  · rintro y x k fy fx ⟨hy', hx', hk⟩ hfy hfx a1 a2 a3 a4
    have hs : 0 < s := by
      rcases Nat.eq_zero_or_pos s with rfl | h
      · simp at a1 a2; omega
      · exact h
    have e : at' m' y x k = m'.data (byteAt m.cols m.ch y x k) := by simp only [at', byteAt, h3, h4]
    rw [e]
    apply h6
    · refine ⟨(((byteAt m.cols m.ch (cy + fy * s + (y - (cy + fy * s))) (cx + fx * s + (x - (cx + fx * s))) k : ℕ) : ℤ), f (fy * n + fx)),
        (mem_writes hch).2 ⟨fy, fx, y - (cy + fy * s), x - (cx + fx * s), k, hfy, hfx, ?_, ?_, hk, rfl⟩, ?_⟩
      · have : (fy + 1) * s = fy * s + s := by ring
        omega
      · have : (fx + 1) * s = fx * s + s := by ring
        omega
      · have e1 : cy + fy * s + (y - (cy + fy * s)) = y := by omega
        have e2 : cx + fx * s + (x - (cx + fx * s)) = x := by omega
        simp only [e1, e2]
    · intro w hw hwo
      obtain ⟨gy, gx, i, j, k', hgy, hgx, hi, hj, hk', rfl⟩ := (mem_writes hch).1 hw
      have b2 := bound gx j hgx hj
      dsimp only at hwo
      have hwo' := Int.ofNat_inj.1 hwo
      obtain ⟨e1, e2, -⟩ := byteAt_inj (by omega) hx' hk' hk hwo'
      have c1 := field_of hi e1.symm
      have c2 := field_of hj e2.symm
      have d1 := field_unique c1.1 c1.2 a1 a2
      have d2 := field_unique c2.1 c2.2 a3 a4
      subst d1 d2
      rfl
  · rintro y x k ⟨hy', hx', hk⟩ hno
    have e : at' m' y x k = m'.data (byteAt m.cols m.ch y x k) := by simp only [at', byteAt, h3, h4]
    rw [e]
    have e' : at' m y x k = m.data (byteAt m.cols m.ch y x k) := by simp only [at', byteAt]
    rw [e']
    apply h5
    intro w hw hwo
    obtain ⟨gy, gx, i, j, k', hgy, hgx, hi, hj, hk', rfl⟩ := (mem_writes hch).1 hw
    have b2 := bound gx j hgx hj
    dsimp only at hwo
    have hwo' := Int.ofNat_inj.1 hwo
    obtain ⟨e1, e2, -⟩ := byteAt_inj (by omega) hx' hk' hk hwo'
    have hs : 0 < s := by omega
    have c1 := field_of hi e1.symm
    have c2 := field_of hj e2.symm
    exact hno gy gx ⟨hgy, hgx, c1.1, c1.2, c2.1, c2.2⟩

/-- The number of fields per side. -/
def side (p : ℕ) (wb : Bool) : ℕ := p + 2 * (if wb then 1 else 0)

/-- The array drawn. -/
def shown (q : Patch) (wb : Bool) : ℕ → ℝ := if wb then q.border else q.patch

lemma drawLevel_effect {p L : ℕ} {mp : MLP} {cx cy s : ℕ} {wb : Bool} {m : Canvas} (hch : m.ch = 1 ∨ m.ch = 3) {l : ℕ}
    (hx : cx + corner p L l wb + side p wb * (s * 2 ^ l) ≤ m.cols) (hy : cy + corner p L l wb + side p wb * (s * 2 ^ l) ≤ m.rows)
    (hg : mp.isValidPatch l = true → ∀ k < side p wb * side p wb, -1 < shown (mp.patches l) wb k ∧ shown (mp.patches l) wb k < 256) :
    ∃ m', drawLevel p L mp cx cy s wb m l = some m' ∧ m'.rows = m.rows ∧ m'.cols = m.cols ∧ m'.ch = m.ch ∧
      (∀ y x k fy fx, Inside m y x k → mp.isValidPatch l = true → FieldAt (side p wb) s (corner p L l wb) cx cy l y x fy fx →
        at' m' y x k = ⌊shown (mp.patches l) wb (fy * side p wb + fx)⌋.toNat) ∧
      (∀ y x k, Inside m y x k → (mp.isValidPatch l = true → ¬ Covers (side p wb) s (corner p L l wb) cx cy l y x) →
        at' m' y x k = at' m y x k) := by
  unfold drawLevel
  by_cases hv : mp.isValidPatch l = true
  · rw [if_pos hv]
    obtain ⟨m', h1, h2, h3, h4, h5, h6⟩ := writes_effect (m := m) hch (cx := cx + corner p L l wb) (cy := cy + corner p L l wb)
      (n := side p wb) (s := s * 2 ^ l) (f := shown (mp.patches l) wb) hx hy (hg hv)
    refine ⟨m', ?_, h2, h3, h4, ?_, ?_⟩
    · rw [← h1]
      unfold drawPatch
      push_cast
      rfl
    · intro y x k fy fx hi _ hF
      exact h5 y x k fy fx hi hF.1 hF.2.1 hF.2.2.1 hF.2.2.2.1 hF.2.2.2.2.1 hF.2.2.2.2.2
    · intro y x k hi hno
      refine h6 y x k hi fun fy fx h => hno hv ⟨fy, fx, h.1, h.2.1, h.2.2.1, h.2.2.2.1, h.2.2.2.2.1, h.2.2.2.2.2⟩
  · rw [if_neg hv]
    exact ⟨m, rfl, rfl, rfl, rfl, fun _ _ _ _ _ _ h => absurd h hv, fun _ _ _ _ _ => rfl⟩

/-- Drawing levels in a given order: the last level of the list that covers a pixel is seen. -/
lemma drawLevels_effect {p L : ℕ} {mp : MLP} {cx cy s : ℕ} {wb : Bool} {ls : List ℕ} (hnd : ls.Nodup) :
    ∀ {m : Canvas}, (m.ch = 1 ∨ m.ch = 3) →
    (∀ l ∈ ls, cx + corner p L l wb + side p wb * (s * 2 ^ l) ≤ m.cols ∧ cy + corner p L l wb + side p wb * (s * 2 ^ l) ≤ m.rows) →
    (∀ l ∈ ls, mp.isValidPatch l = true → ∀ k < side p wb * side p wb, -1 < shown (mp.patches l) wb k ∧ shown (mp.patches l) wb k < 256) →
    ∃ m', ls.foldlM (drawLevel p L mp cx cy s wb) m = some m' ∧ m'.rows = m.rows ∧ m'.cols = m.cols ∧ m'.ch = m.ch ∧
      (∀ y x k pre l post fy fx, ls = pre ++ l :: post → Inside m y x k → mp.isValidPatch l = true →
        FieldAt (side p wb) s (corner p L l wb) cx cy l y x fy fx →
        (∀ l' ∈ post, mp.isValidPatch l' = true → ¬ Covers (side p wb) s (corner p L l' wb) cx cy l' y x) →
        at' m' y x k = ⌊shown (mp.patches l) wb (fy * side p wb + fx)⌋.toNat) ∧
      (∀ y x k, Inside m y x k → (∀ l ∈ ls, mp.isValidPatch l = true → ¬ Covers (side p wb) s (corner p L l wb) cx cy l y x) →
        at' m' y x k = at' m y x k) := by
  induction ls with
  | nil =>
    intro m _ _ _
    exact ⟨m, rfl, rfl, rfl, rfl, fun _ _ _ pre l post _ _ h => by simp at h, fun _ _ _ _ _ => rfl⟩
  | cons l0 ls ih =>
    intro m hch hfit hg
    obtain ⟨hf1, hf2⟩ := hfit l0 (by simp)
    obtain ⟨m1, a1, a2, a3, a4, a5, a6⟩ := drawLevel_effect (p := p) (L := L) (mp := mp) (cx := cx) (cy := cy) (s := s) (wb := wb) (m := m) hch
      hf1 hf2 (hg l0 (by simp))
    obtain ⟨m2, b1, b2, b3, b4, b5, b6⟩ := ih (List.nodup_cons.1 hnd).2 (m := m1) (by rw [a4]; exact hch)
      (fun l hl => by rw [a2, a3]; exact hfit l (by simp [hl])) (fun l hl => hg l (by simp [hl]))
    have ins : ∀ {y x k}, Inside m y x k → Inside m1 y x k := by
      rintro y x k ⟨h1, h2, h3⟩
      exact ⟨by rw [a2]; exact h1, by rw [a3]; exact h2, by rw [a4]; exact h3⟩
    refine ⟨m2, ?_, by rw [b2, a2], by rw [b3, a3], by rw [b4, a4], ?_, ?_⟩
    · simp only [List.foldlM_cons, a1, Option.bind_eq_bind, Option.bind_some, b1]
    · intro y x k pre l post fy fx hsplit hi hv hF hpost
      cases pre with
      | nil =>
        simp only [List.nil_append, List.cons.injEq] at hsplit
        obtain ⟨rfl, rfl⟩ := hsplit
        rw [b6 y x k (ins hi) hpost]
        exact a5 y x k fy fx hi hv hF
      | cons q pre =>
        simp only [List.cons_append, List.cons.injEq] at hsplit
        exact b5 y x k pre l post fy fx hsplit.2 (ins hi) hv hF hpost
    · intro y x k hi hno
      rw [b6 y x k (ins hi) (fun l hl => hno l (by simp [hl]))]
      exact a6 y x k hi (hno l0 (by simp))

lemma halfPatch_le_side (p : ℕ) (wb : Bool) : halfPatch p wb ≤ side p wb := by
  unfold halfPatch side
  cases wb <;> simp <;> omega

lemma fits {p L l s : ℕ} {wb : Bool} (hl : l < L) (hs : 0 < s) :
    corner p L l wb + side p wb * (s * 2 ^ l) ≤ side p wb * 2 ^ (L - 1) * s := by
  have h1 : (2 : ℕ) ^ l ≤ 2 ^ (L - 1) := Nat.pow_le_pow_right (by norm_num) (by omega)
  have h2 := halfPatch_le_side p wb
  obtain ⟨d, hd⟩ := Nat.exists_eq_add_of_le h1
  unfold corner
  rw [hd, Nat.add_sub_cancel_left]
  have h3 : halfPatch p wb * d ≤ side p wb * d * s := by
    calc halfPatch p wb * d ≤ side p wb * d := Nat.mul_le_mul_right _ h2
      _ ≤ side p wb * d * s := Nat.le_mul_of_pos_right _ hs
  nlinarith

lemma reverse_split {L l : ℕ} (hl : l < L) : ∃ pre, (List.range L).reverse = pre ++ l :: (List.range l).reverse := by
  refine ⟨(List.range' (l + 1) (L - (l + 1))).reverse, ?_⟩
  have : List.range L = List.range l ++ l :: List.range' (l + 1) (L - (l + 1)) := by
    rw [List.range_eq_range', List.range_eq_range']
    have h1 : L = l + (1 + (L - (l + 1))) := by omega
    conv_lhs => rw [h1]
    rw [← List.range'_append_1, ← List.range'_append_1 (s := 0 + l)]
    simp
  rw [this]
  simp

/-- The whole drawing, for any magnification and with or without the border. -/
lemma draw_effect {p L : ℕ} {mp : MLP} {cx cy s : ℕ} (hs : 0 < s) {wb : Bool} {m : Canvas} (hch : m.ch = 1 ∨ m.ch = 3)
    (hx : cx + side p wb * 2 ^ (L - 1) * s ≤ m.cols) (hy : cy + side p wb * 2 ^ (L - 1) * s ≤ m.rows)
    (hg : ∀ l < L, mp.isValidPatch l = true → ∀ k < side p wb * side p wb, -1 < shown (mp.patches l) wb k ∧ shown (mp.patches l) wb k < 256) :
    ∃ m', drawMultilevelPatch p L m mp cx cy s wb = some m' ∧ m'.rows = m.rows ∧ m'.cols = m.cols ∧ m'.ch = m.ch ∧
      (∀ y x k l fy fx, Inside m y x k → l < L → mp.isValidPatch l = true → FieldAt (side p wb) s (corner p L l wb) cx cy l y x fy fx →
        (∀ l' < l, mp.isValidPatch l' = true → ¬ Covers (side p wb) s (corner p L l' wb) cx cy l' y x) →
        at' m' y x k = ⌊shown (mp.patches l) wb (fy * side p wb + fx)⌋.toNat) ∧
      (∀ y x k, Inside m y x k → (∀ l < L, mp.isValidPatch l = true → ¬ Covers (side p wb) s (corner p L l wb) cx cy l y x) →
        at' m' y x k = at' m y x k) := by
  obtain ⟨m', h1, h2, h3, h4, h5, h6⟩ := drawLevels_effect (p := p) (L := L) (mp := mp) (cx := cx) (cy := cy) (s := s) (wb := wb)
    (ls := (List.range L).reverse) (List.nodup_reverse.2 List.nodup_range) (m := m) hch
    (fun l hl => by
      have := fits (p := p) (wb := wb) (L := L) (l := l) (by simpa using hl) hs
      constructor <;> omega)
    (fun l hl => hg l (by simpa using hl))
  refine ⟨m', h1, h2, h3, h4, ?_, ?_⟩
  · intro y x k l fy fx hi hl hv hF hfin
    obtain ⟨pre, hpre⟩ := reverse_split hl
    exact h5 y x k pre l _ fy fx hpre hi hv hF (fun l' hl' => hfin l' (by simpa using hl'))
  · intro y x k hi hno
    exact h6 y x k hi (fun l hl => hno l (by simpa using hl))

lemma corner_eq_inset {p L l : ℕ} (hp : Even p) : corner p L l false = inset p L l := by
  obtain ⟨h, rfl⟩ := hp
  unfold corner inset halfPatch
  have e1 : (h + h) / 2 = h := by omega
  have e2 : (h + h) * 2 ^ (L - 1) - (h + h) * 2 ^ l = 2 * (h * (2 ^ (L - 1) - 2 ^ l)) := by
    rw [← Nat.mul_sub]; ring
  rw [e1, e2]
  simp

/-- Drawing without border and magnification shows the stack of levels. -/
lemma draw_shows {p L : ℕ} (hp : Even p) {mp : MLP} {cx cy : ℕ} {m : Canvas} (hch : m.ch = 1 ∨ m.ch = 3)
    (hx : cx + p * 2 ^ (L - 1) ≤ m.cols) (hy : cy + p * 2 ^ (L - 1) ≤ m.rows) (hg : Grey p L mp) :
    ∃ m', drawMultilevelPatch p L m mp cx cy 1 false = some m' ∧ Shows p L m m' mp cx cy := by
  obtain ⟨m', h1, h2, h3, h4, h5, h6⟩ := draw_effect (p := p) (L := L) (mp := mp) (cx := cx) (cy := cy) (s := 1) one_pos (wb := false)
    (m := m) hch (by simpa [side] using hx) (by simpa [side] using hy) (by
      intro l hl hv k hk
      obtain ⟨g1, g2⟩ := hg l hl hv k (by simpa [side] using hk)
      simp only [shown, Bool.false_eq_true, if_false]
      constructor <;> linarith)
  have hside : side p false = p := by simp [side]
  rw [hside] at h5 h6
  refine ⟨m', h1, h2, h3, h4, ?_, ?_⟩
  · intro y x k l fy fx hi hl hv hF hfin
    rw [h5 y x k l fy fx hi hl hv (by rw [corner_eq_inset hp]; exact hF) (fun l' hl' hv' => by rw [corner_eq_inset hp]; exact hfin l' hl' hv')]
    simp only [shown, Bool.false_eq_true, if_false]
    have hk : fy * p + fx < p * p := by
      have : (fy + 1) * p ≤ p * p := Nat.mul_le_mul_right _ hF.1
      have := hF.2.1
      nlinarith
    exact Int.toNat_of_nonneg (Int.floor_nonneg.2 (hg l hl hv _ hk).1)
  · intro y x k hi hno
    exact h6 y x k hi (fun l hl hv => by rw [corner_eq_inset hp]; exact hno l hl hv)

/-- Pixels covered by some level lie in the square of the drawing. -/
lemma covers_square {p L l cx cy y x : ℕ} (hp : Even p) (hl : l < L) (h : Covers p 1 (inset p L l) cx cy l y x) :
    cy ≤ y ∧ y < cy + p * 2 ^ (L - 1) ∧ cx ≤ x ∧ x < cx + p * 2 ^ (L - 1) := by
  obtain ⟨fy, fx, h1, h2, h3, h4, h5, h6⟩ := h
  have hf := fits (p := p) (L := L) (l := l) (s := 1) (wb := false) hl one_pos
  rw [corner_eq_inset hp] at hf
  simp only [side, Bool.false_eq_true, if_false, Nat.mul_zero, Nat.add_zero, Nat.mul_one, Nat.one_mul] at hf
  rw [Nat.one_mul] at h3 h4 h5 h6
  have e1 : (fy + 1) * 2 ^ l ≤ p * 2 ^ l := Nat.mul_le_mul_right _ h1
  have e2 : (fx + 1) * 2 ^ l ≤ p * 2 ^ l := Nat.mul_le_mul_right _ h2
  refine ⟨by omega, by omega, by omega, by omega⟩

end Rovio.Draw
