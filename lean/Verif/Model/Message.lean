import Mathlib.Data.List.Range

/-!
# Model of the point-cloud and patch messages of `include/rovio/RovioNode.hpp`

A message buffer is an array of bytes; `memcpy` of a four byte object outside it, an access to a field that was not declared and a
read outside a patch are undefined (`none`).  The object representation of the values written (int, uint32_t, float) is a parameter:
a word is any four bytes.  The byte counters are natural numbers (overflow of `int` is not modelled).
-/

namespace Rovio

namespace Msg

/-- The object representation of an `int`, `uint32_t` or `float`. -/
abbrev Word := Fin 4 → UInt8

/-- `data` of a `sensor_msgs::PointCloud2` with `size` bytes. -/
abbrev Buf (size : ℕ) := Fin size → UInt8

/-- `memcpy(&data[off], &w, 4)`, as used in include/rovio/RovioNode.hpp:919-997. -/
def Buf.write {size : ℕ} (b : Buf size) (off : ℕ) (w : Word) : Option (Buf size) :=
  if off + 4 ≤ size then
    some fun i => if h : off ≤ i.val ∧ i.val < off + 4 then w ⟨i.val - off, by omega⟩ else b i
  else none

/-- What a subscriber does: read the four bytes at `off`. -/
def Buf.read {size : ℕ} (b : Buf size) (off : ℕ) : Option Word :=
  if h : off + 4 ≤ size then some fun k => b ⟨off + k.val, by omega⟩ else none

/-- A declared field (`sensor_msgs::PointField`): name, offset and number of four byte elements. -/
structure Field where
  name : String
  offset : ℕ
  count : ℕ

/-- The loop declaring the fields and counting bytes, include/rovio/RovioNode.hpp:278-285 and 301-308; returns the fields and
`point_step`.  All element sizes are 4 (lines 271, 297). -/
def declare : List (String × ℕ) → ℕ → List Field × ℕ
  | [], byteCounter => ([], byteCounter)
  | (name, count) :: rest, byteCounter =>
    let r := declare rest (byteCounter + 4 * count)
    (⟨name, byteCounter, count⟩ :: r.1, r.2)

/-- The fields of the point-cloud message and its `point_step`, include/rovio/RovioNode.hpp:269-286. -/
def pclLayout : List Field × ℕ := declare
  [("id", 1), ("camId", 1), ("rgb", 1), ("status", 1), ("x", 1), ("y", 1), ("z", 1), ("b_x", 1), ("b_y", 1), ("b_z", 1), ("d", 1),
   ("c_00", 1), ("c_01", 1), ("c_02", 1), ("c_11", 1), ("c_12", 1), ("c_22", 1), ("c_d", 1)] 0

/-- The fields of the patch message and its `point_step`, include/rovio/RovioNode.hpp:295-309. -/
def patchLayout (nLevels patchSize : ℕ) : List Field × ℕ := declare
  [("id", 1), ("patch", nLevels * patchSize * patchSize), ("dx", nLevels * patchSize * patchSize), ("dy", nLevels * patchSize * patchSize),
   ("error", nLevels * patchSize * patchSize)] 0

/-- A sequence of `memcpy`s: at `base` plus the offset of a field plus `shift`, the word (an array element that may not exist). -/
def writes {size : ℕ} (fields : List Field) (base : ℕ) : Buf size → List (ℕ × ℕ × Option Word) → Option (Buf size)
  | b, [] => some b
  | b, (j, shift, w) :: rest =>
    match fields[j]?, w with
    | some f, some w =>
      match b.write (base + f.offset + shift) w with
      | some b => writes fields base b rest
      | none => none
    | _, _ => none

/-- The values published for a valid feature, include/rovio/RovioNode.hpp:915-949. -/
structure PclPoint where
  id : Word
  camId : Word
  rgb : Word
  status : Word
  lmk : Fin 3 → Word
  bea : Fin 3 → Word
  dis : Word
  cov : Fin 3 → Fin 3 → Word
  disCov : Word

/-- The `memcpy`s for a valid feature, include/rovio/RovioNode.hpp:919-949, in this order; the covariance entries are written by a
double loop over the upper triangle with a running field number starting at 11. -/
def pclValid (p : PclPoint) : List (ℕ × ℕ × Option Word) :=
  [(0, 0, some p.id), (1, 0, some p.camId), (2, 0, some p.rgb), (3, 0, some p.status),
   (4, 0, some (p.lmk 0)), (5, 0, some (p.lmk 1)), (6, 0, some (p.lmk 2)),
   (7, 0, some (p.bea 0)), (8, 0, some (p.bea 1)), (9, 0, some (p.bea 2)), (10, 0, some p.dis)] ++
  ((List.finRange 3).flatMap fun row => ((List.finRange 3).filter fun col => row ≤ col).map fun col => p.cov row col).mapIdx
    (fun k w => (11 + k, 0, some w)) ++
  [(11 + 6, 0, some p.disCov)]

/-- The `memcpy`s for an invalid feature, include/rovio/RovioNode.hpp:963-969. -/
def pclInvalid (minusOne nan : Word) : List (ℕ × ℕ × Option Word) :=
  (0, 0, some minusOne) :: (List.range' 1 (pclLayout.1.length - 1)).map fun j => (j, 0, some nan)

/-- The `memcpy`s for a slot: the two branches of include/rovio/RovioNode.hpp:881-970. -/
def pclSlot (minusOne nan : Word) : Option PclPoint → List (ℕ × ℕ × Option Word)
  | some p => pclValid p
  | none => pclInvalid minusOne nan

/-- The loop over the features filling the point-cloud message, include/rovio/RovioNode.hpp:880-971, from feature `i` and byte
`offset` on. -/
def pclLoop {size : ℕ} (minusOne nan : Word) (b : Buf size) (offset : ℕ) : List (Option PclPoint) → Option (Buf size)
  | [] => some b
  | f :: fs =>
    match writes pclLayout.1 offset b (pclSlot minusOne nan f) with
    | some b => pclLoop minusOne nan b (offset + pclLayout.2) fs
    | none => none

/-- Filling the point-cloud message: the buffer has `row_step * height` bytes, include/rovio/RovioNode.hpp:286-288 and 880-971. -/
def pclMsg {nMax : ℕ} (minusOne nan : Word) (b : Buf (pclLayout.2 * nMax)) (f : Fin nMax → Option PclPoint) :
    Option (Buf (pclLayout.2 * nMax)) :=
  pclLoop minusOne nan b 0 (List.ofFn f)

/-- The patch data published for a valid feature: identifier, intensities, gradients and error patch per level and pixel (row
major), include/rovio/RovioNode.hpp:981-990. -/
structure PatchPoint (nLevels patchSize : ℕ) where
  id : Word
  arr : Fin 4 → Fin nLevels → Fin (patchSize * patchSize) → Word

/-- Element `k` of level `l` of one of the four arrays. -/
def PatchPoint.get {nLevels patchSize : ℕ} (p : PatchPoint nLevels patchSize) (a : Fin 4) (l k : ℕ) : Option Word :=
  if h : l < nLevels ∧ k < patchSize * patchSize then some (p.arr a ⟨l, h.1⟩ ⟨k, h.2⟩) else none

/-- The `memcpy`s for a valid feature of the patch message, include/rovio/RovioNode.hpp:981-990. -/
def patchValid {nLevels patchSize : ℕ} (p : PatchPoint nLevels patchSize) : List (ℕ × ℕ × Option Word) :=
  (0, 0, some p.id) :: (List.range nLevels).flatMap fun l => (List.range patchSize).flatMap fun y => (List.range patchSize).flatMap fun x =>
    let sh := (l * patchSize * patchSize + y * patchSize + x) * 4
    [(1, sh, p.get 0 l (y * patchSize + x)), (2, sh, p.get 1 l (y * patchSize + x)), (3, sh, p.get 2 l (y * patchSize + x)),
     (4, sh, p.get 3 l (y * patchSize + x))]

/-- The `memcpy`s for a slot of the patch message: the two branches of include/rovio/RovioNode.hpp:980-998; for an invalid feature
only the identifier is written. -/
def patchSlot {nLevels patchSize : ℕ} (minusOne : Word) : Option (PatchPoint nLevels patchSize) → List (ℕ × ℕ × Option Word)
  | some p => patchValid p
  | none => [(0, 0, some minusOne)]

/-- The loop over the features filling the patch message, include/rovio/RovioNode.hpp:979-999. -/
def patchLoop {size nLevels patchSize : ℕ} (minusOne : Word) (b : Buf size) (offset : ℕ) :
    List (Option (PatchPoint nLevels patchSize)) → Option (Buf size)
  | [] => some b
  | f :: fs =>
    match writes (patchLayout nLevels patchSize).1 offset b (patchSlot minusOne f) with
    | some b => patchLoop minusOne b (offset + (patchLayout nLevels patchSize).2) fs
    | none => none

/-- Filling the patch message, include/rovio/RovioNode.hpp:309-311 and 979-999. -/
def patchMsg {nMax nLevels patchSize : ℕ} (minusOne : Word) (b : Buf ((patchLayout nLevels patchSize).2 * nMax))
    (f : Fin nMax → Option (PatchPoint nLevels patchSize)) : Option (Buf ((patchLayout nLevels patchSize).2 * nMax)) :=
  patchLoop minusOne b 0 (List.ofFn f)

end Msg

end Rovio
