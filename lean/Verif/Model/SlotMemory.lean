import Mathlib.Logic.Function.Basic
import Mathlib.Data.Nat.Notation

/-!
# The objects a feature slot refers to and owns

A `FeatureManager` (include/rovio/FeatureManager.hpp:51-123) has four pointers to objects, each of which is either linked to an object of
somebody else or to one the slot has allocated and has to delete.  Here addresses are modelled, not the contents of the objects.
`none` as a result is undefined behaviour: deleting what is not allocated, following a null or dangling pointer, or using a slot that does not exist.
-/

namespace Rovio.SlotMemory

/-- The objects of a slot: include/rovio/FeatureManager.hpp:58-61. -/
inductive Field where
  | coordinates
  | distance
  | statistics
  | patch
  deriving DecidableEq

/-- An address: of an object that belongs to somebody else and outlives the slot (e.g. an element of the state,
include/rovio/FilterStates.hpp:187-188), or of one made by `new`. -/
inductive Addr where
  | foreign (a : ℕ)
  | allocated (a : ℕ)
  deriving DecidableEq

/-- The pointers of a `FeatureManager`: `mp` those in use (include/rovio/FeatureManager.hpp:58-61), `own` the allocated ones (64-67). -/
structure Slot where
  mp : Field → Option Addr
  own : Field → Option ℕ

/-- Slots that exist, by name; which allocated objects are alive; the next address `new` returns (addresses are not reused). -/
structure World where
  slot : ℕ → Option Slot
  live : ℕ → Bool
  next : ℕ

/-- Nothing exists. -/
def start : World := ⟨fun _ => none, fun _ => false, 0⟩

/-- Replaces a slot. -/
def World.set (w : World) (i : ℕ) (s : Option Slot) : World := { w with slot := Function.update w.slot i s }

/-- One of the four conditionals of `allocateMissing`, include/rovio/FeatureManager.hpp:105-120. -/
def allocateOne (i : ℕ) (w : World) (f : Field) : World :=
  match w.slot i with
  | none => w
  | some s =>
    if s.mp f = none then
      { slot := Function.update w.slot i (some ⟨Function.update s.mp f (some (.allocated w.next)), Function.update s.own f (some w.next)⟩)
        live := Function.update w.live w.next true
        next := w.next + 1 }
    else w

/-- `delete` of an owned object (include/rovio/FeatureManager.hpp:88-91): nothing for a null pointer. -/
def deleteOne (live : ℕ → Bool) : Option ℕ → Option (ℕ → Bool)
  | none => some live
  | some a => if live a then some (Function.update live a false) else none

/-- May the object at this address be accessed? -/
def Addr.alive (live : ℕ → Bool) : Addr → Bool
  | .foreign _ => true
  | .allocated a => live a

/-- The statistics of a slot can be accessed (`*mpStatistics_`, include/rovio/FeatureManager.hpp:98). -/
def statsAlive (w : World) (s : Slot) : Bool :=
  match s.mp .statistics with
  | none => false
  | some a => a.alive w.live

/-- What is done with slots: include/rovio/FeatureManager.hpp:71 (constructor), 104 (`allocateMissing`), 94 (assignment), 87 (destructor),
include/rovio/FilterStates.hpp:174-190 (linking a pointer), and the copy constructor the compiler adds (85: "complete rule of three"). -/
inductive Op where
  | construct (i : ℕ)
  | link (i : ℕ) (f : Field) (a : ℕ)
  | allocateMissing (i : ℕ)
  | assign (i j : ℕ)
  | destroy (i : ℕ)
  | copyConstruct (i j : ℕ)

/-- Effect of an operation, include/rovio/FeatureManager.hpp:71-121.  Assignment follows the pointers to the statistics of both slots and leaves
all pointers as they are. -/
def step (w : World) : Op → Option World
  | .construct i => if (w.slot i).isSome then none else some (w.set i (some ⟨fun _ => none, fun _ => none⟩))
  | .link i f a => do
    let s ← w.slot i
    return w.set i (some { s with mp := Function.update s.mp f (some (.foreign a)) })
  | .allocateMissing i => do
    let _ ← w.slot i
    return [Field.coordinates, .distance, .statistics, .patch].foldl (allocateOne i) w
  | .assign i j => do
    let s ← w.slot i
    let t ← w.slot j
    if statsAlive w s && statsAlive w t then return w else none
  | .destroy i => do
    let s ← w.slot i
    let live ← deleteOne w.live (s.own .coordinates)
    let live ← deleteOne live (s.own .distance)
    let live ← deleteOne live (s.own .statistics)
    let live ← deleteOne live (s.own .patch)
    return { w.set i none with live := live }
  | .copyConstruct i j => do
    let s ← w.slot j
    if (w.slot i).isSome then none else return w.set i (some s)

/-- A history of operations (include/rovio/FeatureManager.hpp:71-121). -/
def run : World → List Op → Option World
  | w, [] => some w
  | w, o :: os => (step w o).bind fun w => run w os

/-- What the constructor of a filter state does with a slot: include/rovio/FilterStates.hpp:553-559. -/
def setUp (i c d : ℕ) : List Op := [.construct i, .link i .coordinates c, .link i .distance d, .allocateMissing i]

end Rovio.SlotMemory
