import Verif.Machine

/-!
# Specification of traces

The life cycle of storage and objects, as a protocol on the sequence of events alone: a block is allocated
while it is free, an object is constructed in allocated storage that holds no object, it is assigned or
read only while it is alive, destroyed once, and its storage is returned exactly once, after that, to the
resource it came from.  `replay` runs a trace against this protocol from empty memory; it fails at the
first violation.
-/

set_option autoImplicit false

namespace Verif.Spec
open Verif

/-- What a trace says about a block: its resource, and whether an object lives in it. -/
structure Blk (R : Type) where
  arena : R
  live : Bool
  deriving DecidableEq, Repr

/-- What a trace says about memory. -/
abbrev Mem (R : Type) := Addr → Option (Blk R)

section
variable {R : Type} [DecidableEq R]

/-- An object is alive at `p`. -/
def liveAt (m : Mem R) (p : Addr) : Bool :=
  match m p with
  | some b => b.live
  | none => false

/-- The object that a value is taken from is alive. -/
def sourceOk (m : Mem R) : How → Bool
  | .args => true
  | .copyOf q => liveAt m q
  | .moveOf q => liveAt m q

/-- Memory with block `p` changed. -/
def setBlk (m : Mem R) (p : Addr) (b : Option (Blk R)) : Mem R := fun q => if q = p then b else m q

/-- One event of the protocol; `none` is a violation. -/
def obey (m : Mem R) : Ev R → Option (Mem R)
  | .alloc r p => if m p = none then some (setBlk m p (some ⟨r, false⟩)) else none
  | .dealloc r p => if m p = some ⟨r, false⟩ then some (setBlk m p none) else none
  | .construct p how =>
    match m p with
    | some ⟨r, false⟩ => if sourceOk m how then some (setBlk m p (some ⟨r, true⟩)) else none
    | _ => none
  | .assign p how => if liveAt m p && sourceOk m how then some m else none
  | .destroy p =>
    match m p with
    | some ⟨r, true⟩ => some (setBlk m p (some ⟨r, false⟩))
    | _ => none
  | .custom _ _ _ _ => some m

/-- A sequence of events of the protocol, starting from `m`. -/
def replayFrom (m : Mem R) : List (Ev R) → Option (Mem R)
  | [] => some m
  | ev :: evs =>
    match obey m ev with
    | some m' => replayFrom m' evs
    | none => none

/-- A whole trace, starting from empty memory. -/
def replay (t : List (Ev R)) : Option (Mem R) := replayFrom (fun _ => none) t

/-- The event without the object a value was taken from. -/
def anon : Ev R → Ev R
  | .construct p _ => .construct p .args
  | .assign p _ => .assign p .args
  | ev => ev

/-- A trace run against the protocol for storage and lifetimes only: as `replay`, but without looking at
the objects values are taken from. -/
def lives (t : List (Ev R)) : Option (Mem R) := replay (t.map anon)

/-- The event allocates or frees block `p`. -/
def storageEvent (p : Addr) : Ev R → Prop
  | .alloc _ q => q = p
  | .dealloc _ q => q = p
  | _ => False

/-- The number of allocations of block `p`. -/
def allocsAt (p : Addr) : List (Ev R) → Nat
  | [] => 0
  | .alloc _ q :: t => (if q = p then 1 else 0) + allocsAt p t
  | _ :: t => allocsAt p t

/-- The number of deallocations of block `p`. -/
def deallocsAt (p : Addr) : List (Ev R) → Nat
  | [] => 0
  | .dealloc _ q :: t => (if q = p then 1 else 0) + deallocsAt p t
  | _ :: t => deallocsAt p t

/-- The number of objects constructed in block `p`. -/
def constructsAt (p : Addr) : List (Ev R) → Nat
  | [] => 0
  | .construct q _ :: t => (if q = p then 1 else 0) + constructsAt p t
  | _ :: t => constructsAt p t

/-- The number of objects destroyed in block `p`. -/
def destroysAt (p : Addr) : List (Ev R) → Nat
  | [] => 0
  | .destroy q :: t => (if q = p then 1 else 0) + destroysAt p t
  | _ :: t => destroysAt p t

/-- All allocations in a trace. -/
def allocs : List (Ev R) → Nat
  | [] => 0
  | .alloc _ _ :: t => 1 + allocs t
  | _ :: t => allocs t

/-- All deallocations in a trace. -/
def deallocs : List (Ev R) → Nat
  | [] => 0
  | .dealloc _ _ :: t => 1 + deallocs t
  | _ :: t => deallocs t

end
end Verif.Spec
