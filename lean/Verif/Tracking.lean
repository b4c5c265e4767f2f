import Verif.Machine

/-!
# `TrackingAllocator` and `TaggedAllocator`

The two allocators that come with the library (tracking_allocator.h, tagged_allocator.h), as instances of the
allocator interface that the model of the class templates is written against, and the counters that
`TrackingAllocator` updates.
-/

set_option autoImplicit false

namespace Verif

/-- A `TrackingAllocator`: the addresses of its two counters (tracking_allocator.h:27-37).  The value type is left
out: the converting constructor copies both pointers, so a rebound allocator has the same counters. -/
structure Tracking where
  allocCounter : Nat
  deallocCounter : Nat
  deriving DecidableEq, Repr

namespace Tracking

/-- `operator==` (tracking_allocator.h:58-62). -/
def eq (a b : Tracking) : Bool := a.allocCounter == b.allocCounter && a.deallocCounter == b.deallocCounter

/-- The counters in memory: objects of type `unsigned`, `w` bits wide, by address. -/
abbrev Counters (w : Nat) := Nat → BitVec w

/-- `++(*c)` on an `unsigned`: modulo `2 ^ w`. -/
def increment {w : Nat} (m : Counters w) (c : Nat) : Counters w := fun c' => if c' = c then m c + 1 else m c'

/-- A call of a member function of an allocator, with what the `std::allocator` inside did.
`allocate a (some p)` returned `p`; in `allocate a none` the `std::allocator` threw. -/
inductive Call where
  | allocate (a : Tracking) (p : Option Addr)
  | deallocate (a : Tracking) (p : Addr)
  deriving DecidableEq, Repr

/-- `allocate` (tracking_allocator.h:46-50) and `deallocate` (:52-56).  The counter of `allocate` goes up before
storage is requested from the `std::allocator`, whether that succeeds or throws. -/
def step {w : Nat} (m : Counters w) : Call → Counters w
  | .allocate a _ => increment m a.allocCounter
  | .deallocate a _ => increment m a.deallocCounter

/-- A sequence of calls of allocators. -/
def run {w : Nat} (m : Counters w) : List Call → Counters w
  | [] => m
  | c :: cs => run (step m c) cs

/-- `std::allocator_traits<TrackingAllocator<T>>`: no member of the class changes a default, except that it has no
default constructor; `dflt` is what a user would have to supply.  The class is not empty, so `is_always_equal` is
false.  Every allocator value is its own resource: the real storage, of `std::allocator`, is shared, so that this
asks more of the headers than the language does. -/
def traits (dflt : Tracking) : ATraits Tracking Tracking where
  eq := eq
  res a := a
  alwaysEqual := false
  pocca := false
  pocma := false
  pocs := false
  socc a := a
  dflt := dflt

theorem eq_iff {a b : Tracking} : eq a b = true ↔ a = b := by
  cases a; cases b; simp [eq]

theorem sound (d : Tracking) : (traits d).Sound := ⟨fun _ _ h => eq_iff.1 h, by simp [traits]⟩

end Tracking

/-- `TaggedAllocator` (tagged_allocator.h:30-73): a number, compared by `operator==` (:64-67); the rest are the
defaults of `std::allocator_traits`, `construct` (:47-50) is placement new as in the default, and there is no
default constructor. -/
structure Tagged where
  tag : Nat
  deriving DecidableEq, Repr

namespace Tagged

/-- `operator==` (tagged_allocator.h:64-67). -/
def eq (a b : Tagged) : Bool := a.tag == b.tag

/-- `std::allocator_traits<TaggedAllocator<T>>`; see `Tracking.traits`. -/
def traits (dflt : Tagged) : ATraits Tagged Tagged where
  eq := eq
  res a := a
  alwaysEqual := false
  pocca := false
  pocma := false
  pocs := false
  socc a := a
  dflt := dflt

theorem eq_iff {a b : Tagged} : eq a b = true ↔ a = b := by
  cases a; cases b; simp [eq]

theorem sound (d : Tagged) : (traits d).Sound := ⟨fun _ _ h => eq_iff.1 h, by simp [traits]⟩

end Tagged
end Verif
