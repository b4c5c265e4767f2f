/-!
# Sizes and offsets

How big owners are, and where their parts are (indirect_test.cc:926-931, polymorphic_test.cc:727-732).  The rules for classes without
virtual functions are those of the Itanium C++ ABI, section 2.4 (GCC and Clang other than for Windows): bases, then data members, in the
order of their declaration; a base and a member declared `[[no_unique_address]]` may overlap others if its class is empty, and its tail padding
may be used by what follows.
Simplifications: sizes have no upper limit; no bit-fields, virtual bases or `#pragma pack`; whether a class counts as POD for the purpose of
layout is given.
-/

set_option autoImplicit false

namespace Verif
namespace Layout

/-- What the compiler knows of a type.  `N` are names of types. -/
structure Ty (N : Type) where
  /-- `sizeof` -/
  size : Nat
  /-- `alignof` -/
  align : Nat
  /-- the size without tail padding that others may use (`nvsize` in the ABI) -/
  data : Nat
  /-- an empty class, `std::is_empty` -/
  isEmpty : Bool
  /-- `std::is_final` -/
  isFinal : Bool
  /-- the empty classes among the type and its parts, with their offsets -/
  empties : List (N × Nat)
  deriving DecidableEq

/-- A pointer, an integer. -/
def scalar {N : Type} (size align : Nat) : Ty N := ⟨size, align, size, false, false, []⟩

/-- The next multiple of `a`. -/
def roundUp (n a : Nat) : Nat := (n + (a - 1)) / a * a

/-- A class while it is laid out. -/
structure Partial (N : Type) where
  size : Nat
  dsize : Nat
  align : Nat
  empties : List (N × Nat)
  /-- the offsets of the parts so far -/
  offsets : List Nat

section
variable {N : Type} [DecidableEq N]

/-- Would there be two empty objects of the same type at one address? -/
def clash (es ds : List (N × Nat)) (o : Nat) : Bool := ds.any fun d => es.contains (d.1, d.2 + o)

/-- No offset of an empty part is greater. -/
def greatest : List (N × Nat) → Nat
  | [] => 0
  | e :: es => max e.2 (greatest es)

/-- The first offset without a clash among `o`, `o + a`, `o + 2 * a`, … -/
def search (es ds : List (N × Nat)) (a : Nat) : Nat → Nat → Nat
  | 0, o => o
  | n + 1, o => if clash es ds o then search es ds a n (o + a) else o

/-- After what is there (Itanium C++ ABI 2.4.II, non-empty components). -/
def behind (c : Partial N) (t : Ty N) : Nat :=
  search c.empties t.empties t.align (greatest c.empties + 1) (roundUp c.dsize t.align)

/-- The offset of the next part.  `overlaps`: it is a base or declared `[[no_unique_address]]`. -/
def offset (c : Partial N) (overlaps : Bool) (t : Ty N) : Nat :=
  if overlaps && t.isEmpty && !clash c.empties t.empties 0 then 0 else behind c t

/-- The bytes of a part that others do not get. -/
def span (overlaps : Bool) (t : Ty N) : Nat := if overlaps then t.data else t.size

/-- One part (Itanium C++ ABI 2.4.II). -/
def place (c : Partial N) (overlaps : Bool) (t : Ty N) : Partial N :=
  let o := offset c overlaps t
  let es := c.empties ++ t.empties.map fun d => (d.1, d.2 + o)
  if overlaps && t.isEmpty then ⟨max c.size (o + t.size), c.dsize, max c.align t.align, es, c.offsets ++ [o]⟩
  else ⟨max c.size (o + span overlaps t), o + span overlaps t, max c.align t.align, es, c.offsets ++ [o]⟩

/-- All parts. -/
def places (c : Partial N) : List (Bool × Ty N) → Partial N
  | [] => c
  | p :: ps => places (place c p.1 p.2) ps

/-- Nothing yet. -/
def start : Partial N := ⟨0, 0, 1, [], []⟩

/-- A class: its name, is it POD for the purpose of layout, and the parts: bases and members, with `true` for those that may overlap. -/
def cls (name : N) (pod : Bool) (parts : List (Bool × Ty N)) : Ty N :=
  let c := places start parts
  let empty := parts.all fun p => p.1 && p.2.isEmpty
  let size := roundUp (max 1 c.size) c.align
  { size
    align := c.align
    data := if pod then size else c.size
    isEmpty := empty
    isFinal := false
    empties := c.empties ++ if empty then [(name, 0)] else [] }

/-- Where the parts of a class are. -/
def offsets (parts : List (Bool × Ty N)) : List Nat := (places start parts).offsets

/-! ### The owners -/

/-- The parts of `indirect`: indirect.h:427-435 (`pointer p_; [[no_unique_address]] A alloc_;`), and of `polymorphic`: polymorphic.h:117-124
(`control_block* cb_; [[no_unique_address]] A alloc_;`). -/
def parts20 (p a : Ty N) : List (Bool × Ty N) := [(false, p), (true, a)]

/-- `indirect<T, A>` or `polymorphic<T, A>`. -/
def owner20 (name : N) (p a : Ty N) : Ty N := cls name false (parts20 p a)

/-- `detail::empty_base_optimization<A>`: indirect_cxx14.h:63-96, polymorphic_cxx14.h:69-102. -/
def base14 (name : N) (a : Ty N) : Ty N :=
  if a.isEmpty && !a.isFinal then cls name false [(true, a)] else cls name false [(false, a)]

/-- The parts of the C++14 owners, a base and a pointer: indirect_cxx14.h:106, 546-547; polymorphic_cxx14.h:106, 172. -/
def parts14 (base : N) (p a : Ty N) : List (Bool × Ty N) := [(true, base14 base a), (false, p)]

/-- `indirect<T, A>` or `polymorphic<T, A>` of the C++14 headers. -/
def owner14 (name base : N) (p a : Ty N) : Ty N := cls name false (parts14 base p a)

/-! ### The blocks of `polymorphic` -/

/-- `polymorphic::control_block`, which has virtual functions: a pointer to the table of virtual functions and `pointer p_`: polymorphic.h:52-60,
polymorphic_cxx14.h:107-115. -/
def controlBlock (name : N) (w : Nat) (p : Ty N) : Ty N := cls name false [(false, scalar w w), (false, p)]

/-- The union with the member `U u_`: polymorphic.h:64-70, polymorphic_cxx14.h:119-125.  A union is not an empty class. -/
def storage (u : Ty N) : Ty N := { u with data := u.size, isEmpty := false, isFinal := false }

/-- `direct_control_block<U>`: a base and a union: polymorphic.h:62-70, polymorphic_cxx14.h:117-125. -/
def blockParts (base : N) (w : Nat) (p u : Ty N) : List (Bool × Ty N) := [(true, controlBlock base w p), (false, storage u)]

/-- What `create_control_block<U>` allocates: polymorphic.h:128-136, polymorphic_cxx14.h:176-184. -/
def block (name base : N) (w : Nat) (p u : Ty N) : Ty N := cls name false (blockParts base w p u)

end
end Layout
end Verif
