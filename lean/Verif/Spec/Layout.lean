import Verif.Layout

/-!
# What users know about sizes
-/

set_option autoImplicit false

namespace Verif.Spec.Sizes
open Verif.Layout

section
variable {N : Type}

/-- What is true of every type in C++: alignments are powers of two, sizes are positive multiples of them; a type that is not an empty class has data,
and its size is that and padding; its empty parts are inside, and no two of one type are at one address. -/
structure Sound (t : Ty N) : Prop where
  pow : ∃ k, t.align = 2 ^ k
  mult : t.align ∣ t.size
  pos : 0 < t.size
  fits : t.isEmpty = false → 0 < t.data ∧ t.data ≤ t.size ∧ t.size < t.data + t.align
  inside : ∀ e ∈ t.empties, e.2 < if t.isEmpty then t.size else t.data
  distinct : t.empties.Nodup

/-- `s` is the least multiple of `a` that has room for `n` bytes. -/
def Padded (n a s : Nat) : Prop := a ∣ s ∧ n ≤ s ∧ s < n + a

/-- Two ranges of bytes, `n` from `o` on and `n'` from `o'` on, have none in common. -/
def Disjoint (o n o' n' : Nat) : Prop := ∀ b, ¬ (o ≤ b ∧ b < o + n ∧ o' ≤ b ∧ b < o' + n')

/-- The bytes that belong to a base or a `[[no_unique_address]]` member (`true`), or to another member. -/
def bytes : Bool × Ty N → Nat
  | (true, t) => if t.isEmpty then 0 else t.data
  | (false, t) => t.size

/-- The room that it needs in the class. -/
def room : Bool × Ty N → Nat
  | (true, t) => if t.isEmpty then t.size else t.data
  | (false, t) => t.size

/-- A class whose objects need no room beside those of `p`: it is empty, not too big and not aligned more strictly. -/
structure Free (p a : Ty N) : Prop where
  empty : a.isEmpty = true
  size : a.size ≤ p.size
  align : a.align ≤ p.align

/-- The pointer has no empty part of a class that is a part of the allocator: so with all pointers that are not classes. -/
def Unrelated (p a : Ty N) : Prop := ∀ d ∈ p.empties, ∀ e ∈ a.empties, d.1 ≠ e.1

end
end Verif.Spec.Sizes
