import Verif.Explicit

/-!
# What users expect of implicit conversions
-/

set_option autoImplicit false

namespace Verif.Spec.Conversions
open Verif.Explicit
open Verif.Overload (Arg Types Fn)
open Verif.Incomplete (Header)

section
variable {B K : Type}

/-- An expression that is an owner, or an object of a class derived from it. -/
def IsOwner (t : Types B) (x : Arg B) : Prop := (x.ty = t.self ∨ t.fromSelf x.ty = true) ∧ x.isVolatile = false

/-- What happens with it. -/
def copyOrMove (x : Arg B) : Fn := if !x.isLvalue && !x.isConst then .move else .copy

/-- The headers for C++20. -/
def Modern : Header → Prop
  | .indirect20 => True
  | .polymorphic20 => True
  | _ => False

/-- No user means `T`, the tags and owners to be the same type. -/
structure Separate (t : Types B) (f : Facts B K) : Prop where
  owned : t.self ≠ t.owned
  inPlace : t.self ≠ t.inPlace
  tag : f.isTag t.self = false

/-- Initializers in which an owner is given, alone or after an allocator. -/
inductive Owners (t : Types B) (f : Facts B K) : List (In B K) → Arg B → Prop where
  | plain (x : Arg B) : IsOwner t x → Owners t f [.one x] x
  | extended (i : Arg B) (a : In B K) (x : Arg B) : i.ty = f.allocArg → i.isVolatile = false → f.toAlloc a = true → IsOwner t x →
      Owners t f [.one i, a, .one x] x

/-- The constructors of owners from owners. -/
def fromOwner : Ctor → Bool
  | .copy => true
  | .move => true
  | .aCopy => true
  | .aMove => true
  | _ => false

end
end Verif.Spec.Conversions
