import Verif.Incomplete

/-!
# What users expect of owners of incomplete types
-/

set_option autoImplicit false

namespace Verif.Spec
open Verif.Overload Verif.Incomplete

section
variable {B : Type}

/-- The result is `a` whatever is known, even if nothing is: the question can be asked while every other class is incomplete. -/
def Settled {α : Type} (t : Ask B α) (a : α) : Prop := ∀ know : Question B → Option Bool, t.run know = some a

/-- One completes classes as a translation unit goes on. -/
def More (c c' : B → Bool) : Prop := ∀ b, c b = true → c' b = true

/-- An argument that is an object of the owner, not volatile: what copies and moves have. -/
structure IsOwner (n : Names B) (x : Arg B) : Prop where
  ty : x.ty = n.self
  plain : x.isVolatile = false

/-- Which function copies or moves it. -/
def copiesOrMoves (x : Arg B) : Fn := if x.isLvalue || x.isConst then .copy else .move

/-- The owner is not the tag and not what it owns. -/
structure Apart (n : Names B) : Prop where
  owned : n.self ≠ n.owned
  tag : n.self ≠ n.inPlace

/-- The compiler looks at the arguments before the constraints of constructors that are not for them.  The paper relies on it: with the older order
of [temp.deduct.general] the constraints of `indirect(in_place_t, Us&&...)` are evaluated for every argument. -/
def Early (r : Rules) : Header → Prop
  | .indirect20 => r.beforeConstraints = true
  | .indirect14 => r.beforeDefaults = true
  | .polymorphic20 => True
  | .polymorphic14 => True

/-- Questions that concern copies, moves, destruction and swap of owners. -/
inductive Basic (n : Names B) : Trait B → Prop where
  | construct {x : Arg B} : IsOwner n x → Basic n (.construct x)
  | constructA {x : Arg B} (a : Arg B) : IsOwner n x → Basic n (.constructA a x)
  | assign {x : Arg B} : IsOwner n x → Basic n (.assign x)
  | destroy : Basic n .destroy
  | swap : Basic n .swap

/-- The functions that create the owned object from nothing. -/
def creates : Use → Bool
  | .make => true
  | .makeA => true
  | _ => false

/-- The functions of `indirect` that do not look at the owned object. -/
def handles : Use → Bool
  | .swap => true
  | .access => true
  | .observe => true
  | _ => false

/-- What a type must offer for a function of `indirect` to be used, according to DRAFT.md: [indirect.ctor], [indirect.dtor],
[indirect.assign].  (For the move assignment DRAFT.md:1122 asks for a copy constructor; meant is a move constructor.) -/
def mandates (n : Names B) : Use → Question B → Prop
  | .make, q => q = .constructible [] ∨ q = .destructible
  | .makeA, q => q = .constructible []
  | .copy, q => q = .copyConstructible n.owned ∨ q = .destructible
  | .copyA, q => q = .copyConstructible n.owned
  | .move, q => q = .moveConstructible ∨ q = .destructible
  | .moveA, q => q = .moveConstructible
  | .destroy, q => q = .destructible
  | .copyAssign, q => q = .copyConstructible n.owned ∨ q = .assignable ⟨n.owned, true, false, true⟩ ∨ q = .destructible
  | .moveAssign, q => q = .moveConstructible ∨ q = .destructible
  | _, _ => False

/-- Facts about types that hold in C++: a complete type has a size, and it can be default initialized exactly if it can be
constructed from no arguments and be destroyed.  (`std::default_initializable` also asks for `T{}` and `::new T`.  Types for which these
differ from `T()` are left out.) -/
structure Sensible (answer : Question B → Bool) : Prop where
  size : answer .size = true
  default : answer .defaultInitializable = true ↔ answer (.constructible []) = true ∧ answer .destructible = true

/-- When a translation unit that uses `indirect<T>` is in order: a function that looks at the owned object is used only where `T` is complete,
and `T` offers what the function needs.  Questions may be asked anywhere. -/
def InOrder [DecidableEq B] (n : Names B) (answer : Question B → Bool) : (B → Bool) → List (Part B) → Prop
  | _, [] => True
  | c, .define b :: ps => InOrder n answer (fun d => d == b || c d) ps
  | c, .trait _ _ _ :: ps => InOrder n answer c ps
  | c, .use _ _ _ u :: ps =>
    (handles u = true ∨ c n.owned = true ∧ ∀ q, mandates n u q → answer q = true) ∧ InOrder n answer c ps

/-- The number of questions in a translation unit. -/
def questions : List (Part B) → Nat
  | [] => 0
  | .trait _ _ _ :: ps => questions ps + 1
  | _ :: ps => questions ps

/-- A part that is about `polymorphic`, and does not create an owned object from nothing. -/
def PolymorphicPart : Part B → Prop
  | .define _ => True
  | .trait h n t => (h = .polymorphic20 ∨ h = .polymorphic14) ∧ Apart n ∧ Basic n t
  | .use h _ _ u => (h = .polymorphic20 ∨ h = .polymorphic14) ∧ creates u = false

/-- A part that is about one specialization of `indirect` of indirect.h. -/
def IndirectPart (n : Names B) : Part B → Prop
  | .define _ => True
  | .trait h n' t => h = .indirect20 ∧ n' = n ∧ Basic n t
  | .use h n' _ _ => h = .indirect20 ∧ n' = n

/-- The same for indirect_cxx14.h, but without assignments among the questions. -/
def IndirectPart14 (n : Names B) : Part B → Prop
  | .define _ => True
  | .trait h n' t => h = .indirect14 ∧ n' = n ∧ Basic n t ∧ ∀ x, t ≠ .assign x
  | .use h n' _ _ => h = .indirect14 ∧ n' = n

/-- The facts about types as overload resolution of complete types has them. -/
def facts (n : Names B) (answer : Question B → Bool) : Types B where
  self := n.self
  owned := n.owned
  inPlace := n.inPlace
  fromSelf b := answer (.fromSelf b)
  fromOwned b := answer (.baseOf b)
  constructible u := answer (.constructible [u])
  assignable u := answer (.assignable u)
  copyable b := answer (.copyConstructible b)
  defaultConstructible := answer (.constructible [])
  allocDefault := n.allocDefault

end
end Verif.Spec
