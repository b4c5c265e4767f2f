import Verif.Overload

/-!
# Incomplete types

`indirect<T>` and `polymorphic<T>` can be named, and be members of classes, while `T` is an incomplete type (DRAFT.md:798, 1330,
1843-1945).  This module models which questions about types the compiler has to answer, and when:

* to find out whether an expression like `indirect<T> y(x)` compiles (this is what `std::is_copy_constructible` and the
  like ask, and what the compiler asks for the generated functions of a class with such a member), the constraints of the
  candidates are evaluated;
* if the expression is used, the definition of the selected function is instantiated, with its static assertions.

A question about a class that is incomplete has no answer: to ask it is undefined ([meta.rqmts]/5) and the standard libraries
reject it.  The atomic constraints of a requires clause are evaluated from left to right until one is false ([temp.constr.op]),
and template arguments are substituted in order until one fails ([temp.deduct.general]/8), but the operands of `&&` in one template argument
are all instantiated.

The functions of overload resolution are those of `Verif/Overload.lean`, with the same simplifications.  Whether an argument is of a
class derived from the owner is also counted as a question about its class.
-/

set_option autoImplicit false

namespace Verif
namespace Incomplete
open Overload

/-- Questions about types; `T` is the owned type. -/
inductive Question (B : Type) where
  /-- `std::is_constructible<T, us...>`, `std::constructible_from<T, us...>` -/
  | constructible (us : List (UType B))
  /-- `std::is_assignable<T&, u>`, `std::assignable_from<T&, u>` -/
  | assignable (u : UType B)
  /-- `std::is_copy_constructible<b>`, `std::copy_constructible<b>` -/
  | copyConstructible (b : B)
  /-- `std::is_base_of<T, b>`, `std::derived_from<b, T>` -/
  | baseOf (b : B)
  /-- is `b` derived from the owner? -/
  | fromSelf (b : B)
  /-- `std::default_initializable<T>` -/
  | defaultInitializable
  /-- `std::is_move_constructible<T>`, `std::move_constructible<T>` -/
  | moveConstructible
  /-- does `t.~T()` compile? -/
  | destructible
  /-- `sizeof(T)`, to allocate or deallocate one `T` -/
  | size
  deriving DecidableEq

/-- The types that play a role. -/
structure Names (B : Type) where
  /-- the specialization of `indirect` or `polymorphic` -/
  self : B
  /-- the owned type `T` -/
  owned : B
  /-- `std::in_place_t`, `xyz::in_place_t` -/
  inPlace : B
  /-- `std::default_initializable<A>`; the allocator is complete -/
  allocDefault : Bool

/-- A computation that asks questions. -/
inductive Ask (B α : Type) where
  | ret (a : α)
  | ask (q : Question B) (k : Bool → Ask B α)

namespace Ask
variable {B α β : Type}

/-- The result, given the answers to the questions that have one. -/
def run (know : Question B → Option Bool) : Ask B α → Option α
  | .ret a => some a
  | .ask q k => match know q with
    | none => none
    | some b => (k b).run know

/-- One after the other. -/
def bind : Ask B α → (α → Ask B β) → Ask B β
  | .ret a, f => f a
  | .ask q k, f => .ask q fun b => (k b).bind f

instance : Monad (Ask B) where
  pure := .ret
  bind := .bind

end Ask

section
variable {B : Type} [DecidableEq B]

/-- The answer to a question. -/
def question (q : Question B) : Ask B Bool := .ask q .ret

/-- Constraints evaluated from left to right until one is false. -/
def inOrder : List (Ask B Bool) → Ask B Bool
  | [] => .ret true
  | c :: cs => do
    if ← c then inOrder cs else .ret false

/-- Operands of `&&` in a template argument: all are instantiated. -/
def together : List (Ask B Bool) → Ask B Bool
  | [] => .ret true
  | c :: cs => do
    let a ← c
    let b ← together cs
    .ret (a && b)

/-- The classes that must be complete for the question to have an answer.  A reference is complete.  ([meta.unary.prop], [meta.rel]:
a class is its own base, complete or not.) -/
def about (n : Names B) : Question B → List B
  | .constructible us => n.owned :: (us.filter fun u => !u.isRef).map (·.ty)
  | .assignable u => n.owned :: if u.isRef then [] else [u.ty]
  | .copyConstructible b => [b]
  | .baseOf b => if b = n.owned then [] else [b]
  | .fromSelf b => [b]
  | _ => [n.owned]

/-- What is known, given which classes are complete and how the questions will be answered. -/
def known (n : Names B) (complete : B → Bool) (answer : Question B → Bool) (q : Question B) : Option Bool :=
  if (about n q).all complete then some (answer q) else none

/-- Two rules on which compilers differ. -/
structure Rules where
  /-- an argument that does not convert to a parameter whose type does not depend on the template removes the candidate before its
  requires clause is evaluated ([temp.deduct.general]/5 as changed by CWG 2369) -/
  beforeConstraints : Bool
  /-- and before default template arguments are substituted -/
  beforeDefaults : Bool

/-- The four class templates. -/
inductive Header where
  | indirect20
  | indirect14
  | polymorphic20
  | polymorphic14
  deriving DecidableEq, Repr

/-- `U` is not the owner. -/
def notSelf (n : Names B) (u : UType B) : Ask B Bool := .ret !(removeCvref u == plain n.self)

/-- `U` is not the tag. -/
def notTag (n : Names B) (u : UType B) : Ask B Bool := .ret !(removeCvref u == plain n.inPlace)

/-- The constraints of the constructor from `U&&`. -/
def forward (n : Names B) (u : UType B) : Header → Ask B Bool
  /- indirect.h:103-107 -/
  | .indirect20 => inOrder [notSelf n u, notTag n u, question (.constructible [u]), .ret n.allocDefault]
  /- indirect_cxx14.h:142-155, two template arguments -/
  | .indirect14 => inOrder [.ret (plain n.owned == removeCvref u), notTag n u]
  /- polymorphic.h:162-167 -/
  | .polymorphic20 => inOrder [notSelf n u, question (.copyConstructible u.ty), question (.baseOf u.ty), .ret n.allocDefault]
  /- polymorphic_cxx14.h:295-311, three template arguments -/
  | .polymorphic14 => inOrder [notSelf n u, question (.copyConstructible u.ty), question (.baseOf u.ty)]

/-- The constraints of the constructor from `U&&` with an allocator. -/
def forwardA (n : Names B) (u : UType B) : Header → Ask B Bool
  /- indirect.h:150-154 -/
  | .indirect20 => inOrder [notSelf n u, notTag n u, question (.constructible [u])]
  /- indirect_cxx14.h:125-137 -/
  | .indirect14 => inOrder [.ret (plain n.owned == removeCvref u), notTag n u]
  /- polymorphic.h:210-214 -/
  | .polymorphic20 => inOrder [notSelf n u, question (.copyConstructible u.ty), question (.baseOf u.ty)]
  /- polymorphic_cxx14.h:273-289 -/
  | .polymorphic14 => inOrder [notSelf n u, question (.copyConstructible u.ty), question (.baseOf u.ty)]

/-- The constraints of `operator=(U&&)`; `polymorphic` does not have it. -/
def forwardAssign (n : Names B) (u : UType B) : Header → Ask B Bool
  /- indirect.h:294-297 -/
  | .indirect20 => inOrder [notSelf n u, question (.constructible [u]), question (.assignable u)]
  /- indirect_cxx14.h:303-307, one template argument; `remove_cv_t` does not remove the reference -/
  | .indirect14 => together [question (.constructible [u]), question (.assignable u), .ret !(removeCv u == plain n.self)]
  | .polymorphic20 => .ret false
  | .polymorphic14 => .ret false

/-- A candidate whose first parameter that can rule it out is a tag: `binds` says whether the argument is a tag, `early` whether the compiler
looks at that first. -/
def tagged (early binds : Bool) (c : Ask B Bool) : Ask B Bool := if early && !binds then .ret false else c

/-- `indirect(in_place_t, Us&&...)` called with a first argument that `binds` or not and others of types `us`: indirect.h:112-115,
indirect_cxx14.h:165-173.  In `polymorphic` the tag is `in_place_type_t<U>`, and `U` is not deduced from anything else. -/
def withTag (r : Rules) (n : Names B) (binds : Bool) (us : List (UType B)) : Header → Ask B Bool
  | .indirect20 => tagged r.beforeConstraints binds (inOrder [question (.constructible us), .ret n.allocDefault])
  | .indirect14 => tagged r.beforeDefaults binds (inOrder [question (.constructible us), .ret n.allocDefault])
  | .polymorphic20 => .ret false
  | .polymorphic14 => .ret false

/-- `indirect(allocator_arg_t, const A&, in_place_t, Us&&...)` likewise: indirect.h:168-171, indirect_cxx14.h:157-163. -/
def withTagA (r : Rules) (binds : Bool) (us : List (UType B)) : Header → Ask B Bool
  | .indirect20 => tagged r.beforeConstraints binds (question (.constructible us))
  | .indirect14 => tagged r.beforeDefaults binds (question (.constructible us))
  | .polymorphic20 => .ret false
  | .polymorphic14 => .ret false

/-- Is the argument a tag?  (`bindInPlace`, Verif/Overload.lean) -/
def isTag (n : Names B) (x : Arg B) : Bool := decide (x.ty = n.inPlace) && !x.isVolatile

/-- What overload resolution has to know of the types. -/
def types (n : Names B) (derived : Bool) : Types B where
  self := n.self
  owned := n.owned
  inPlace := n.inPlace
  fromSelf _ := derived
  fromOwned _ := false
  constructible _ := false
  assignable _ := false
  copyable _ := false
  defaultConstructible := false
  allocDefault := n.allocDefault

/-- Overload resolution, given which templates accept the argument. -/
def resolve (n : Names B) (x : Arg B) (forwardOk inPlaceOk : Bool) : Ask B (Option Fn) :=
  if x.ty = n.self then .ret (select (types n false) forwardOk inPlaceOk x)
  else do
    let d ← question (.fromSelf x.ty)
    .ret (select (types n d) forwardOk inPlaceOk x)

/-- Which function does `owner<T, A> y(x)` select, if any? -/
def constructs (r : Rules) (n : Names B) (h : Header) (x : Arg B) : Ask B (Option Fn) := do
  let f ← forward n (deduce x) h
  let i ← withTag r n (isTag n x) [] h
  resolve n x f i

/-- Which function does `owner<T, A> y(std::allocator_arg, a, x)` select, if any?  `std::allocator_arg` is not an `in_place_t`, so
`indirect(in_place_t, Us&&...)` is not viable, but its constraints may be evaluated. -/
def constructsA (r : Rules) (n : Names B) (h : Header) (a x : Arg B) : Ask B (Option Fn) := do
  let f ← forwardA n (deduce x) h
  let i ← withTagA r (isTag n x) [] h
  let _ ← withTag r n false [deduce a, deduce x] h
  resolve n x f i

/-- Which function does `y = x` select, if any? -/
def assigns (n : Names B) (h : Header) (x : Arg B) : Ask B (Option Fn) := do
  let f ← forwardAssign n (deduce x) h
  resolve n x f false

/-- Does `owner<T, A> y;` compile, as far as the constraints say?  indirect.h:96-97, indirect_cxx14.h:120-123, polymorphic.h:156-157,
polymorphic_cxx14.h:206-212. -/
def makes (n : Names B) : Header → Ask B Bool
  | .indirect20 => .ret n.allocDefault
  | .indirect14 => .ret n.allocDefault
  | .polymorphic20 => .ret n.allocDefault
  | .polymorphic14 => inOrder [question (.constructible []), .ret n.allocDefault]

/-- Does `owner<T, A> y(std::allocator_arg, a);`?  indirect.h:145, indirect_cxx14.h:116, polymorphic.h:203, polymorphic_cxx14.h:199-202. -/
def makesA (r : Rules) (n : Names B) (a : Arg B) (h : Header) : Ask B Bool := do
  let _ ← withTag r n false [deduce a] h
  match h with
  | .polymorphic14 => question (.constructible [])
  | _ => .ret true

/-! ### Definitions that are instantiated -/

/-- The functions of an owner. -/
inductive Use where
  | make
  | makeA
  | copy
  | copyA
  | move
  | moveA
  | destroy
  | copyAssign
  | moveAssign
  | swap
  /-- `operator*`, `operator->` -/
  | access
  /-- `valueless_after_move()`, `get_allocator()` -/
  | observe
  deriving DecidableEq, Repr

/-- `const T&` as the type of an argument. -/
def constRef (n : Names B) : UType B := ⟨n.owned, true, false, true⟩

/-- `~indirect()`, with `reset` and `destroy_with`: indirect.h:222, 437-441, 456-459; indirect_cxx14.h:237, 549-553, 567-570. -/
def destroyNeeds : List (Question B) := [.destructible, .size]

/-- `create_control_block<T>` instantiates `direct_control_block<T>`, whose virtual functions copy, move and destroy the object:
polymorphic.h:62-116, 128-143; polymorphic_cxx14.h:117-169, 176-191. -/
def controlBlockNeeds (n : Names B) : List (Question B) :=
  [.copyConstructible n.owned, .moveConstructible, .destructible, .size]

/-- What must be answered with yes for the definition to compile.  A constructor that delegates to another may call the destructor.  The
branches of an `if` that is not `if constexpr` are all instantiated; in the copy assignment these are an assignment and a construction.
`operator*` and `operator->` give a reference or a pointer and need nothing. -/
def needs (n : Names B) (alwaysEqual : Bool) : Header → Use → List (Question B)
  /- indirect.h:96-101 -/
  | .indirect20, .make => [.defaultInitializable, .constructible [], .size]
  /- indirect.h:145-148 -/
  | .indirect20, .makeA => [.constructible [], .size]
  /- indirect.h:185-195 -/
  | .indirect20, .copyA => [.copyConstructible n.owned, .size]
  /- indirect.h:129-135 -/
  | .indirect20, .copy => [.copyConstructible n.owned, .size] ++ destroyNeeds
  /- indirect.h:197-216 -/
  | .indirect20, .moveA => .moveConstructible :: if alwaysEqual then [] else [.size]
  /- indirect.h:137-139 -/
  | .indirect20, .move => (.moveConstructible :: if alwaysEqual then [] else [.size]) ++ destroyNeeds
  | .indirect20, .destroy => destroyNeeds
  /- indirect.h:228-258 -/
  | .indirect20, .copyAssign => [.copyConstructible n.owned, .assignable (constRef n), .size] ++ destroyNeeds
  /- indirect.h:260-292 -/
  | .indirect20, .moveAssign => [.moveConstructible, .size] ++ destroyNeeds
  /- indirect_cxx14.h:120-123 -/
  | .indirect14, .make => [.constructible [], .size] ++ destroyNeeds
  /- indirect_cxx14.h:116-118 -/
  | .indirect14, .makeA => [.constructible [], .size]
  /- indirect_cxx14.h:198-207 -/
  | .indirect14, .copyA => [.copyConstructible n.owned, .size]
  /- indirect_cxx14.h:209-213 -/
  | .indirect14, .copy => [.copyConstructible n.owned, .size] ++ destroyNeeds
  /- indirect_cxx14.h:215-231 -/
  | .indirect14, .moveA => [.moveConstructible, .size]
  /- indirect_cxx14.h:233-235 -/
  | .indirect14, .move => [.moveConstructible, .size] ++ destroyNeeds
  | .indirect14, .destroy => destroyNeeds
  /- indirect_cxx14.h:239-268 -/
  | .indirect14, .copyAssign => [.copyConstructible n.owned, .assignable (constRef n), .size] ++ destroyNeeds
  /- indirect_cxx14.h:270-301 -/
  | .indirect14, .moveAssign => [.moveConstructible, .size] ++ destroyNeeds
  /- polymorphic.h:156-160 -/
  | .polymorphic20, .make => .defaultInitializable :: .constructible [] :: controlBlockNeeds n
  /- polymorphic.h:203-208 -/
  | .polymorphic20, .makeA => .defaultInitializable :: .constructible [] :: controlBlockNeeds n
  /- polymorphic_cxx14.h:206-214 -/
  | .polymorphic14, .make => .constructible [] :: controlBlockNeeds n
  /- polymorphic_cxx14.h:199-204 -/
  | .polymorphic14, .makeA => .constructible [] :: controlBlockNeeds n
  /- the others of `polymorphic` call virtual functions of the control block: polymorphic.h:189-197, 240-337, 396-401,
     polymorphic_cxx14.h:317-415, 466-471; and swap, access and observers of all -/
  | _, _ => []

/-! ### Translation units -/

/-- What a translation unit asks of one owner. -/
inductive Trait (B : Type) where
  /-- `owner y;` -/
  | make
  /-- `owner y(std::allocator_arg, a);` -/
  | makeA (a : Arg B)
  /-- `owner y(x);` -/
  | construct (x : Arg B)
  /-- `owner y(std::allocator_arg, a, x);` -/
  | constructA (a x : Arg B)
  /-- `y = x` -/
  | assign (x : Arg B)
  /-- `y.~owner()` -/
  | destroy
  /-- `swap(y, y)` -/
  | swap

/-- Does it compile, as far as declarations say?  Destructors and `swap` have no constraints. -/
def asks (r : Rules) (n : Names B) (h : Header) : Trait B → Ask B Bool
  | .make => makes n h
  | .makeA a => makesA r n a h
  | .construct x => do
    let f ← constructs r n h x
    .ret f.isSome
  | .constructA a x => do
    let f ← constructsA r n h a x
    .ret f.isSome
  | .assign x => do
    let f ← assigns n h x
    .ret f.isSome
  | .destroy => .ret true
  | .swap => .ret true

/-- A class with owners as members, like `Composite` in compile_checks/indirect_as_member.cc:10-15 and
compile_checks/polymorphic_as_member.cc:10-15: the generated function does the same with each member, so the same is asked of each. -/
def composite (r : Rules) (t : Names B → Trait B) : List (Header × Names B) → Ask B Bool
  | [] => .ret true
  | m :: ms => do
    let a ← asks r m.2 m.1 (t m.2)
    let b ← composite r t ms
    .ret (a && b)

/-- Parts of a translation unit. -/
inductive Part (B : Type) where
  /-- the definition of a class -/
  | define (b : B)
  /-- a question about an owner -/
  | trait (h : Header) (n : Names B) (t : Trait B)
  /-- a use of a function of an owner with an allocator that is always equal or not -/
  | use (h : Header) (n : Names B) (alwaysEqual : Bool) (u : Use)

/-- The definition is compiled. -/
def compiles (know : Question B → Option Bool) (qs : List (Question B)) : Bool := qs.all fun q => know q == some true

/-- Compile a translation unit, given the facts about the classes once they are complete (they depend on the owner, whose owned type the
questions are about): the answers to its questions, or `none` if it is rejected or undefined. -/
def compile (r : Rules) (answer : Names B → Question B → Bool) : (B → Bool) → List (Part B) → Option (List Bool)
  | _, [] => some []
  | complete, .define b :: ps => compile r answer (fun c => c == b || complete c) ps
  | complete, .trait h n t :: ps =>
    match (asks r n h t).run (known n complete (answer n)) with
    | none => none
    | some a => (compile r answer complete ps).map (a :: ·)
  | complete, .use h n e u :: ps =>
    if compiles (known n complete (answer n)) (needs n e h u) then compile r answer complete ps else none

/-! ### exploration -/

/-- `std::is_copy_constructible<wrapper<T>>`: the copy constructor has no constraints (exploration/wrapper.h:13). -/
def wrapperCopies : Ask B Bool := .ret true

/-- `std::is_copy_constructible<constrained_wrapper<T>>`: the copy constructor is not viable, the template with `TT = T` asks for
`std::copy_constructible<T>` (exploration/wrapper.h:34-40). -/
def constrainedCopies (n : Names B) : Ask B Bool := question (.copyConstructible n.owned)

/-- The concept `CopyConstructible` of exploration/traits_and_concepts.cc:25-28: a `requires` expression, which is false for an incomplete
class instead of undefined. -/
def softly (n : Names B) (complete : B → Bool) (answer : Question B → Bool) (q : Question B) : Option Bool :=
  some ((about n q).all complete && answer q)

/-- A question asked several times, with the completion of classes in between; the compiler may remember the first answer, as it
does with concepts (exploration/traits_and_concepts.cc:36-40). -/
def replies (know : (B → Bool) → Option Bool) (remember : Bool) : Option Bool → List (B → Bool) → List (Option Bool)
  | _, [] => []
  | memo, c :: cs =>
    let a := match memo with
      | some b => if remember then some b else know c
      | none => know c
    a :: replies know remember a cs

end
end Incomplete
end Verif
