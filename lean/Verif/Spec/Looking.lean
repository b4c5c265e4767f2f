import Verif.Looking

/-!
# What owned objects see of owners
-/

set_option autoImplicit false

namespace Verif.Spec.Looking
open Verif Verif.Looking

section
variable {L A R B Ty V X α : Type} [DecidableEq L]

/-- A computation that changes no owner when it returns. -/
def Quiet (m : M (St L A R B) α) : Prop := ∀ s a s', m s = .ok a s' → s'.hs = s.hs

/-- The constructors of the type change no owner. -/
structure QuietT (T : TOps (St L A R B) A X) : Prop where
  make : ∀ a d xs, Quiet (T.make a d xs)
  copyCtor : ∀ a d q, Quiet (T.copyCtor a d q)
  moveCtor : ∀ a d q, Quiet (T.moveCtor a d q)

/-- The same for derived types. -/
structure QuietP (P : POps (St L A R B) A Ty X) : Prop where
  make : ∀ ty a d xs, Quiet (P.make ty a d xs)
  copyCtor : ∀ ty a d q, Quiet (P.copyCtor ty a d q)
  moveCtor : ∀ ty a d q, Quiet (P.moveCtor ty a d q)

/-- A type that does not look at owners: its constructors and assignments do what `U` does that sees `before`, its destructor what `U` does that sees `dying`. -/
def fixed (assignable copyAssignable : Bool) (U : Owners L A → TOps (St L A R B) A X) (before dying : Owners L A) : TOps (St L A R B) A X where
  make := (U before).make
  copyCtor := (U before).copyCtor
  moveCtor := (U before).moveCtor
  copyAssign := (U before).copyAssign
  moveAssign := (U before).moveAssign
  assignArg := (U before).assignArg
  dtor := (U dying).dtor
  assignable := assignable
  copyAssignable := copyAssignable

/-- The same for derived types. -/
def fixedP (base : Ty) (U : Owners L A → POps (St L A R (PBody Ty V)) A Ty X) (before dying : Owners L A) : POps (St L A R (PBody Ty V)) A Ty X where
  base := base
  make := (U before).make
  copyCtor := (U before).copyCtor
  moveCtor := (U before).moveCtor
  dtor := (U dying).dtor
  block _ _ m := m

/-- The owners after `x` and `y` have exchanged what they own, not their allocators. -/
def exchanged (h : Owners L A) (x y : L) : Owners L A := fun l =>
  match h x, h y with
  | some t, some o => if l = y then some ⟨t.p, o.alloc⟩ else if l = x then some ⟨o.p, t.alloc⟩ else h l
  | _, _ => h l

/-- What a destructor sees that is called by `x = std::move(y)`: with equal allocators the target has the new object already, and the source has the old one; otherwise everything is as
before. -/
def dyingMove (tr : ATraits A R) (h : Owners L A) (x y : L) : Owners L A :=
  match h x, h y with
  | some t, some o => if o.p ≠ none ∧ tr.eq t.alloc o.alloc = true then exchanged h x y else h
  | _, _ => h

/-- What a destructor sees that is called by a function of `indirect`. -/
def dying (tr : ATraits A R) (h : Owners L A) : Op L A V X → Owners L A
  | .assignMove x y => dyingMove tr h x y
  | _ => h

/-- And of `polymorphic`. -/
def dyingP (tr : ATraits A R) (h : Owners L A) : POp L A Ty V X → Owners L A
  | .assignMove x y => dyingMove tr h x y
  | _ => h

/-- Some owner refers to the object at `p`. -/
def Referred (h : Owners L A) (p : Addr) : Prop := ∃ l t, h l = some t ∧ t.p = some p

open Classical in
/-- A type whose destructor does `m` if no owner refers to the dying object. -/
noncomputable def onlyReferred (U : Owners L A → TOps (St L A R B) A X) (m : M (St L A R B) Unit) (h : Owners L A) : TOps (St L A R B) A X :=
  { U h with dtor := fun a p => if Referred h p then (U h).dtor a p else m }

open Classical in
/-- The same for derived types. -/
noncomputable def onlyReferredP (U : Owners L A → POps (St L A R (PBody Ty V)) A Ty X) (m : M (St L A R (PBody Ty V)) Unit) (h : Owners L A) : POps (St L A R (PBody Ty V)) A Ty X :=
  { U h with dtor := fun ty a p => if Referred h p then (U h).dtor ty a p else m }

end
end Verif.Spec.Looking
