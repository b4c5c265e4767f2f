import Verif.Constraints

/-!
# Which arguments the paper says the templates accept

The "Constraints" paragraphs of DRAFT.md.  `remove_cvref_t<U>` of `u` is `u.ty`.
-/

set_option autoImplicit false

namespace Verif.Spec.Paper
open Verif.Constraints Overload

section
variable {B : Type} (F : Facts B)

/-- DRAFT.md:989-1062 (constructors), 1146-1154 (assignment). -/
def indirect : ICall B → Prop
  | .value u => u.ty ≠ F.self ∧ u.ty ≠ F.inPlace ∧ F.constructible F.owned [u] = true ∧ F.allocDefault = true
  | .valueA u => u.ty ≠ F.self ∧ u.ty ≠ F.inPlace ∧ F.constructible F.owned [u] = true
  | .inPlace us => F.constructible F.owned us = true ∧ F.allocDefault = true
  | .inPlaceA us => F.constructible F.owned us = true
  | .list i us => F.constructible F.owned (⟨F.list i, false, false, true⟩ :: us) = true ∧ F.allocDefault = true
  | .listA i us => F.constructible F.owned (⟨F.list i, false, false, true⟩ :: us) = true
  | .assign u => u.ty ≠ F.self ∧ F.constructible F.owned [u] = true ∧ F.assignable u = true

/-- `derived_from<b, T>`: `T` is a base class of `b`, public and unambiguous, or `b` is the class `T`. -/
def Derived (b : B) : Prop := F.baseOf b = true ∧ F.pointerConverts b = true

/-- `is_copy_constructible_v<b>`. -/
def Copyable (b : B) : Prop := F.constructible b [⟨b, true, false, true⟩] = true

/-- DRAFT.md:1499-1589. -/
def polymorphic : PCall B → Prop
  | .value u => u.ty ≠ F.self ∧ Derived F u.ty ∧ F.constructible u.ty [u] = true ∧ Copyable F u.ty ∧
      F.isTag u.ty = false ∧ F.allocDefault = true
  | .valueA u => u.ty ≠ F.self ∧ Derived F u.ty ∧ F.constructible u.ty [u] = true ∧ Copyable F u.ty ∧
      F.isTag u.ty = false
  | .inPlace u us => u = plain u.ty ∧ Derived F u.ty ∧ F.constructible u.ty us = true ∧ Copyable F u.ty ∧
      F.allocDefault = true
  | .inPlaceA u us => u = plain u.ty ∧ Derived F u.ty ∧ F.constructible u.ty us = true ∧ Copyable F u.ty
  | .list u i us => u = plain u.ty ∧ Derived F u.ty ∧
      F.constructible u.ty (⟨F.list i, false, false, true⟩ :: us) = true ∧ Copyable F u.ty ∧ F.allocDefault = true
  | .listA u i us => u = plain u.ty ∧ Derived F u.ty ∧
      F.constructible u.ty (⟨F.list i, false, false, true⟩ :: us) = true ∧ Copyable F u.ty

/-- The allocator is value-initialized. -/
def defaultsAlloc : ICall B → Bool
  | .value _ | .inPlace _ | .list _ _ => true
  | _ => false

/-- The same. -/
def defaultsAllocP : PCall B → Bool
  | .value _ | .inPlace _ _ | .list _ _ _ => true
  | _ => false

/-- The type of the object the `polymorphic` is to own. -/
def target : PCall B → B
  | .value u | .valueA u | .inPlace u _ | .inPlaceA u _ | .list u _ _ | .listA u _ _ => u.ty

/-- Copy construction as classes normally have it: from lvalues and rvalues, `const` or not, explicitly and implicitly, and a
destructor that does not throw. -/
def Regular (b : B) : Prop :=
  F.nothrowDtor b = true ∧
    ∀ isConst isRef, F.constructible b [⟨b, isConst, false, isRef⟩] = true ∧
      F.convertible ⟨b, isConst, false, isRef⟩ b = true

/-- The type takes initializer lists as lvalues exactly if it takes them as rvalues. -/
def ListsAlike (b : B) : Prop :=
  ∀ i us, F.constructible b (⟨F.list i, false, false, true⟩ :: us) = F.constructible b (plain (F.list i) :: us)

end

/-- `indirect<T>` or `polymorphic<T>` with `T` (1), a class derived from it (3) and one derived in private (4), both copied
like any class and constructed from nothing, from initializer lists (`10 + i`) and from string literals (5). -/
def world : Facts Nat where
  self := 0
  owned := 1
  inPlace := 2
  isTag := fun _ => false
  list := fun i => 10 + i
  constructible := fun b us =>
    match us with
    | [] => true
    | [u] => !u.isVolatile && (u.ty == b || u.ty == 5 || 10 ≤ u.ty)
    | _ => false
  nothrowDtor := fun _ => true
  convertible := fun u b => !u.isVolatile && u.ty == b
  assignable := fun u => !u.isVolatile && (u.ty == 1 || u.ty == 5)
  assignGivesRef := fun _ => true
  commonRef := fun _ => true
  baseOf := fun b => b == 1 || b == 3 || b == 4
  pointerConverts := fun b => b == 1 || b == 3
  allocDefault := true
  allocInit := true
  ownedInit := true

end Verif.Spec.Paper
