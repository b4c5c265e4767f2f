import Verif.Subobject
import Verif.Spec.PAbs
import Verif.Spec.Polymorphic14

/-!
# What base class subobjects should be

The model with base class subobjects (`Verif/Subobject.lean`) is compared with the one in which all addresses in a block are identified (`Verif/Polymorphic.lean`): `erase` forgets offsets.
-/

set_option autoImplicit false

namespace Verif.Spec.Subobject
open Verif Verif.Subobject

section
variable {L A R Ty V X α : Type}

/-- Forget where in a block pointers point. -/
def eraseCB (c : SCB Ty V) : CB Ty V := ⟨c.ty, c.p.map (·.block), c.u⟩

/-- Forget where in blocks pointers point.  Everything else stays: owners, allocators, blocks, objects, events. -/
def erase (s : St L A R (SBody Ty V)) : St L A R (PBody Ty V) where
  hs := s.hs
  heap q := (s.heap q).map fun c => ⟨c.arena, c.body.map eraseCB⟩
  trace := s.trace
  env := s.env
  ai := s.ai
  ti := s.ti

/-- The same for outcomes: results, exceptions, and undefined behaviour stay. -/
def eraseRes : Res (St L A R (SBody Ty V)) α → Res (St L A R (PBody Ty V)) α
  | .ok a s => .ok a (erase s)
  | .threw e s => .threw e (erase s)
  | .terminated => .terminated
  | .ub u => .ub u
  | .diverged => .diverged

/-- The same for histories. -/
def eraseRun : Run (St L A R (SBody Ty V)) α → Run (St L A R (PBody Ty V)) α
  | .done log s => .done log (erase s)
  | .terminated log => .terminated log
  | .ub u => .ub u
  | .diverged => .diverged

variable (K : Classes Ty)

/-- Every pointer `p_` that has a value points to the `T` in the `U` in its own control block. -/
def Placed (s : St L A R (SBody Ty V)) : Prop :=
  ∀ q r ty t u, s.heap q = some ⟨r, some ⟨ty, some t, u⟩⟩ → t = ⟨q, K.storage ty + K.base ty⟩

/-- The same for the state a call leaves. -/
def PlacedRes : Res (St L A R (SBody Ty V)) α → Prop
  | .ok _ s => Placed K s
  | .threw _ s => Placed K s
  | _ => True

/-- Computations that do the same, up to offsets. -/
def Same (m : M (St L A R (SBody Ty V)) α) (m' : M (St L A R (PBody Ty V)) α) : Prop :=
  ∀ s, Placed K s → eraseRes (m s) = m' (erase s) ∧ PlacedRes K (m s)

/-- A `ty` is alive in the control block at `q`. -/
def Alive (ty : Ty) (q : Addr) (s : St L A R (SBody Ty V)) : Prop := ∃ r p v, s.heap q = some ⟨r, some ⟨ty, p, some v⟩⟩

/-- Owned types: what they do does not depend on offsets, and when a constructor has returned there is an object. -/
structure Objects (P : POps (St L A R (SBody Ty V)) A Ty X) (P' : POps (St L A R (PBody Ty V)) A Ty X) : Prop where
  base : P.base = P'.base
  make : ∀ ty a d xs, Same K (P.make ty a d xs) (P'.make ty a d xs)
  copyCtor : ∀ ty a d q, Same K (P.copyCtor ty a d q) (P'.copyCtor ty a d q)
  moveCtor : ∀ ty a d q, Same K (P.moveCtor ty a d q) (P'.moveCtor ty a d q)
  dtor : ∀ ty a p, Same K (P.dtor ty a p) (P'.dtor ty a p)
  block : ∀ a q m m', Same K m m' → Same K (P.block a q m) (P'.block a q m')
  made : ∀ ty a d xs s s', P.make ty a d xs s = .ok () s' → Alive ty d s'
  copied : ∀ ty a d q s s', P.copyCtor ty a d q s = .ok () s' → Alive ty d s'
  moved : ∀ ty a d q s s', P.moveCtor ty a d q s = .ok () s' → Alive ty d s'

end

section
variable {L A R Ty V X : Type} [DecidableEq L] [DecidableEq R] [DecidableEq Ty] (K : Classes Ty) (tr : ATraits A R) (P : PSpec Ty V X)

/-- A history of calls, polymorphic.h. -/
def run : List (POp L A Ty V X × Env) → St L A R (SBody Ty V) → Run (St L A R (SBody Ty V)) (Out L A (Ty × V)) :=
  runWith fun c s => Subobject.Polymorphic.call K tr (plainS P) c.1 c.2 s

/-- A history of calls, polymorphic_cxx14.h. -/
def run14 : List (POp L A Ty V X × Env) → St L A R (SBody Ty V) → Run (St L A R (SBody Ty V)) (Out L A (Ty × V)) :=
  runWith fun c s => Subobject.Polymorphic14.call K tr (plainS P) c.1 c.2 s

/-- Every call of a history has its precondition met when its turn comes, polymorphic.h. -/
def LegalRun : List (POp L A Ty V X × Env) → St L A R (SBody Ty V) → Prop :=
  LegalWith (fun c s => Subobject.Polymorphic.call K tr (plainS P) c.1 c.2 s) (fun s c => Spec.PLegal tr (Verif.Polymorphic.abs (erase s)) c.1)

/-- The same, polymorphic_cxx14.h. -/
def LegalRun14 : List (POp L A Ty V X × Env) → St L A R (SBody Ty V) → Prop :=
  LegalWith (fun c s => Subobject.Polymorphic14.call K tr (plainS P) c.1 c.2 s) (fun s c => Spec.PLegal tr (Verif.Polymorphic.abs (erase s)) c.1)

/-- States between the calls of legal histories, polymorphic.h. -/
def Reached (s : St L A R (SBody Ty V)) : Prop := ∃ cs log, LegalRun K tr P cs St.init ∧ run K tr P cs St.init = .done log s

/-- The same, polymorphic_cxx14.h. -/
def Reached14 (s : St L A R (SBody Ty V)) : Prop := ∃ cs log, LegalRun14 K tr P cs St.init ∧ run14 K tr P cs St.init = .done log s

end
end Verif.Spec.Subobject
