import Verif.Types
import Verif.Polymorphic
import Verif.IndirectOps

/-!
# Programs as sequences of memory accesses

In the other files a call is one transition of the machine.  Here a call is a tree of elementary accesses to memory, so
that the accesses of several threads can be interleaved (`Verif/Concurrent.lean`).  The accesses are those of
`Verif/Machine.lean`, and mean the same (`Act.exec`).  Nothing in this file models code of /repo.
-/

set_option autoImplicit false

namespace Verif

/-- Elementary accesses. -/
inductive Act (L A R B : Type) where
  /-- read the data members of the object at `l` -/
  | getH (l : L)
  | setP (l : L) (p : Option Addr)
  | setAlloc (l : L) (a : A)
  /-- begin the lifetime of the object at `l` -/
  | emplace (l : L) (h : Handle A)
  | endLife (l : L)
  | allocate (r : R)
  | deallocate (r : R) (p : Addr)
  | readBody (p : Addr)
  | writeBody (p : Addr) (b : B)
  /-- begin the lifetime of an object in the block at `p`, if its contents allow it -/
  | «begin» (p : Addr) (f : B → Option B) (evs : List (Ev R))
  /-- no access: book-keeping of the events -/
  | emit (ev : Ev R)
  /-- no access: the environment decides how an operation of the owned type ends -/
  | choose

/-- What an access returns.  A failed allocation returns `none`. -/
def Act.Resp {L A R B : Type} : Act L A R B → Type
  | .getH _ => Handle A
  | .allocate _ => Option Addr
  | .readBody _ => B
  | .choose => Nat
  | _ => Unit

/-- What an access does. -/
def Act.exec {L A R B : Type} [DecidableEq L] [DecidableEq R] [Body B] :
    (a : Act L A R B) → St L A R B → Except UB (a.Resp × St L A R B)
  | .getH l, s =>
    match s.hs l with
    | some h => .ok (h, s)
    | none => .error .deadHandle
  | .setP l p, s =>
    match s.hs l with
    | some h => .ok ((), { s with hs := upd s.hs l (some { h with p := p }) })
    | none => .error .deadHandle
  | .setAlloc l a, s =>
    match s.hs l with
    | some h => .ok ((), { s with hs := upd s.hs l (some { h with alloc := a }) })
    | none => .error .deadHandle
  | .emplace l h, s =>
    match s.hs l with
    | some _ => .error .liveHandle
    | none => .ok ((), { s with hs := upd s.hs l (some h) })
  | .endLife l, s =>
    match s.hs l with
    | some _ => .ok ((), { s with hs := upd s.hs l none })
    | none => .error .deadHandle
  | .allocate r, s =>
    if s.env.fail s.ai then .ok (none, { s with ai := s.ai + 1 })
    else match s.heap (s.env.pick s.ai) with
      | some _ => .ok (none, { s with ai := s.ai + 1 })
      | none => .ok (some (s.env.pick s.ai), { s with
          ai := s.ai + 1
          heap := upd s.heap (s.env.pick s.ai) (some ⟨r, Body.raw⟩)
          trace := s.trace ++ [.alloc r (s.env.pick s.ai)] })
  | .deallocate r p, s =>
    match s.heap p with
    | none => .error .badFree
    | some c =>
      if c.arena ≠ r then .error .wrongArena
      else if Body.occupied c.body then .error .freeLive
      else .ok ((), { s with heap := upd s.heap p none, trace := s.trace ++ [.dealloc r p] })
  | .readBody p, s =>
    match s.heap p with
    | none => .error .deadObject
    | some c => .ok (c.body, s)
  | .writeBody p b, s =>
    match s.heap p with
    | none => .error .deadObject
    | some c => .ok ((), { s with heap := upd s.heap p (some { c with body := b }) })
  | .begin p f evs, s =>
    match s.heap p with
    | none => .error .notRaw
    | some c =>
      match f c.body with
      | none => .error .notRaw
      | some b => .ok ((), { s with heap := upd s.heap p (some { c with body := b }), trace := s.trace ++ evs })
  | .emit ev, s => .ok ((), { s with trace := s.trace ++ [ev] })
  | .choose, s => .ok (s.env.choice s.ti, { s with ti := s.ti + 1 })

/-- A program: an outcome, or an access and what to do next. -/
inductive Prog (L A R B α : Type) where
  | ret (a : α)
  | throw (e : Exn)
  | terminate
  | undef (u : UB)
  | act (a : Act L A R B) (k : a.Resp → Prog L A R B α)

namespace Prog
variable {L A R B α β : Type}

/-- Sequencing. -/
def andThen (f : α → Prog L A R B β) : Prog L A R B α → Prog L A R B β
  | .ret a => f a
  | .throw e => .throw e
  | .terminate => .terminate
  | .undef u => .undef u
  | .act a k => .act a fun r => andThen f (k r)

instance : Monad (Prog L A R B) where
  pure := .ret
  bind m f := andThen f m

/-- `try { m } catch (...) { cleanup; throw; }`. -/
def onThrow (m : Prog L A R B α) (cleanup : Prog L A R B Unit) : Prog L A R B α :=
  match m with
  | .ret a => .ret a
  | .throw e => andThen (fun _ => .throw e) cleanup
  | .terminate => .terminate
  | .undef u => .undef u
  | .act a k => .act a fun r => onThrow (k r) cleanup

/-- A function declared `noexcept(b)`. -/
def noexceptIf (b : Bool) : Prog L A R B α → Prog L A R B α
  | .ret a => .ret a
  | .throw e => if b then .terminate else .throw e
  | .terminate => .terminate
  | .undef u => .undef u
  | .act a k => .act a fun r => noexceptIf b (k r)

/-- `throw e`. -/
def throwE (e : Exn) : Prog L A R B α := .throw e

/-- Run a program without interruption. -/
def interp [DecidableEq L] [DecidableEq R] [Body B] : Prog L A R B α → M (St L A R B) α
  | .ret a, s => .ok a s
  | .throw e, s => .threw e s
  | .terminate, _ => .terminated
  | .undef u, _ => .ub u
  | .act a k, s =>
    match a.exec s with
    | .ok (r, s') => interp (k r) s'
    | .error u => .ub u

end Prog

namespace Fine
variable {L A R B : Type}

/-! One program for every primitive of `Verif/Machine.lean`. -/

/-- See `Verif.getH`. -/
def getH (l : L) : Prog L A R B (Handle A) := .act (.getH l) .ret
/-- See `Verif.setP`. -/
def setP (l : L) (p : Option Addr) : Prog L A R B Unit := .act (.setP l p) .ret
/-- See `Verif.setAlloc`. -/
def setAlloc (l : L) (a : A) : Prog L A R B Unit := .act (.setAlloc l a) .ret
/-- See `Verif.emplace`. -/
def emplace (l : L) (h : Handle A) : Prog L A R B Unit := .act (.emplace l h) .ret
/-- See `Verif.endLife`. -/
def endLife (l : L) : Prog L A R B Unit := .act (.endLife l) .ret
/-- The outcome of an allocation. -/
def allocated : Option Addr → Prog L A R B Addr
  | some p => .ret p
  | none => .throw .badAlloc
/-- See `Verif.allocate`. -/
def allocate (r : R) : Prog L A R B Addr := .act (.allocate r) allocated
/-- See `Verif.deallocate`. -/
def deallocate (r : R) (p : Addr) : Prog L A R B Unit := .act (.deallocate r p) .ret
/-- See `Verif.readBody`. -/
def readBody (p : Addr) : Prog L A R B B := .act (.readBody p) .ret
/-- See `Verif.writeBody`. -/
def writeBody (p : Addr) (b : B) : Prog L A R B Unit := .act (.writeBody p b) .ret
/-- See `Verif.emit`. -/
def emit (ev : Ev R) : Prog L A R B Unit := .act (.emit ev) .ret
/-- See `Verif.choose`. -/
def choose : Prog L A R B Nat := .act .choose .ret

end Fine
end Verif
