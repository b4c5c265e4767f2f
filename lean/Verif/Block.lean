import Verif.Client

/-!
# Programs with local variables

Client code with blocks: a variable is constructed where it is declared and destroyed at the end of its block, be it that the
block ends normally or by an exception.  Not code of /repo, but how it is used (for instance in
compile_checks/indirect_consteval.cc:40-242, compile_checks/polymorphic_consteval.cc:53-177, and every test).
-/

set_option autoImplicit false

namespace Verif

/-- A program with result `α` that makes calls `C` with results `O`. -/
inductive Block (C O : Type) : Type → Type 1 where
  /-- return -/
  | ret {α : Type} (a : α) : Block C O α
  /-- throw an exception, or let one through -/
  | throw {α : Type} (e : Exn) : Block C O α
  /-- a call; the program goes on by what it returned or threw -/
  | call {α : Type} (c : C) (k : Seen O → Block C O α) : Block C O α
  /-- `{ T x(...); body }`: `make` constructs the variable, `destroy` destroys it at the end of the block, however it ends.  What
  follows depends on the result of the block, or on the exception that came out of it. -/
  | declare {α β : Type} (make destroy : C) (body : Block C O β) (k : Except Exn β → Block C O α) : Block C O α

namespace Block
variable {C O : Type}

/-- The calls that the program makes, in order. -/
def client {α : Type} : Block C O α → Client C O (Except Exn α)
  | .ret a => .ret (.ok a)
  | .throw e => .ret (.error e)
  | .call c k => .call c fun o => (k o).client
  | .declare m d body k => .call m fun
    | .exn e => (k (.error e)).client
    | .ret _ => body.client.bind fun r => .call d fun _ => (k r).client

end Block
end Verif
