import Verif.PolymorphicOps
import Verif.Query

/-!
# Client programs

A client calls the library, and what it does next depends on what it has seen: the values returned and the exceptions caught.
-/

set_option autoImplicit false

namespace Verif

/-- A program that makes calls `C` with results `O`, and ends with a result `α`.  `k` is what it does after the call, be it
that the call has returned or thrown (a client that does not catch an exception ends with it as its result). -/
inductive Client (C O α : Type) where
  | ret (a : α)
  | call (c : C) (k : Seen O → Client C O α)

namespace Client
variable {C O α β σ : Type}

/-- One program after the other. -/
def bind : Client C O α → (α → Client C O β) → Client C O β
  | .ret a, f => f a
  | .call c k, f => .call c fun o => (k o).bind f

/-- Run a client.  `es i` is what the environment does during the call number `i`. -/
def run (call : C → Env → σ → Res σ O) : Client C O α → (Nat → Env) → σ → Res σ α
  | .ret a, _, s => .ok a s
  | .call c k, es, s =>
    match call c (es 0) s with
    | .ok o s' => run call (k (.ret o)) (fun i => es (i + 1)) s'
    | .threw e s' => run call (k (.exn e)) (fun i => es (i + 1)) s'
    | .terminated => .terminated
    | .ub u => .ub u
    | .diverged => .diverged

end Client

section
variable {L A R V X : Type} [DecidableEq L] [DecidableEq R]

/-- Calls of the members (indirect.h:92-371), operators (374-425) and hash (474-483) of indirect.h. -/
def Indirect.either (tr : ATraits A R) (T : TSpec V X) (C : TCmp V) :
    Either (Op L A V X) (Query L V) → Env → St L A R (Obj V) → Res (St L A R (Obj V)) (Out L A V)
  | .call o, e, s => Indirect.call tr (plain T) o e s
  | .query q, e, s => Indirect.query C q (s.enter e)

/-- Calls of the members (indirect_cxx14.h:116-373), operators (375-544) and hash (583-592) of indirect_cxx14.h. -/
def Indirect14.either (tr : ATraits A R) (T : TSpec V X) (C : TCmp V) :
    Either (Op L A V X) (Query14 L V) → Env → St L A R (Obj V) → Res (St L A R (Obj V)) (Out L A V)
  | .call o, e, s => Indirect14.call tr (plain T) o e s
  | .query q, e, s => Indirect14.query C q (s.enter e)

end

/-! ## A client: sorting -/

namespace Sorting
variable {C O L : Type}

/-- What a sort asks for: is the value of the first object less than that of the second? and swap. -/
structure Ask (C O L : Type) where
  less : L → L → C
  /-- does the answer say so? -/
  yes : O → Bool
  swap : L → L → C

/-- Insert the value of object `x` into those of the sorted objects before it, the nearest of which is first in the list: swap
as long as it is less.  The result is the exception, if a comparison or swap throws. -/
def sink (q : Ask C O L) (x : L) : List L → Client C O (Option Exn)
  | [] => .ret none
  | y :: ys => .call (q.less x y) fun
    | .exn e => .ret (some e)
    | .ret o =>
      if q.yes o then .call (q.swap x y) fun
        | .exn e => .ret (some e)
        | .ret _ => sink q y ys
      else .ret none

/-- Insertion sort: the objects `done` (the last first) are sorted, `xs` follow. -/
def sort (q : Ask C O L) (done : List L) : List L → Client C O (Option Exn)
  | [] => .ret none
  | x :: xs => (sink q x done).bind fun
    | some e => .ret (some e)
    | none => sort q (x :: done) xs

variable {A V X : Type}

/-- Was the answer `std::weak_ordering::less` (or the like)? -/
def isLess : Out L A V → Bool
  | .ordering .less => true
  | _ => false

/-- Was the answer `true`? -/
def isTrue : Out L A V → Bool
  | .bool b => b
  | _ => false

/-- With `(x <=> y) < 0` and the member `swap`. -/
def ask20 : Ask (Either (Op L A V X) (Query L V)) (Out L A V) L :=
  ⟨fun x y => .query (.cmp x y), isLess, fun x y => .call (.swap x y)⟩

/-- With `x < y` and the member `swap`. -/
def ask14 : Ask (Either (Op L A V X) (Query14 L V)) (Out L A V) L :=
  ⟨fun x y => .query (.rel .lt x y), isTrue, fun x y => .call (.swap x y)⟩

end Sorting

/-- `std::swap(x, y)` by name: `T t(std::move(x)); x = std::move(y); y = std::move(t);`, then `t` is destroyed.  Does it return?
The calls are those of one of the class templates. -/
def swapWith {L O W : Type} (move assign : L → L → O) (destroy : L → O) (t x y : L) : Client O W Bool :=
  .call (move t x) fun
    | .exn _ => .ret false
    | .ret _ => .call (assign x y) fun
      | .exn _ => .call (destroy t) fun _ => .ret false
      | .ret _ => .call (assign y t) fun
        | .exn _ => .call (destroy t) fun _ => .ret false
        | .ret _ => .call (destroy t) fun _ => .ret true

/-- For `indirect`. -/
def swapByMoves {L A V X : Type} (t x y : L) : Client (Op L A V X) (Out L A V) Bool :=
  swapWith .move .assignMove .destroy t x y

/-- For `polymorphic`. -/
def pswapByMoves {L A Ty V X : Type} (t x y : L) : Client (POp L A Ty V X) (Out L A (Ty × V)) Bool :=
  swapWith .move .assignMove .destroy t x y

end Verif
