import Verif.Spec.Abs

/-!
# Histories: running many calls

`run` executes a history on the machine, `Spec.run` on the specification.
-/

set_option autoImplicit false

namespace Verif

/-- Outcome of a history: what the client saw of each call, and the final state. -/
inductive Run (σ O : Type) where
  | done (log : List (Seen O)) (s : σ)
  | terminated (log : List (Seen O))
  | ub (u : UB)
  | diverged

/-- Put an observation in front. -/
def Run.cons {σ O : Type} (o : Seen O) : Run σ O → Run σ O
  | .done log s => .done (o :: log) s
  | .terminated log => .terminated (o :: log)
  | r => r

/-- A history of calls; exceptions are caught between calls. -/
def runWith {σ O C : Type} (call : C → σ → Res σ O) : List C → σ → Run σ O
  | [], s => .done [] s
  | c :: cs, s =>
    match call c s with
    | .ok o s' => (runWith call cs s').cons (.ret o)
    | .threw e s' => (runWith call cs s').cons (.exn e)
    | .terminated => .terminated []
    | .ub u => .ub u
    | .diverged => .diverged

/-- Every call of the history is legal in the state in which it is made. -/
def LegalWith {σ O C : Type} (call : C → σ → Res σ O) (legal : σ → C → Prop) : List C → σ → Prop
  | [], _ => True
  | c :: cs, s =>
    legal s c ∧
    match call c s with
    | .ok _ s' => LegalWith call legal cs s'
    | .threw _ s' => LegalWith call legal cs s'
    | _ => True

namespace Indirect
section
variable {L A R V X : Type} [DecidableEq L] [DecidableEq R]
variable (tr : ATraits A R) (T : TSpec V X)

/-- A history of calls on `indirect` objects, each with the environment it runs in. -/
def run : List (Op L A V X × Env) → St L A R (Obj V) → Run (St L A R (Obj V)) (Out L A V) :=
  runWith fun c s => call tr (plain T) c.1 c.2 s

/-- Every call is made within its documented preconditions. -/
def LegalRun : List (Op L A V X × Env) → St L A R (Obj V) → Prop :=
  LegalWith (fun c s => call tr (plain T) c.1 c.2 s) (fun s c => Spec.Legal tr (abs s) c.1)

end
end Indirect

namespace Spec
section
variable {L A R V X : Type} [DecidableEq L]

/-- Outcome of a history on the specification. -/
inductive SRun (L A V : Type) where
  | done (log : List (Seen (Out L A V))) (σ : Boxes L A V)
  | terminated (log : List (Seen (Out L A V)))
  | illegal

/-- Put an observation in front. -/
def SRun.cons (o : Seen (Out L A V)) : SRun L A V → SRun L A V
  | .done log s => .done (o :: log) s
  | .terminated log => .terminated (o :: log)
  | .illegal => .illegal

/-- What happens outside during one call: whether storage is available, and the number that decides the
outcome of the operation of `T`. -/
structure Luck where
  mem : Bool
  choice : Nat

/-- A history of calls on plain values. -/
def run (tr : ATraits A R) (T : TSpec V X) : List (Op L A V X × Luck) → Boxes L A V → SRun L A V
  | [], σ => .done [] σ
  | (o, k) :: cs, σ =>
    match step tr T k.mem k.choice σ o with
    | .ret out σ' => (run tr T cs σ').cons (.ret out)
    | .threw e σ' => (run tr T cs σ').cons (.exn e)
    | .terminated => .terminated []
    | .illegal => .illegal

/-- Where the value of a new `T` comes from. -/
inductive Origin (L X : Type) where
  | args (xs : TArgs X)
  | copyOf (y : L)
  | moveOf (y : L)
  deriving DecidableEq, Repr

/-- A forwarded argument: a constructor argument, `*y` as an lvalue (copied) or as an rvalue (moved). -/
def originOf : Src L X → Origin L X
  | .arg x => .args (.pack [x])
  | .lval y => .copyOf y
  | .rval y => .moveOf y

/-- Where the value constructors take the new value from. -/
def origin : Ctor L X → Origin L X
  | .default => .args .none
  | .from u => originOf u
  | .inPlace us => .args (.pack us)
  | .inPlaceOne u => originOf u
  | .ilist l us => .args (.ilist l us)

/-- The objects that a call mentions. -/
def srcOperands : Src L X → List L
  | .arg _ => []
  | .lval y => [y]
  | .rval y => [y]

/-- The objects that a call mentions. -/
def operands : Op L A V X → List L
  | .make x _ (.from u) => x :: srcOperands u
  | .make x _ (.inPlaceOne u) => x :: srcOperands u
  | .make x _ _ => [x]
  | .copy x y => [x, y]
  | .copyA x _ y => [x, y]
  | .move x y => [x, y]
  | .moveA x _ y => [x, y]
  | .destroy x => [x]
  | .assignCopy x y => [x, y]
  | .assignMove x y => [x, y]
  | .assignFrom x u => x :: srcOperands u
  | .deref x => [x]
  | .arrow x => [x]
  | .modify x _ => [x]
  | .valueless x => [x]
  | .getAllocator x => [x]
  | .swap x y => [x, y]
  | .friendSwap x y => [x, y]

end
end Spec

/-- Can the allocator serve the first request made in environment `e`?  It can, unless the environment lets
it fail; an environment that hands out an address in use counts as failing. -/
def available {L A R B : Type} (s : St L A R B) (e : Env) : Bool := !e.fail 0 && (s.heap (e.pick 0)).isNone

/-- What happened outside during each call of a history. -/
def lucks {L A R V X : Type} [DecidableEq L] [DecidableEq R] (tr : ATraits A R) (T : TSpec V X) :
    List (Op L A V X × Env) → St L A R (Obj V) → List (Op L A V X × Spec.Luck)
  | [], _ => []
  | (o, e) :: cs, s => (o, ⟨available s e, e.choice 0⟩) ::
    match Indirect.call tr (plain T) o e s with
    | .ok _ s' => lucks tr T cs s'
    | .threw _ s' => lucks tr T cs s'
    | _ => []

/-- The address of the object owned by `x`, if `x` is alive and not valueless. -/
def addr {L A R B : Type} (s : St L A R B) (x : L) : Option Addr := (s.hs x).bind fun h => h.p

end Verif
