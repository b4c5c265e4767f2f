import Verif.Block

/-!
# The `consteval` functions of compile_checks

The functions that compile_checks/indirect_consteval.cc and compile_checks/polymorphic_consteval.cc evaluate at compile time, as
programs with local variables.  `std::allocator` has one value, the owned types are `int` (numbers, without overflow), a class
without members, and a class with an `int`.  Objects 0 and 1 are the first and the second variable.  Uses of a `const` variable
call the `const` overload, which does the same.
-/

set_option autoImplicit false

namespace Verif.Consteval
open Verif

section
variable {C O α : Type}

/-- `{ T x(...); body }`, an exception goes through. -/
def var (make destroy : C) (body : Block C O α) : Block C O α :=
  .declare make destroy body fun
    | .ok a => .ret a
    | .error e => .throw e

/-- A call, and what follows if it returns. -/
def get (c : C) (f : O → Block C O α) : Block C O α :=
  .call c fun
    | .ret o => f o
    | .exn e => .throw e

end

/-- `int`: the operations that the headers use. -/
def int : TSpec Int Int where
  make us _ := .ok (match us with
    | .pack [x] => x
    | _ => 0)
  copy v _ := .ok v
  move v _ := (.ok v, v)
  copyAssign _ v _ := (none, v)
  moveAssign _ v _ := (none, v, v)
  assignArg _ x _ := (none, x)
  assignable := true
  copyAssignable := true

/-- `<=>` of numbers. -/
def compare (v w : Int) : Cmp := if v < w then .less else if w < v then .greater else .equivalent

/-- Comparisons of `int`; `std::hash<int>` may be anything. -/
def intCmp : TCmp Int where
  threeWay := some fun v w _ => .ok (compare v w)
  eq v w _ := .ok (decide (v = w))
  ne v w _ := .ok (decide (v ≠ w))
  lt v w _ := .ok (decide (v < w))
  gt v w _ := .ok (decide (w < v))
  le v w _ := .ok (decide (v ≤ w))
  ge v w _ := .ok (decide (w ≤ v))
  hash v _ := .ok v.natAbs
  npos := 18446744073709551615

/-- Is it `true`? -/
def yes : Out Nat Unit Int → Bool
  | .bool b => b
  | _ => false

/-- Is it the value `v`? -/
def isValue (v : Int) : Out Nat Unit Int → Bool
  | .value w => decide (w = v)
  | _ => false

/-- The value. -/
def value : Out Nat Unit Int → Int
  | .value w => w
  | _ => 0

/-- The ordering. -/
def ordering : Out Nat Unit Int → Cmp
  | .ordering c => c
  | _ => .unordered

/-- `0 <=> c`: the candidate for `w <=> x` with the arguments reversed. -/
def reversed : Cmp → Cmp
  | .less => .greater
  | .greater => .less
  | c => c

/-- The allocator. -/
def allocator {V : Type} : Out Nat Unit V → Unit
  | .alloc a => a
  | _ => ()

/-- A function of compile_checks/indirect_consteval.cc. -/
abbrev Fun := Block (Either (Op Nat Unit Int Int) (Query Nat Int)) (Out Nat Unit Int) Bool

/-- `auto x = xyz::indirect<int>{};` -/
def dflt (x : Nat) (body : Fun) : Fun := var (.call (.make x none .default)) (.call (.destroy x)) body

/-- `auto x = xyz::indirect<int>(std::in_place, v);` -/
def inPlace (x : Nat) (v : Int) (body : Fun) : Fun := var (.call (.make x none (.inPlace [v]))) (.call (.destroy x)) body

/-- compile_checks/indirect_consteval.cc:40-43 -/
def defaultConstruction : Fun := dflt 0 (.ret true)

/-- compile_checks/indirect_consteval.cc:47-51 -/
def copyConstruction : Fun := dflt 0 (var (.call (.copy 1 0)) (.call (.destroy 1)) (.ret true))

/-- compile_checks/indirect_consteval.cc:55-59 -/
def allocatorCopyConstruction : Fun := dflt 0 (get (.call (.getAllocator 0)) fun a =>
  var (.call (.copyA 1 (allocator a) 0)) (.call (.destroy 1)) (.ret true))

/-- compile_checks/indirect_consteval.cc:63-67 -/
def moveConstruction : Fun := dflt 0 (var (.call (.move 1 0)) (.call (.destroy 1)) (.ret true))

/-- compile_checks/indirect_consteval.cc:71-76 -/
def allocatorMoveConstruction : Fun := dflt 0 (get (.call (.getAllocator 0)) fun a =>
  var (.call (.moveA 1 (allocator a) 0)) (.call (.destroy 1)) (.ret true))

/-- compile_checks/indirect_consteval.cc:80-83 -/
def construction : Fun := inPlace 0 42 (.ret true)

/-- compile_checks/indirect_consteval.cc:87-91 -/
def allocatorConstruction : Fun := var (.call (.make 0 (some ()) (.inPlace [42]))) (.call (.destroy 0)) (.ret true)

/-- compile_checks/indirect_consteval.cc:95-98 -/
def convertingConstruction : Fun := var (.call (.make 0 none (.from (.arg 42)))) (.call (.destroy 0)) (.ret true)

/-- compile_checks/indirect_consteval.cc:102-105 -/
def allocatorConvertingConstruction : Fun := var (.call (.make 0 (some ()) (.from (.arg 42)))) (.call (.destroy 0)) (.ret true)

/-- compile_checks/indirect_consteval.cc:109-114 -/
def copyAssignment : Fun := dflt 0 (dflt 1 (get (.call (.assignCopy 0 1)) fun _ => .ret true))

/-- compile_checks/indirect_consteval.cc:118-123 -/
def moveAssignment : Fun := dflt 0 (dflt 1 (get (.call (.assignMove 0 1)) fun _ => .ret true))

/-- compile_checks/indirect_consteval.cc:127-131 -/
def convertingAssignment : Fun := dflt 0 (get (.call (.assignFrom 0 (.arg 42))) fun _ => .ret true)

/-- compile_checks/indirect_consteval.cc:135-138, and 142-145 with `const` -/
def objectAccess : Fun := inPlace 0 42 (get (.call (.deref 0)) fun v => .ret (isValue 42 v))

/-- compile_checks/indirect_consteval.cc:149-152, and 156-159 with `const` -/
def operatorArrow : Fun := inPlace 0 42 (get (.call (.arrow 0)) fun v => .ret (isValue 42 v))

/-- compile_checks/indirect_consteval.cc:163-169 -/
def swap : Fun := inPlace 0 42 (inPlace 1 101 (get (.call (.friendSwap 0 1)) fun _ =>
  get (.call (.deref 0)) fun v => get (.call (.deref 1)) fun w => .ret (isValue 101 v && isValue 42 w)))

/-- compile_checks/indirect_consteval.cc:173-178 -/
def memberSwap : Fun := inPlace 0 42 (inPlace 1 101 (get (.call (.swap 0 1)) fun _ =>
  get (.call (.deref 0)) fun v => get (.call (.deref 1)) fun w => .ret (isValue 101 v && isValue 42 w)))

/-- compile_checks/indirect_consteval.cc:182-186 -/
def valuelessAfterMove : Fun := inPlace 0 42 (var (.call (.move 1 0)) (.call (.destroy 1))
  (get (.call (.valueless 0)) fun a => get (.call (.valueless 1)) fun b => .ret (yes a && !yes b)))

/-- compile_checks/indirect_consteval.cc:190-194 -/
def equality : Fun := inPlace 0 42 (inPlace 1 42 (get (.query (.eq 0 1)) fun b => .ret (yes b)))

/-- compile_checks/indirect_consteval.cc:198-202; `!=` is rewritten to `!(i == ii)` -/
def inequality : Fun := inPlace 0 42 (inPlace 1 101 (get (.query (.eq 0 1)) fun b => .ret (!yes b)))

/-- compile_checks/indirect_consteval.cc:206-210 -/
def threeWayComparison : Fun := inPlace 0 42 (inPlace 1 101 (get (.query (.cmp 0 1)) fun c =>
  get (.call (.deref 0)) fun v => get (.call (.deref 1)) fun w => .ret (decide (ordering c = compare (value v) (value w)))))

/-- compile_checks/indirect_consteval.cc:214-218; `ii == i` is rewritten to `i == ii` -/
def valueEquality : Fun := inPlace 0 42 (get (.query (.eqU 0 42)) fun a => get (.query (.eqU 0 42)) fun b => .ret (yes a && yes b))

/-- compile_checks/indirect_consteval.cc:222-226; rewritten likewise -/
def valueInequality : Fun :=
  inPlace 0 42 (get (.query (.eqU 0 101)) fun a => get (.query (.eqU 0 101)) fun b => .ret (!yes a && !yes b))

/-- compile_checks/indirect_consteval.cc:230-234; `ii <=> i` is rewritten to `0 <=> (i <=> ii)` -/
def valueThreeWayComparison : Fun := inPlace 0 42 (get (.query (.cmpU 0 101)) fun a => get (.query (.cmpU 0 101)) fun b =>
  .ret (decide (ordering a ≠ reversed (ordering b))))

/-- All functions of compile_checks/indirect_consteval.cc on `indirect<int>`. -/
def functions : List Fun :=
  [defaultConstruction, copyConstruction, allocatorCopyConstruction, moveConstruction, allocatorMoveConstruction, construction,
   allocatorConstruction, convertingConstruction, allocatorConvertingConstruction, copyAssignment, moveAssignment,
   convertingAssignment, objectAccess, operatorArrow, swap, memberSwap, valuelessAfterMove, equality, inequality,
   threeWayComparison, valueEquality, valueInequality, valueThreeWayComparison]

/-- `ConstexprHashable` (compile_checks/indirect_consteval.cc:26): a class without members. -/
def hashable : TSpec Unit Unit where
  make _ _ := .ok ()
  copy _ _ := .ok ()
  move _ _ := (.ok (), ())
  copyAssign _ _ _ := (none, ())
  moveAssign _ _ _ := (none, (), ())
  assignArg _ _ _ := (none, ())
  assignable := true
  copyAssignable := true

/-- compile_checks/indirect_consteval.cc:29-35: its hash is 0.  It has no comparisons, and they are not used. -/
def hashableCmp : TCmp Unit where
  threeWay := none
  eq _ _ _ := .ok true
  ne _ _ _ := .ok false
  lt _ _ _ := .ok false
  gt _ _ _ := .ok false
  le _ _ _ := .ok true
  ge _ _ _ := .ok true
  hash _ _ := .ok 0
  npos := 18446744073709551615

/-- compile_checks/indirect_consteval.cc:238-242 -/
def hash : Block (Either (Op Nat Unit Unit Unit) (Query Nat Unit)) (Out Nat Unit Unit) Bool :=
  var (.call (.make 0 none .default)) (.call (.destroy 0)) (get (.query (.hash 0)) fun h => .ret (match h with
    | .hash n => decide (n = 0)
    | _ => false))

/-! ## polymorphic_consteval.cc -/

/-- `class A` (compile_checks/polymorphic_consteval.cc:42-51): the only class, with an `int`. -/
def classA : PSpec Unit Int Int where
  base := ()
  make _ us _ := .ok (match us with
    | .pack [x] => x
    | _ => 0)
  copy _ v _ := .ok v
  move _ v _ := (.ok v, v)

/-- A function of compile_checks/polymorphic_consteval.cc. -/
abbrev PFun := Block (POp Nat Unit Unit Int Int) (Out Nat Unit (Unit × Int)) Bool

/-- Is `value()` of the object this number? -/
def pisValue (v : Int) : Out Nat Unit (Unit × Int) → Bool
  | .value w => decide (w.2 = v)
  | _ => false

/-- Is it `true`? -/
def pyes : Out Nat Unit (Unit × Int) → Bool
  | .bool b => b
  | _ => false

/-- `auto x = xyz::polymorphic<A>{};` -/
def pdflt (x : Nat) (body : PFun) : PFun := var (.make x none .default) (.destroy x) body

/-- `auto x = xyz::polymorphic<A>(std::in_place_type<A>, v);` -/
def pinPlace (x : Nat) (v : Int) (body : PFun) : PFun := var (.make x none (.inPlace () [v])) (.destroy x) body

/-- compile_checks/polymorphic_consteval.cc:53-56 -/
def pdefaultConstruction : PFun := pdflt 0 (.ret true)

/-- compile_checks/polymorphic_consteval.cc:60-63 -/
def pinPlaceConstruction : PFun := pinPlace 0 42 (.ret true)

/-- compile_checks/polymorphic_consteval.cc:67-71 -/
def pallocatorConstruction : PFun := var (.make 0 (some ()) (.inPlace () [42])) (.destroy 0) (.ret true)

/-- compile_checks/polymorphic_consteval.cc:75-79 -/
def pcopyConstruction : PFun := pdflt 0 (var (.copy 1 0) (.destroy 1) (.ret true))

/-- compile_checks/polymorphic_consteval.cc:83-87 -/
def pallocatorCopyConstruction : PFun := pdflt 0 (get (.getAllocator 0) fun a =>
  var (.copyA 1 (allocator a) 0) (.destroy 1) (.ret true))

/-- compile_checks/polymorphic_consteval.cc:91-95 -/
def pmoveConstruction : PFun := pdflt 0 (var (.move 1 0) (.destroy 1) (.ret true))

/-- compile_checks/polymorphic_consteval.cc:99-104 -/
def pallocatorMoveConstruction : PFun := pdflt 0 (get (.getAllocator 0) fun a =>
  var (.moveA 1 (allocator a) 0) (.destroy 1) (.ret true))

/-- compile_checks/polymorphic_consteval.cc:108-113 -/
def pcopyAssignment : PFun := pdflt 0 (pdflt 1 (get (.assignCopy 0 1) fun _ => .ret true))

/-- compile_checks/polymorphic_consteval.cc:117-122 -/
def pmoveAssignment : PFun := pdflt 0 (pdflt 1 (get (.assignMove 0 1) fun _ => .ret true))

/-- compile_checks/polymorphic_consteval.cc:126-129, 140-143, and 133-136, 147-150 with `const` -/
def pobjectAccess : PFun := pinPlace 0 42 (get (.arrow 0) fun v => .ret (pisValue 42 v))

/-- compile_checks/polymorphic_consteval.cc:154-160 -/
def pswap : PFun := pinPlace 0 42 (pinPlace 1 101 (get (.friendSwap 0 1) fun _ =>
  get (.arrow 0) fun v => get (.arrow 1) fun w => .ret (pisValue 101 v && pisValue 42 w)))

/-- compile_checks/polymorphic_consteval.cc:164-169 -/
def pmemberSwap : PFun := pinPlace 0 42 (pinPlace 1 101 (get (.swap 0 1) fun _ =>
  get (.arrow 0) fun v => get (.arrow 1) fun w => .ret (pisValue 101 v && pisValue 42 w)))

/-- compile_checks/polymorphic_consteval.cc:173-177 -/
def pvaluelessAfterMove : PFun := pinPlace 0 42 (var (.move 1 0) (.destroy 1)
  (get (.valueless 0) fun a => get (.valueless 1) fun b => .ret (pyes a && !pyes b)))

/-- All functions of compile_checks/polymorphic_consteval.cc. -/
def pfunctions : List PFun :=
  [pdefaultConstruction, pinPlaceConstruction, pallocatorConstruction, pcopyConstruction, pallocatorCopyConstruction,
   pmoveConstruction, pallocatorMoveConstruction, pcopyAssignment, pmoveAssignment, pobjectAccess, pswap, pmemberSwap,
   pvaluelessAfterMove]

end Verif.Consteval
