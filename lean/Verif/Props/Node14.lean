import Verif.Proofs.Node14
import Verif.Props.PolyNode
import Verif.PNDemo14

/-!
# C72: recursive values and the C++14 headers

What `Verif/Props/Node.lean` and `Verif/Props/PolyNode.lean` say of recursive values, for indirect_cxx14.h and
polymorphic_cxx14.h.  The same program - the same statements with the same depths and environments - runs in the same way with
either pair of headers, down to addresses and events, where the headers ask the same of the type: `T.cxx14` is the type as
indirect_cxx14.h sees it (`Verif/Spec/Indirect14.lean`), and the allocator-extended move constructor of polymorphic_cxx14.h
needs allocators that compare equal where allocators propagate.
-/

set_option autoImplicit false
set_option linter.unusedSectionVars false
set_option linter.unusedSimpArgs false

namespace Verif.Props
open Verif

section
open Verif.Node
variable {N A R V X : Type} [DecidableEq N] [DecidableEq R]
variable {tr : ATraits A R} {T : TSpec V X} {K : Nat} {s : NSt N A R V} {W : N → Tree A V}

/-- A statement does the same with both headers. -/
theorem C72_same_statement (c : NCall N A X) (s : NSt N A R V) :
    Node14.call tr T K c s = Node.call tr T.cxx14 K c s := Node14.call_eq tr T K c s

/-- Where the two conditions on the type agree, the headers cannot be told apart by any program of this kind. -/
theorem C72_same_program (h : T.assignable = T.copyAssignable) (c : NCall N A X) (s : NSt N A R V) :
    Node14.call tr T K c s = Node.call tr T K c s := by
  rw [Node14.call_eq, show T.cxx14 = T by cases T; cases h; rfl]

/-- The reachable states are the same. -/
theorem C72_same_states : Node14.Reach tr T K s ↔ Node.Reach tr T.cxx14 K s := Node14.reach_iff tr T K

/-- In every reachable state every variable holds a finite tree. -/
theorem C72_trees (S : tr.Sound) (Rf : tr.Reflexive) (h : Node14.Reach tr T K s) :
    ∃ W : N → Tree A V, Shows tr.res K W s := by
  exact C60_trees S Rf ((Node14.reach_iff tr T K).1 h)

/-- No block belongs to two places of a tree, or to two trees: there is no sharing and no cycle. -/
theorem C72_no_sharing (S : tr.Sound) (Rf : tr.Reflexive) (h : Node14.Reach tr T K s) (hW : Shows tr.res K W s) :
    (∀ x, (W x).Sep K) ∧ ∀ x y, x ≠ y → ∀ q, (W x).Mem K q → ¬ (W y).Mem K q := by
  exact C60_no_sharing S Rf ((Node14.reach_iff tr T K).1 h) hW

/-- Storage is allocated exactly for the nodes of the variables' trees: nothing is leaked, nothing that is
owned has been freed. -/
theorem C72_allocated_iff_owned (S : tr.Sound) (Rf : tr.Reflexive) (h : Node14.Reach tr T K s)
    (hW : Shows tr.res K W s) (q : Addr) : s.heap q ≠ none ↔ ∃ x, (W x).Mem K q := by
  exact C60_allocated_iff_owned S Rf ((Node14.reach_iff tr T K).1 h) hW q

/-- The trees determine objects and storage completely. -/
theorem C72_determined (S : tr.Sound) (Rf : tr.Reflexive) {s' : NSt N A R V} (h : Node14.Reach tr T K s)
    (h' : Node14.Reach tr T K s') (hW : Shows tr.res K W s) (hW' : Shows tr.res K W s') :
    s.heap = s'.heap ∧ s.hs = s'.hs := by
  exact C60_determined S Rf ((Node14.reach_iff tr T K).1 h) ((Node14.reach_iff tr T K).1 h') hW hW'

/-- Every legal statement does to the trees what the specification says, or throws and does to them what
the specification says for that case; there is no undefined behaviour and no unbounded recursion, and
`std::terminate` is called only by move assignments in the case of finding 2. -/
theorem C72_statements (S : tr.Sound) (Rf : tr.Reflexive) (h : Node14.Reach tr T K s) (hW : Shows tr.res K W s)
    (c : NCall N A X) (hL : Legal tr K W c.depth c.op) :
    match Node14.call tr T K c s with
    | .ok _ s' => ∃ W', Step tr T.cxx14 K W c.op W' ∧ Shows tr.res K W' s'
    | .threw _ s' => ∃ W', Failed tr T.cxx14 W c.op W' ∧ Shows tr.res K W' s'
    | .terminated => MayTerminate tr K W c.op
    | .ub _ => False
    | .diverged => False := by
  rw [Node14.call_eq]
  exact C58_statements S Rf ((Node14.reach_iff tr T K).1 h) hW c hL

/-- Whatever a statement does, and also if it throws, trees at places that are apart from the places it
changes are exactly what they were, down to their addresses. -/
theorem C72_apart_unchanged (S : tr.Sound) (Rf : tr.Reflexive) (h : Node14.Reach tr T K s)
    (hW : Shows tr.res K W s) (c : NCall N A X) (hL : Legal tr K W c.depth c.op) :
    match Node14.call tr T K c s with
    | .ok _ s' => ∃ W', Shows tr.res K W' s' ∧
        ∀ Z : Path N, (∀ P ∈ changes c.op, P.Apart Z) → treeAt W' Z = treeAt W Z
    | .threw _ s' => ∃ W', Shows tr.res K W' s' ∧
        ∀ Z : Path N, (∀ P ∈ changes c.op, P.Apart Z) → treeAt W' Z = treeAt W Z
    | _ => True := by
  rw [Node14.call_eq]
  exact C59_apart_unchanged S Rf ((Node14.reach_iff tr T K).1 h) hW c hL

/-- Copying the tree at `Q` into the empty place `P`: the result is a deep copy - same shape, payloads
copied, allocators selected - made entirely of new blocks, and nothing else changes.  If it throws, nothing
has changed. -/
theorem C72_deep_copy (S : tr.Sound) (Rf : tr.Reflexive) (h : Node14.Reach tr T K s) (hW : Shows tr.res K W s)
    {P Q : Path N} {n : Nat} (hP : Empty K W P) (hQ : Live K W Q) (hn : Fits K n W Q) (e : Env) :
    match Node14.call tr T K (⟨.copy P Q, n, e⟩ : NCall N A X) s with
    | .ok _ s' => ∃ t, (treeAt W Q).Copy (Copied T) tr.socc K (tr.socc ((treeAt W Q).allocOr tr.dflt)) t ∧
        (∀ q, t.Mem K q → s.heap q = none) ∧ Shows tr.res K (putAt W P t) s'
    | .threw _ s' => s'.heap = s.heap ∧ s'.hs = s.hs
    | _ => False := by
  rw [Node14.call_eq]
  exact C44_deep_copy S Rf ((Node14.reach_iff tr T K).1 h) hW hP hQ hn e

/-- The same for the copy constructor with an allocator. -/
theorem C72_deep_copy_with_allocator (S : tr.Sound) (Rf : tr.Reflexive) (h : Node14.Reach tr T K s)
    (hW : Shows tr.res K W s) {P Q : Path N} {n : Nat} (a : A) (hP : Empty K W P) (hQ : Live K W Q)
    (hn : Fits K n W Q) (e : Env) :
    match Node14.call tr T K (⟨.copyA P a Q, n, e⟩ : NCall N A X) s with
    | .ok _ s' => ∃ t, (treeAt W Q).Copy (Copied T) tr.socc K a t ∧
        (∀ q, t.Mem K q → s.heap q = none) ∧ Shows tr.res K (putAt W P t) s'
    | .threw _ s' => s'.heap = s.heap ∧ s'.hs = s.hs
    | _ => False := by
  rw [Node14.call_eq]
  exact C44_deep_copy_with_allocator S Rf ((Node14.reach_iff tr T K).1 h) hW a hP hQ hn e

/-- Destroying the `indirect` at `P` never fails.  It does exactly this: it destroys the nodes below `P` and frees
their blocks, in the order given by `teardown`, and empties the place; other storage is not touched. -/
theorem C72_destroy (S : tr.Sound) (Rf : tr.Reflexive) (h : Node14.Reach tr T K s) (hW : Shows tr.res K W s)
    {P : Path N} {n : Nat} (hP : Live K W P) (hn : Fits K n W P) (e : Env) :
    ∃ s', Node14.call tr T K (⟨.drop P, n, e⟩ : NCall N A X) s = .ok () s' ∧
      Shows tr.res K (putAt W P .absent) s' ∧
      s'.trace = s.trace ++ (treeAt W P).teardown tr.res K ∧
      (∀ q, (treeAt W P).Mem K q → s'.heap q = none) ∧
      (∀ q, ¬ (treeAt W P).Mem K q → s'.heap q = s.heap q) := by
  rw [Node14.call_eq]
  exact C45_destroy S Rf ((Node14.reach_iff tr T K).1 h) hW hP hn e

/-- In that teardown every node is destroyed exactly once and every block is freed exactly once; no other
block is mentioned. -/
theorem C72_exactly_once (S : tr.Sound) (Rf : tr.Reflexive) (h : Node14.Reach tr T K s) (hW : Shows tr.res K W s)
    {P : Path N} (hP : Live K W P) (q : Addr) :
    ((treeAt W P).Mem K q → Spec.deallocsAt q ((treeAt W P).teardown tr.res K) = 1 ∧
      Spec.destroysAt q ((treeAt W P).teardown tr.res K) = 1) ∧
    (¬ (treeAt W P).Mem K q → Spec.deallocsAt q ((treeAt W P).teardown tr.res K) = 0 ∧
      Spec.destroysAt q ((treeAt W P).teardown tr.res K) = 0) := by
  exact C45_exactly_once S Rf ((Node14.reach_iff tr T K).1 h) hW hP q

/-- The trace of a call obeys the life cycle of storage and objects, and describes what is allocated and
alive afterwards. -/
theorem C72_lifecycle (h : Node14.Reach tr T K s) :
    ∃ m, Spec.lives s.trace = some m ∧ ∀ p, m p = (s.heap p).map fun c => ⟨c.arena, c.body.isSome⟩ := by
  exact C45_lifecycle ((Node14.reach_iff tr T K).1 h)

/-- A throw in the middle of a copy frees exactly what the copy had allocated and destroys exactly what it
had constructed; objects and storage are as before. -/
theorem C72_partial_copy_undone (S : tr.Sound) (Rf : tr.Reflexive) (h : Node14.Reach tr T K s)
    (hW : Shows tr.res K W s) {P Q : Path N} {n : Nat} (hP : Empty K W P) (hQ : Live K W Q)
    (hn : Fits K n W Q) {e : Env} {x : Exn} {s' : NSt N A R V}
    (hr : Node14.call tr T K (⟨.copy P Q, n, e⟩ : NCall N A X) s = .threw x s') :
    s'.heap = s.heap ∧ s'.hs = s.hs ∧ ∃ evs, s'.trace = s.trace ++ evs ∧
      ∀ q, Spec.allocsAt q evs = Spec.deallocsAt q evs ∧ Spec.constructsAt q evs = Spec.destroysAt q evs := by
  rw [Node14.call_eq] at hr
  exact C45_partial_copy_undone S Rf ((Node14.reach_iff tr T K).1 h) hW hP hQ hn hr

/-- Once all variables are empty nothing is left: no storage, no `indirect` anywhere; over the whole
history every block was freed as often as it was allocated, and as many nodes were destroyed in it as were
constructed there. -/
theorem C72_no_leak (S : tr.Sound) (Rf : tr.Reflexive) (h : Node14.Reach tr T K s)
    (hend : ∀ x, s.hs (.var x) = none) :
    (∀ q, s.heap q = none) ∧ (∀ l, s.hs l = none) ∧
    ∀ q, Spec.allocsAt q s.trace = Spec.deallocsAt q s.trace ∧
      Spec.constructsAt q s.trace = Spec.destroysAt q s.trace := by
  exact C45_no_leak S Rf ((Node14.reach_iff tr T K).1 h) hend

end

section
open Verif.PNode
variable {N A R Ty V X : Type} [DecidableEq N] [DecidableEq R] [DecidableEq Ty]
variable {tr : ATraits A R} {P : PSpec Ty V X} {K : Nat} {s : PSt N A R Ty V} {W : N → Tree A (Ty × V)}

/-- A statement does the same with both headers, except for the allocator-extended move constructor where allocators
propagate and the given one is not equal to that of the source. -/
theorem C72_polymorphic_same_statement (E : tr.Equality) (hW : Shows tr.res K W s) (c : PCall N A Ty X)
    (hL : Node.Legal tr K W c.depth c.op.asN) (hS : PNode14.Safe14 tr W c.op) :
    PNode14.call tr P K c s = PNode.call tr P K c s := PNode14.call_eq tr P K E c hW hL hS

/-- Every state reached with polymorphic_cxx14.h is reached with polymorphic.h. -/
theorem C72_polymorphic_states (E : tr.Equality) (h : PNode14.Reach tr P K s) : PNode.Reach tr P K s := h.to20 E

/-- If allocators do not propagate, or are always equal, the reachable states are the same. -/
theorem C72_polymorphic_same_states (E : tr.Equality) (hq : tr.pocca = true → tr.alwaysEqual = true) :
    PNode14.Reach tr P K s ↔ PNode.Reach tr P K s := PNode14.reach_iff tr P K E hq

/-- In every reachable state every variable holds a finite tree. -/
theorem C72_polymorphic_trees (S : tr.Sound) (Rf : tr.Reflexive) (E : tr.Equality)
    (h : PNode14.Reach tr P K s) :
    ∃ W : N → Tree A (Ty × V), Shows tr.res K W s := by
  exact C60_polymorphic_trees S Rf (h.to20 E)

/-- No block belongs to two places of a tree, or to two trees: there is no sharing and no cycle. -/
theorem C72_polymorphic_no_sharing (S : tr.Sound) (Rf : tr.Reflexive) (E : tr.Equality)
    (h : PNode14.Reach tr P K s) (hW : Shows tr.res K W s)
    :
    (∀ x, (W x).Sep K) ∧ ∀ x y, x ≠ y → ∀ q, (W x).Mem K q → ¬ (W y).Mem K q := by
  exact C60_polymorphic_no_sharing S Rf (h.to20 E) hW

/-- Storage is allocated exactly for the nodes of the variables' trees. -/
theorem C72_polymorphic_allocated_iff_owned (S : tr.Sound) (Rf : tr.Reflexive) (E : tr.Equality)
    (h : PNode14.Reach tr P K s) (hW : Shows tr.res K W s)
    (q : Addr) : s.heap q ≠ none ↔ ∃ x, (W x).Mem K q := by
  exact C60_polymorphic_allocated_iff_owned S Rf (h.to20 E) hW q

/-- The trees determine objects and storage completely, control blocks included. -/
theorem C72_polymorphic_determined (S : tr.Sound) (Rf : tr.Reflexive) (E : tr.Equality)
    {s' : PSt N A R Ty V} (h : PNode14.Reach tr P K s)
    (h' : PNode14.Reach tr P K s') (hW : Shows tr.res K W s) (hW' : Shows tr.res K W s') :
    s.heap = s'.heap ∧ s.hs = s'.hs := by
  exact C60_polymorphic_determined S Rf (h.to20 E) (h'.to20 E) hW hW'

/-- Every legal statement does to the trees what the specification says, or throws and does to them what the
specification says for that case; there is no undefined behaviour and no unbounded recursion, and `std::terminate` is
called only by move assignments in the case of finding 2. -/
theorem C72_polymorphic_statements (S : tr.Sound) (Rf : tr.Reflexive) (E : tr.Equality)
    (h : PNode14.Reach tr P K s) (hW : Shows tr.res K W s)
    (c : PCall N A Ty X) (hL : Node.Legal tr K W c.depth c.op.asN)
    (hS : PNode14.Safe14 tr W c.op) :
    match PNode14.call tr P K c s with
    | .ok _ s' => ∃ W', Node.Step tr P.owned K W c.op.asN W' ∧ Shows tr.res K W' s'
    | .threw _ s' => ∃ W', Node.Failed tr P.owned W c.op.asN W' ∧ Shows tr.res K W' s'
    | .terminated => Node.MayTerminate tr K W c.op.asN
    | .ub _ => False
    | .diverged => False := by
  rw [PNode14.call_eq tr P K E c hW hL hS]
  exact C58_polymorphic_statements S Rf (h.to20 E) hW c hL

/-- Copy assignment between places that are apart: the tree is replaced by a deep copy in new storage - every node has the
dynamic type of its original and was made by the copy constructor of that type - with the allocator that propagation
selects.  If anything throws, nothing has changed. -/
theorem C72_polymorphic_copy_assignment (S : tr.Sound) (Rf : tr.Reflexive) (E : tr.Equality)
    (h : PNode14.Reach tr P K s) (hW : Shows tr.res K W s)
    {p q : Path N} {n : Nat} (hp : Node.Live K W p) (hq : Node.Live K W q)
    (hnp : Node.Fits K n W p) (hnq : Node.Fits K n W q) (hA : p.Apart q) (e : Env) :
    match PNode14.call tr P K (⟨.assign p q, n, e⟩ : PCall N A Ty X) s with
    | .ok _ s' => ∃ t, (Node.treeAt W q).Copy (Copied P) tr.socc K
          (if tr.pocca then (Node.treeAt W q).allocOr tr.dflt else (Node.treeAt W p).allocOr tr.dflt) t ∧
        (∀ b, t.Mem K b → s.heap b = none) ∧ Shows tr.res K (Node.putAt W p t) s'
    | .threw _ s' => s'.heap = s.heap ∧ s'.hs = s.hs
    | _ => False := by
  rw [PNode14.call_eq tr P K E ⟨.assign p q, n, e⟩ hW ⟨hp, hq, hnp, hnq, Or.inr hA⟩ trivial]
  exact C58_polymorphic_copy_assignment S Rf (h.to20 E) hW hp hq hnp hnq hA e

/-- Whatever a statement does, and also if it throws, trees at places that are apart from the places it changes are
exactly what they were, down to their addresses. -/
theorem C72_polymorphic_apart_unchanged (S : tr.Sound) (Rf : tr.Reflexive) (E : tr.Equality)
    (h : PNode14.Reach tr P K s) (hW : Shows tr.res K W s)
    (c : PCall N A Ty X) (hL : Node.Legal tr K W c.depth c.op.asN)
    (hS : PNode14.Safe14 tr W c.op) :
    match PNode14.call tr P K c s with
    | .ok _ s' => ∃ W', Shows tr.res K W' s' ∧
        ∀ z : Path N, (∀ p ∈ Node.changes c.op.asN, p.Apart z) → Node.treeAt W' z = Node.treeAt W z
    | .threw _ s' => ∃ W', Shows tr.res K W' s' ∧
        ∀ z : Path N, (∀ p ∈ Node.changes c.op.asN, p.Apart z) → Node.treeAt W' z = Node.treeAt W z
    | _ => True := by
  rw [PNode14.call_eq tr P K E c hW hL hS]
  exact C59_polymorphic_apart_unchanged S Rf (h.to20 E) hW c hL

/-- Copying the tree at `q` into the empty place `p`: the result is a deep copy - same shape, every node of the dynamic
type of its original and made by the copy constructor of that type, allocators selected - made entirely of new blocks, and
nothing else changes.  If it throws, nothing has changed. -/
theorem C72_polymorphic_deep_copy (S : tr.Sound) (Rf : tr.Reflexive) (E : tr.Equality)
    (h : PNode14.Reach tr P K s) (hW : Shows tr.res K W s)
    {p q : Path N} {n : Nat} (hp : Node.Empty K W p) (hq : Node.Live K W q)
    (hn : Node.Fits K n W q) (e : Env) :
    match PNode14.call tr P K (⟨.copy p q, n, e⟩ : PCall N A Ty X) s with
    | .ok _ s' => ∃ t, (Node.treeAt W q).Copy (Copied P) tr.socc K (tr.socc ((Node.treeAt W q).allocOr tr.dflt)) t ∧
        (∀ b, t.Mem K b → s.heap b = none) ∧ Shows tr.res K (Node.putAt W p t) s'
    | .threw _ s' => s'.heap = s.heap ∧ s'.hs = s.hs
    | _ => False := by
  rw [PNode14.call_eq tr P K E ⟨.copy p q, n, e⟩ hW ⟨hp, hq, hn⟩ trivial]
  exact C44_polymorphic_deep_copy S Rf (h.to20 E) hW hp hq hn e

/-- The same for the copy constructor with an allocator. -/
theorem C72_polymorphic_deep_copy_with_allocator (S : tr.Sound) (Rf : tr.Reflexive) (E : tr.Equality)
    (h : PNode14.Reach tr P K s) (hW : Shows tr.res K W s)
    {p q : Path N} {n : Nat} (a : A) (hp : Node.Empty K W p) (hq : Node.Live K W q)
    (hn : Node.Fits K n W q) (e : Env) :
    match PNode14.call tr P K (⟨.copyA p a q, n, e⟩ : PCall N A Ty X) s with
    | .ok _ s' => ∃ t, (Node.treeAt W q).Copy (Copied P) tr.socc K a t ∧
        (∀ b, t.Mem K b → s.heap b = none) ∧ Shows tr.res K (Node.putAt W p t) s'
    | .threw _ s' => s'.heap = s.heap ∧ s'.hs = s.hs
    | _ => False := by
  rw [PNode14.call_eq tr P K E ⟨.copyA p a q, n, e⟩ hW ⟨hp, hq, hn⟩ trivial]
  exact C44_polymorphic_deep_copy_with_allocator S Rf (h.to20 E) hW a hp hq hn e

/-- Destroying the `polymorphic` at `p` never fails.  It destroys the nodes below `p` and frees their blocks, in the order
given by `teardown`, and empties the place; other storage is not touched. -/
theorem C72_polymorphic_destroy (S : tr.Sound) (Rf : tr.Reflexive) (E : tr.Equality)
    (h : PNode14.Reach tr P K s) (hW : Shows tr.res K W s)
    {p : Path N} {n : Nat} (hp : Node.Live K W p) (hn : Node.Fits K n W p) (e : Env) :
    ∃ s', PNode14.call tr P K (⟨.drop p, n, e⟩ : PCall N A Ty X) s = .ok () s' ∧
      Shows tr.res K (Node.putAt W p .absent) s' ∧
      s'.trace = s.trace ++ (Node.treeAt W p).teardown tr.res K ∧
      (∀ q, (Node.treeAt W p).Mem K q → s'.heap q = none) ∧
      (∀ q, ¬ (Node.treeAt W p).Mem K q → s'.heap q = s.heap q) := by
  rw [PNode14.call_eq tr P K E ⟨.drop p, n, e⟩ hW ⟨hp, hn⟩ trivial]
  exact C45_polymorphic_destroy S Rf (h.to20 E) hW hp hn e

/-- In that teardown every node is destroyed exactly once and every block is freed exactly once; no other block is
mentioned. -/
theorem C72_polymorphic_exactly_once (S : tr.Sound) (Rf : tr.Reflexive) (E : tr.Equality)
    (h : PNode14.Reach tr P K s) (hW : Shows tr.res K W s)
    {p : Path N} (hp : Node.Live K W p) (q : Addr) :
    ((Node.treeAt W p).Mem K q → Spec.deallocsAt q ((Node.treeAt W p).teardown tr.res K) = 1 ∧
      Spec.destroysAt q ((Node.treeAt W p).teardown tr.res K) = 1) ∧
    (¬ (Node.treeAt W p).Mem K q → Spec.deallocsAt q ((Node.treeAt W p).teardown tr.res K) = 0 ∧
      Spec.destroysAt q ((Node.treeAt W p).teardown tr.res K) = 0) := by
  exact C45_polymorphic_exactly_once S Rf (h.to20 E) hW hp q

/-- The trace of a history obeys the life cycle of storage and objects, and describes what is allocated and alive
afterwards. -/
theorem C72_polymorphic_lifecycle (S : tr.Sound) (Rf : tr.Reflexive) (E : tr.Equality)
    (h : PNode14.Reach tr P K s) :
    ∃ m, Spec.lives s.trace = some m ∧ ∀ p, m p = (s.heap p).map fun c => ⟨c.arena, c.body.isSome⟩ := by
  exact C45_polymorphic_lifecycle S Rf (h.to20 E)

/-- A throw in the middle of a copy frees exactly what the copy had allocated and destroys exactly what it had
constructed; objects and storage are as before. -/
theorem C72_polymorphic_partial_copy_undone (S : tr.Sound) (Rf : tr.Reflexive) (E : tr.Equality)
    (h : PNode14.Reach tr P K s) (hW : Shows tr.res K W s)
    {p q : Path N} {n : Nat} (hp : Node.Empty K W p) (hq : Node.Live K W q)
    (hn : Node.Fits K n W q) {e : Env} {x : Exn} {s' : PSt N A R Ty V}
    (hr : PNode14.call tr P K (⟨.copy p q, n, e⟩ : PCall N A Ty X) s = .threw x s') :
    s'.heap = s.heap ∧ s'.hs = s.hs ∧ ∃ evs, s'.trace = s.trace ++ evs ∧
      ∀ q, Spec.allocsAt q evs = Spec.deallocsAt q evs ∧ Spec.constructsAt q evs = Spec.destroysAt q evs := by
  rw [PNode14.call_eq tr P K E ⟨.copy p q, n, e⟩ hW ⟨hp, hq, hn⟩ trivial] at hr
  exact C45_polymorphic_partial_copy_undone S Rf (h.to20 E) hW hp hq hn hr

/-- Once all variables are empty nothing is left: no storage, no `polymorphic` anywhere; over the whole history every
block was freed as often as it was allocated, and as many nodes were destroyed in it as were constructed there. -/
theorem C72_polymorphic_no_leak (S : tr.Sound) (Rf : tr.Reflexive) (E : tr.Equality)
    (h : PNode14.Reach tr P K s)
    (hend : ∀ x, s.hs (.var x) = none) :
    (∀ q, s.heap q = none) ∧ (∀ l, s.hs l = none) ∧
    ∀ q, Spec.allocsAt q s.trace = Spec.deallocsAt q s.trace ∧
      Spec.constructsAt q s.trace = Spec.destroysAt q s.trace := by
  exact C45_polymorphic_no_leak S Rf (h.to20 E) hend

end

/-! ### The additional condition is needed -/

/-- With allocators that propagate on copy assignment and differ, a tree that was moved with the allocator-extended
constructor of polymorphic_cxx14.h cannot be destroyed: its blocks would go back to the wrong memory resource.  The statements
are legal, and with polymorphic.h both return. -/
theorem C72_polymorphic_condition_needed :
    ∃ s : PNDemo.S, PNode14.Reach PNDemo14.trP PDemo.P 2 s ∧
      PNode.Shows PNDemo14.trP.res 2 (PNDemo.trees s) s ∧
      Node.Legal PNDemo14.trP 2 (PNDemo.trees s) PNDemo14.move.depth PNDemo14.move.op.asN ∧
      PNDemo.outcome (PNode14.call PNDemo14.trP PDemo.P 2 PNDemo14.move s) = 0 ∧
      PNDemo.outcome ((PNode14.call PNDemo14.trP PDemo.P 2 PNDemo14.move >>= fun _ =>
        PNode14.call PNDemo14.trP PDemo.P 2 PNDemo14.drop) s) = 3 ∧
      PNDemo.outcome ((PNode.call PNDemo14.trP PDemo.P 2 PNDemo14.move >>= fun _ =>
        PNode.call PNDemo14.trP PDemo.P 2 PNDemo14.drop) s) = 0 :=
  ⟨PNDemo14.s0, PNDemo14.reach _ _ _, by decide +kernel, by decide +kernel, by decide +kernel, by decide +kernel,
    by decide +kernel⟩

/-! ### The hypotheses are met -/
section
open Verif.NDemo

/-- The tree of four nodes with a valueless member is built with indirect_cxx14.h as well. -/
example : Node14.Reach tr0 Demo.T 2 (s0 tr0) ∧ Node.Shows tr0.res 2 (NDemo.view (s0 tr0)) (s0 tr0) :=
  ⟨C72_same_states.2 (s0_reach tr0), by decide +kernel⟩

example : Demo.T.assignable = Demo.T.copyAssignable := rfl

/-- It is copied, and with the third allocation failing it is not. -/
example : Demo.outcome (Node14.call tr0 Demo.T 2 (⟨.copy (at' 1 []) (at' 0 []), 3, from' 200⟩ : Node.NCall Var Nat Nat)
      (s0 tr0)) = 0 ∧
    Demo.outcome (Node14.call tr0 Demo.T 2 (⟨.copy (at' 1 []) (at' 0 []), 3, short 200 2⟩ : Node.NCall Var Nat Nat)
      (s0 tr0)) = 1 := by decide +kernel

end

example : PNDemo14.trP.Equality := ⟨fun _ => by simp [Demo.alloc], fun h => by simp [Demo.alloc] at h⟩

/-- The tree of four nodes of three types is built with polymorphic_cxx14.h. -/
example : PNode14.Reach PNDemo14.trP PDemo.P 2 PNDemo14.s0 ∧
    PNode.Shows PNDemo14.trP.res 2 (PNDemo.trees PNDemo14.s0) PNDemo14.s0 ∧
    (PNDemo.trees PNDemo14.s0 0).height 2 = 3 :=
  ⟨PNDemo14.reach _ _ _, by decide +kernel, by decide +kernel⟩

/-- It may be moved to another variable with allocator 5, but not with allocator 8. -/
example : PNode14.Safe14 PNDemo14.trP (PNDemo.trees PNDemo14.s0)
      (.moveA (NDemo.at' 1 []) 5 (NDemo.at' 0 []) : PNode.Stmt NDemo.Var Nat Nat Nat) ∧
    ¬ PNode14.Safe14 PNDemo14.trP (PNDemo.trees PNDemo14.s0) PNDemo14.move.op := by decide +kernel

end Verif.Props
