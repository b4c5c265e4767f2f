import Verif.Proofs.NodeFacts
import Verif.NDemo

/-!
# C44, C45, C58, C59, C60: recursive values

Programs over variables of type `std::optional<indirect<Node>>`, where a `Node` has a payload and `K`
members of that same type (`Verif/Node.lean`, `Verif/NodeProg.lean`).  `Reach` are the states of all
histories of legal statements, `Shows W s` says that the variables hold the trees `W`
(`Verif/Spec/NodeRun.lean`); trees, copies and teardown are defined in `Verif/Spec/Tree.lean`, what
statements do to trees in `Verif/Spec/World.lean`.
-/

set_option autoImplicit false
set_option linter.unusedSectionVars false
set_option linter.unusedSimpArgs false

namespace Verif.Props
open Verif Verif.Node

section
variable {N A R V X : Type} [DecidableEq N] [DecidableEq R]
variable {tr : ATraits A R} {T : TSpec V X} {K : Nat} {s : NSt N A R V} {W : N → Tree A V}

/-- In every reachable state every variable holds a finite tree. -/
theorem C60_trees (S : tr.Sound) (Rf : tr.Reflexive) (h : Reach tr T K s) :
    ∃ W : N → Tree A V, Shows tr.res K W s :=
  (h.exists_world S Rf).imp fun _ w => w.holds

/-- No block belongs to two places of a tree, or to two trees: there is no sharing and no cycle. -/
theorem C60_no_sharing (S : tr.Sound) (Rf : tr.Reflexive) (h : Reach tr T K s) (hW : Shows tr.res K W s) :
    (∀ x, (W x).Sep K) ∧ ∀ x y, x ≠ y → ∀ q, (W x).Mem K q → ¬ (W y).Mem K q :=
  ⟨(h.world S Rf hW).sep, (h.world S Rf hW).disj⟩

/-- Storage is allocated exactly for the nodes of the variables' trees: nothing is leaked, nothing that is
owned has been freed. -/
theorem C60_allocated_iff_owned (S : tr.Sound) (Rf : tr.Reflexive) (h : Reach tr T K s)
    (hW : Shows tr.res K W s) (q : Addr) : s.heap q ≠ none ↔ ∃ x, (W x).Mem K q :=
  ⟨(h.world S Rf hW).cover q, fun ⟨x, hm⟩ => ((h.world S Rf hW).holds x).alloc hm⟩

/-- The trees determine objects and storage completely. -/
theorem C60_determined (S : tr.Sound) (Rf : tr.Reflexive) {s' : NSt N A R V} (h : Reach tr T K s)
    (h' : Reach tr T K s') (hW : Shows tr.res K W s) (hW' : Shows tr.res K W s') :
    s.heap = s'.heap ∧ s.hs = s'.hs :=
  (h.world S Rf hW).same (h'.world S Rf hW')

/-- Every legal statement does to the trees what the specification says, or throws and does to them what
the specification says for that case; there is no undefined behaviour and no unbounded recursion, and
`std::terminate` is called only by move assignments in the case of finding 2. -/
theorem C58_statements (S : tr.Sound) (Rf : tr.Reflexive) (h : Reach tr T K s) (hW : Shows tr.res K W s)
    (c : NCall N A X) (hL : Legal tr K W c.depth c.op) :
    match call tr T K c s with
    | .ok _ s' => ∃ W', Step tr T K W c.op W' ∧ Shows tr.res K W' s'
    | .threw _ s' => ∃ W', Failed tr T W c.op W' ∧ Shows tr.res K W' s'
    | .terminated => MayTerminate tr K W c.op
    | .ub _ => False
    | .diverged => False := by
  have := exec_spec tr T S Rf ((h.world S Rf hW).enter c.env) c.depth c.op hL
  show match exec tr T K c.depth c.op (s.enter c.env) with
    | .ok _ s' => ∃ W', Step tr T K W c.op W' ∧ Shows tr.res K W' s'
    | .threw _ s' => ∃ W', Failed tr T W c.op W' ∧ Shows tr.res K W' s'
    | .terminated => MayTerminate tr K W c.op
    | .ub _ => False
    | .diverged => False
  cases hr : exec tr T K c.depth c.op (s.enter c.env) with
  | ok a s' => rw [hr] at this; obtain ⟨W', h1, h2⟩ := this; exact ⟨W', h1, h2.holds⟩
  | threw e s' => rw [hr] at this; obtain ⟨W', h1, h2⟩ := this; exact ⟨W', h1, h2.holds⟩
  | terminated => rw [hr] at this; exact this
  | ub u => rw [hr] at this; exact this
  | diverged => rw [hr] at this; exact this

/-- Whatever a statement does, and also if it throws, trees at places that are apart from the places it
changes are exactly what they were, down to their addresses. -/
theorem C59_apart_unchanged (S : tr.Sound) (Rf : tr.Reflexive) (h : Reach tr T K s)
    (hW : Shows tr.res K W s) (c : NCall N A X) (hL : Legal tr K W c.depth c.op) :
    match call tr T K c s with
    | .ok _ s' => ∃ W', Shows tr.res K W' s' ∧
        ∀ Z : Path N, (∀ P ∈ changes c.op, P.Apart Z) → treeAt W' Z = treeAt W Z
    | .threw _ s' => ∃ W', Shows tr.res K W' s' ∧
        ∀ Z : Path N, (∀ P ∈ changes c.op, P.Apart Z) → treeAt W' Z = treeAt W Z
    | _ => True := by
  have := C58_statements S Rf h hW c hL
  cases hr : call tr T K c s with
  | ok a s' =>
    rw [hr] at this
    obtain ⟨W', h1, h2⟩ := this
    exact ⟨W', h2, fun Z hZ => Step.apart h1 hZ⟩
  | threw e s' =>
    rw [hr] at this
    obtain ⟨W', h1, h2⟩ := this
    exact ⟨W', h2, fun Z hZ => Failed.apart h1 hZ⟩
  | terminated => trivial
  | ub u => trivial
  | diverged => trivial

/-- Copying the tree at `Q` into the empty place `P`: the result is a deep copy - same shape, payloads
copied, allocators selected - made entirely of new blocks, and nothing else changes.  If it throws, nothing
has changed. -/
theorem C44_deep_copy (S : tr.Sound) (Rf : tr.Reflexive) (h : Reach tr T K s) (hW : Shows tr.res K W s)
    {P Q : Path N} {n : Nat} (hP : Empty K W P) (hQ : Live K W Q) (hn : Fits K n W Q) (e : Env) :
    match call tr T K (⟨.copy P Q, n, e⟩ : NCall N A X) s with
    | .ok _ s' => ∃ t, (treeAt W Q).Copy (Copied T) tr.socc K (tr.socc ((treeAt W Q).allocOr tr.dflt)) t ∧
        (∀ q, t.Mem K q → s.heap q = none) ∧ Shows tr.res K (putAt W P t) s'
    | .threw _ s' => s'.heap = s.heap ∧ s'.hs = s.hs
    | _ => False := by
  have w := h.world S Rf hW
  have := exec_spec tr T S Rf (w.enter e) n (.copy P Q : NOp N A X) ⟨hP, hQ, hn⟩
  show match exec tr T K n (.copy P Q : NOp N A X) (s.enter e) with
    | .ok _ s' => ∃ t, (treeAt W Q).Copy (Copied T) tr.socc K (tr.socc ((treeAt W Q).allocOr tr.dflt)) t ∧
        (∀ q, t.Mem K q → s.heap q = none) ∧ Shows tr.res K (putAt W P t) s'
    | .threw _ s' => s'.heap = s.heap ∧ s'.hs = s.hs
    | _ => False
  cases hr : exec tr T K n (.copy P Q : NOp N A X) (s.enter e) with
  | ok a s' =>
    rw [hr] at this
    obtain ⟨_, ⟨t, h1, h2, rfl⟩, h3⟩ := this
    refine ⟨t, h1, fun q hm => ?_, h3.holds⟩
    exact Classical.byContradiction fun hq => (w.cover q hq).elim (h2 q hm)
  | threw e' s' =>
    rw [hr] at this
    obtain ⟨W', rfl, h3⟩ := this
    exact h3.same w
  | terminated => rw [hr] at this; exact this
  | ub u => rw [hr] at this; exact this
  | diverged => rw [hr] at this; exact this

/-- The same for the copy constructor with an allocator. -/
theorem C44_deep_copy_with_allocator (S : tr.Sound) (Rf : tr.Reflexive) (h : Reach tr T K s)
    (hW : Shows tr.res K W s) {P Q : Path N} {n : Nat} (a : A) (hP : Empty K W P) (hQ : Live K W Q)
    (hn : Fits K n W Q) (e : Env) :
    match call tr T K (⟨.copyA P a Q, n, e⟩ : NCall N A X) s with
    | .ok _ s' => ∃ t, (treeAt W Q).Copy (Copied T) tr.socc K a t ∧
        (∀ q, t.Mem K q → s.heap q = none) ∧ Shows tr.res K (putAt W P t) s'
    | .threw _ s' => s'.heap = s.heap ∧ s'.hs = s.hs
    | _ => False := by
  have w := h.world S Rf hW
  have := exec_spec tr T S Rf (w.enter e) n (.copyA P a Q : NOp N A X) ⟨hP, hQ, hn⟩
  show match exec tr T K n (.copyA P a Q : NOp N A X) (s.enter e) with
    | .ok _ s' => ∃ t, (treeAt W Q).Copy (Copied T) tr.socc K a t ∧
        (∀ q, t.Mem K q → s.heap q = none) ∧ Shows tr.res K (putAt W P t) s'
    | .threw _ s' => s'.heap = s.heap ∧ s'.hs = s.hs
    | _ => False
  cases hr : exec tr T K n (.copyA P a Q : NOp N A X) (s.enter e) with
  | ok a' s' =>
    rw [hr] at this
    obtain ⟨_, ⟨t, h1, h2, rfl⟩, h3⟩ := this
    refine ⟨t, h1, fun q hm => ?_, h3.holds⟩
    exact Classical.byContradiction fun hq => (w.cover q hq).elim (h2 q hm)
  | threw e' s' =>
    rw [hr] at this
    obtain ⟨W', rfl, h3⟩ := this
    exact h3.same w
  | terminated => rw [hr] at this; exact this
  | ub u => rw [hr] at this; exact this
  | diverged => rw [hr] at this; exact this

/-- If copies of payloads are equal to their originals, the copy of a tree has the same shape and the same
payloads. -/
theorem C44_structurally_equal {t t' : Tree A V} {a : A} (hT : ∀ v w, Copied T v w → v = w)
    (h : t.Copy (Copied T) tr.socc K a t') : t.Like Eq K t' := h.like_of hT

/-- The source is unchanged (unless the copy was put inside of it). -/
theorem C44_source_unchanged {P Q : Path N} (h : P.Apart Q) (t : Tree A V) :
    treeAt (putAt W P t) Q = treeAt W Q := treeAt_putAt_apart h

/-- Destroying the `indirect` at `P` never fails.  It does exactly this: it destroys the nodes below `P` and frees
their blocks, in the order given by `teardown`, and empties the place; other storage is not touched. -/
theorem C45_destroy (S : tr.Sound) (Rf : tr.Reflexive) (h : Reach tr T K s) (hW : Shows tr.res K W s)
    {P : Path N} {n : Nat} (hP : Live K W P) (hn : Fits K n W P) (e : Env) :
    ∃ s', call tr T K (⟨.drop P, n, e⟩ : NCall N A X) s = .ok () s' ∧
      Shows tr.res K (putAt W P .absent) s' ∧
      s'.trace = s.trace ++ (treeAt W P).teardown tr.res K ∧
      (∀ q, (treeAt W P).Mem K q → s'.heap q = none) ∧
      (∀ q, ¬ (treeAt W P).Mem K q → s'.heap q = s.heap q) := by
  obtain ⟨s', h1, h2, h3, h4, h5⟩ := drop_exact tr T ((h.world S Rf hW).enter e) hP hn
  exact ⟨s', h1, h2.holds, h3, h4, h5⟩

/-- In that teardown every node is destroyed exactly once and every block is freed exactly once; no other
block is mentioned. -/
theorem C45_exactly_once (S : tr.Sound) (Rf : tr.Reflexive) (h : Reach tr T K s) (hW : Shows tr.res K W s)
    {P : Path N} (hP : Live K W P) (q : Addr) :
    ((treeAt W P).Mem K q → Spec.deallocsAt q ((treeAt W P).teardown tr.res K) = 1 ∧
      Spec.destroysAt q ((treeAt W P).teardown tr.res K) = 1) ∧
    (¬ (treeAt W P).Mem K q → Spec.deallocsAt q ((treeAt W P).teardown tr.res K) = 0 ∧
      Spec.destroysAt q ((treeAt W P).teardown tr.res K) = 0) :=
  ⟨fun hm => Tree.teardown_once tr.res (Tree.Sep.at' hP.1 ((h.world S Rf hW).sep _)) hm,
    fun hm => Tree.teardown_other tr.res hm⟩

/-- The trace of a call obeys the life cycle of storage and objects, and describes what is allocated and
alive afterwards. -/
theorem C45_lifecycle (h : Reach tr T K s) :
    ∃ m, Spec.lives s.trace = some m ∧ ∀ p, m p = (s.heap p).map fun c => ⟨c.arena, c.body.isSome⟩ :=
  ⟨_, h.life.2, fun _ => rfl⟩

/-- A throw in the middle of a copy frees exactly what the copy had allocated and destroys exactly what it
had constructed; objects and storage are as before. -/
theorem C45_partial_copy_undone (S : tr.Sound) (Rf : tr.Reflexive) (h : Reach tr T K s)
    (hW : Shows tr.res K W s) {P Q : Path N} {n : Nat} (hP : Empty K W P) (hQ : Live K W Q)
    (hn : Fits K n W Q) {e : Env} {x : Exn} {s' : NSt N A R V}
    (hr : call tr T K (⟨.copy P Q, n, e⟩ : NCall N A X) s = .threw x s') :
    s'.heap = s.heap ∧ s'.hs = s.hs ∧ ∃ evs, s'.trace = s.trace ++ evs ∧
      ∀ q, Spec.allocsAt q evs = Spec.deallocsAt q evs ∧ Spec.constructsAt q evs = Spec.destroysAt q evs := by
  have h1 := C44_deep_copy (X := X) S Rf h hW hP hQ hn e
  rw [hr] at h1
  have hl := life_call (tr := tr) (T := T) (K := K) (⟨.copy P Q, n, e⟩ : NCall N A X) h.life
  rw [hr] at hl
  obtain ⟨⟨evs, he⟩, hl⟩ := hl
  refine ⟨h1.1, h1.2, evs, he.symm, fun q => ?_⟩
  have a1 := lives_alloc h.life.2 q
  have a2 := lives_alloc hl q
  have c1 := lives_construct h.life.2 q
  have c2 := lives_construct hl q
  rw [h1.1] at a2 c2
  rw [← he, Tree.allocsAt_append, Tree.deallocsAt_append] at a2
  rw [← he, Tree.constructsAt_append, Tree.destroysAt_append] at c2
  omega

/-- Once all variables are empty nothing is left: no storage, no `indirect` anywhere; over the whole
history every block was freed as often as it was allocated, and as many nodes were destroyed in it as were
constructed there. -/
theorem C45_no_leak (S : tr.Sound) (Rf : tr.Reflexive) (h : Reach tr T K s)
    (hend : ∀ x, s.hs (.var x) = none) :
    (∀ q, s.heap q = none) ∧ (∀ l, s.hs l = none) ∧
    ∀ q, Spec.allocsAt q s.trace = Spec.deallocsAt q s.trace ∧
      Spec.constructsAt q s.trace = Spec.destroysAt q s.trace := by
  have w := h.world S Rf (W := fun _ => .absent) hend
  have hh : ∀ q, s.heap q = none := fun q => Classical.byContradiction fun hq =>
    (w.cover q hq).elim fun _ hm => hm
  refine ⟨hh, fun l => ?_, fun q => ?_⟩
  · cases l with
    | var x => exact hend x
    | field p k => exact w.clean p k (Or.inl (hh p))
  · have a := lives_alloc h.life.2 q
    have c := lives_construct h.life.2 q
    have hm : shape s.heap q = none := by simp [shape, hh q]
    simp only [Spec.liveAt, hm] at a c
    simpa using ⟨a, c⟩

end

/-! ### The hypotheses are met -/
section
open NDemo

/-- A tree of four nodes with a valueless member can be copied into the other variable. -/
example : Reach tr0 Demo.T 2 (s0 tr0) ∧ Shows tr0.res 2 (view (s0 tr0)) (s0 tr0) :=
  ⟨s0_reach tr0, by decide +kernel⟩

example : Empty 2 (view (s0 tr0)) (at' 1 []) ∧ Live 2 (view (s0 tr0)) (at' 0 []) ∧
    Fits 2 3 (view (s0 tr0)) (at' 0 []) := by decide +kernel

/-- The copy is in blocks 200 to 203. -/
example : ∀ q < 210, (view s1 1).Mem 2 q ↔ 200 ≤ q ∧ q < 204 := by decide +kernel

example : Shows tr0.res 2 (view s1) s1 := by decide +kernel

/-- The third allocation of the copy fails: the call throws. -/
example : Demo.outcome (call tr0 Demo.T 2 (⟨.copy (at' 1 []) (at' 0 []), 3, short 200 2⟩ : NCall Var Nat Nat)
    (s0 tr0)) = 1 := by decide +kernel

/-- The payload type of the examples is copied faithfully. -/
example : ∀ v w, Copied Demo.T v w → v = w := by
  rintro v w ⟨c, h⟩
  simp only [Demo.T] at h
  split at h
  · exact nomatch h
  · cases h; rfl

/-- The whole tree is destroyed, in reverse order of members; nothing is left. -/
example : (treeAt (view (s0 tr0)) (at' 0 [])).teardown tr0.res 2 =
      [.destroy 100, .destroy 102, .destroy 103, .dealloc 6 103, .dealloc 5 102, .destroy 101,
        .dealloc 5 101, .dealloc 5 100] ∧
    ∀ x, (after tr0 2 (build ++ [⟨.drop (at' 0 []), 3, from' 200⟩])).hs (.var x) = none := by
  decide +kernel

/-- Statements of every kind are legal in that state. -/
example : (∀ o ∈ ([.make (at' 1 []) 5 [1], .copy (at' 0 [1, 1]) (at' 0 []), .copyA (at' 1 []) 6 (at' 0 [0]),
      .moveA (at' 1 []) 6 (at' 0 [1]), .move (at' 1 []) (at' 0 [0]), .drop (at' 0 [1]),
      .assign (at' 0 [0]) (at' 0 [1]), .moveAssign (at' 0 [0]) (at' 0 [1]),
      .swap (at' 0 [0]) (at' 0 [1]),
      .set (at' 0 [0, 1]) 3, .setCopy (at' 0 [0]) (at' 0 [1]), .setCopy (at' 0 [0, 1]) (at' 0 [1]),
      .setCopy (at' 0 []) (at' 0 []), .setMove (at' 0 [0]) (at' 0 [1]), .setMove (at' 0 [0, 1]) (at' 0 [1]),
      .setMove (at' 0 []) (at' 0 [])] : List (NOp Var Nat Nat)),
    Legal tr0 2 (view (s0 tr0)) 4 o) := by decide +kernel

/-- A node move assigned to its sibling, `*x->l = std::move(**x->r)`: the sibling's block 101 stays, the node 103 below the
source goes to it. -/
example : ∀ q < 110, (treeAt (view (after tr0 2 (build ++ [⟨.setMove (at' 0 [0]) (at' 0 [1]), 3, from' 200⟩])))
    (at' 0 [0])).Mem 2 q ↔ q = 101 ∨ q = 103 := by decide +kernel

/-- Member 1 of the root is apart from member 0. -/
example : ∀ P ∈ changes (.set (at' 0 [0]) 3 : NOp Var Nat Nat), P.Apart (at' 0 [1, 0]) := by decide +kernel

end
end Verif.Props
