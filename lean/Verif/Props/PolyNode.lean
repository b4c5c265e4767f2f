import Verif.Proofs.PNodeReach
import Verif.Props.NodePart
import Verif.PNDemo


/-!
# C44, C45, C46, C58, C59, C60 for `polymorphic`

Programs over variables of type `std::optional<polymorphic<Base>>`, where the objects of the hierarchy have a payload and
`K` members of that same type (`Verif/PolyNode.lean`).  `Reach` are the states of all histories of legal statements,
`Shows W s` says that the variables hold the trees `W`; the payload of a node of these trees is its dynamic type and its
value (`Verif/Spec/PolyTree.lean`).
-/

set_option autoImplicit false
set_option linter.unusedSectionVars false
set_option linter.unusedSimpArgs false

namespace Verif.Props
open Verif Verif.PNode
open Verif.Polymorphic (view)

section
variable {N A R Ty V X : Type} [DecidableEq N] [DecidableEq R] [DecidableEq Ty]
variable {tr : ATraits A R} {P : PSpec Ty V X} {K : Nat} {s : PSt N A R Ty V} {W : N → Tree A (Ty × V)}

/-- In every reachable state every variable holds a finite tree. -/
theorem C60_polymorphic_trees (S : tr.Sound) (Rf : tr.Reflexive) (h : Reach tr P K s) :
    ∃ W : N → Tree A (Ty × V), Shows tr.res K W s :=
  (C60_trees S Rf (h.sim S Rf).1).imp fun _ w => Shows.of_view (h.sim S Rf).2.good w

/-- No block belongs to two places of a tree, or to two trees: there is no sharing and no cycle. -/
theorem C60_polymorphic_no_sharing (S : tr.Sound) (Rf : tr.Reflexive) (h : Reach tr P K s)
    (hW : Shows tr.res K W s) :
    (∀ x, (W x).Sep K) ∧ ∀ x y, x ≠ y → ∀ q, (W x).Mem K q → ¬ (W y).Mem K q :=
  C60_no_sharing S Rf (h.sim S Rf).1 hW.to_view

/-- Storage is allocated exactly for the nodes of the variables' trees. -/
theorem C60_polymorphic_allocated_iff_owned (S : tr.Sound) (Rf : tr.Reflexive) (h : Reach tr P K s)
    (hW : Shows tr.res K W s) (q : Addr) : s.heap q ≠ none ↔ ∃ x, (W x).Mem K q := by
  rw [← C60_allocated_iff_owned S Rf (h.sim S Rf).1 hW.to_view q]
  exact not_congr view_none.symm

/-- The trees determine objects and storage completely, control blocks included. -/
theorem C60_polymorphic_determined (S : tr.Sound) (Rf : tr.Reflexive) {s' : PSt N A R Ty V} (h : Reach tr P K s)
    (h' : Reach tr P K s') (hW : Shows tr.res K W s) (hW' : Shows tr.res K W s') :
    s.heap = s'.heap ∧ s.hs = s'.hs := by
  have := C60_determined S Rf (h.sim S Rf).1 (h'.sim S Rf).1 hW.to_view hW'.to_view
  exact ⟨funext fun q => eq_of_view S Rf ((h.sim S Rf).1.world S Rf hW.to_view) (h.sim S Rf).2.good
    ((h'.sim S Rf).1.world S Rf hW'.to_view) (h'.sim S Rf).2.good (congrFun this.1 q), this.2⟩

/-- Every legal statement does to the trees what the specification says, or throws and does to them what the
specification says for that case; there is no undefined behaviour and no unbounded recursion, and `std::terminate` is
called only by move assignments in the case of finding 2. -/
theorem C58_polymorphic_statements (S : tr.Sound) (Rf : tr.Reflexive) (h : Reach tr P K s)
    (hW : Shows tr.res K W s) (c : PCall N A Ty X) (hL : Node.Legal tr K W c.depth c.op.asN) :
    match call tr P K c s with
    | .ok _ s' => ∃ W', Node.Step tr P.owned K W c.op.asN W' ∧ Shows tr.res K W' s'
    | .threw _ s' => ∃ W', Node.Failed tr P.owned W c.op.asN W' ∧ Shows tr.res K W' s'
    | .terminated => Node.MayTerminate tr K W c.op.asN
    | .ub _ => False
    | .diverged => False := by
  have h1 := h.call S Rf hW c hL
  have h2 := C58_statements S Rf (h.sim S Rf).1 hW.to_view c.asN hL
  revert h1
  cases call tr P K c s with
  | ok a t =>
    rintro ⟨G, e⟩
    rw [e] at h2
    exact h2.imp fun W' h => ⟨h.1, Shows.of_view G.good h.2⟩
  | threw x t =>
    rintro ⟨G, e⟩
    rw [e] at h2
    exact h2.imp fun W' h => ⟨h.1, Shows.of_view G.good h.2⟩
  | terminated => intro e; rw [e] at h2; exact h2
  | ub u => exact id
  | diverged => exact id

/-- Copy assignment between places that are apart: the tree is replaced by a deep copy in new storage - every node has the
dynamic type of its original and was made by the copy constructor of that type - with the allocator that propagation
selects.  If anything throws, nothing has changed. -/
theorem C58_polymorphic_copy_assignment (S : tr.Sound) (Rf : tr.Reflexive) (h : Reach tr P K s)
    (hW : Shows tr.res K W s) {p q : Path N} {n : Nat} (hp : Node.Live K W p) (hq : Node.Live K W q)
    (hnp : Node.Fits K n W p) (hnq : Node.Fits K n W q) (hA : p.Apart q) (e : Env) :
    match call tr P K (⟨.assign p q, n, e⟩ : PCall N A Ty X) s with
    | .ok _ s' => ∃ t, (Node.treeAt W q).Copy (Copied P) tr.socc K
          (if tr.pocca then (Node.treeAt W q).allocOr tr.dflt else (Node.treeAt W p).allocOr tr.dflt) t ∧
        (∀ b, t.Mem K b → s.heap b = none) ∧ Shows tr.res K (Node.putAt W p t) s'
    | .threw _ s' => s'.heap = s.heap ∧ s'.hs = s.hs
    | _ => False := by
  have hL : Node.Legal tr K W n (Stmt.asN (.assign p q : Stmt N A Ty X)) := ⟨hp, hq, hnp, hnq, Or.inr hA⟩
  have hne : p ≠ q := by
    rintro rfl
    rcases hA with h | ⟨h, _⟩
    · exact h rfl
    · exact h List.prefix_rfl
  have h1 := C58_polymorphic_statements S Rf h hW ⟨.assign p q, n, e⟩ hL
  cases hr : call tr P K (⟨.assign p q, n, e⟩ : PCall N A Ty X) s with
  | ok a t =>
    rw [hr] at h1
    obtain ⟨W', h1, h2⟩ := h1
    simp only [Stmt.asN, Node.Step, hne, if_false] at h1
    obtain ⟨t', -, hal, -, hc, rfl⟩ := h1
    obtain ⟨hc, hf⟩ := hc not_inPlace
    rw [hal] at hc
    refine ⟨t', hc.mono fun _ _ => copied_owned.1, fun b hb => ?_, h2⟩
    exact Classical.byContradiction fun hx =>
      ((C60_polymorphic_allocated_iff_owned S Rf h hW b).1 hx).elim fun x hm => hf b hb x hm
  | threw x t =>
    rw [hr] at h1
    obtain ⟨W', ⟨-, h1⟩, h2⟩ := h1
    rw [h1 not_inPlace] at h2
    exact C60_polymorphic_determined S Rf (.threw h hW hL hr) h h2 hW
  | terminated => rw [hr] at h1; exact h1
  | ub u => rw [hr] at h1; exact h1
  | diverged => rw [hr] at h1; exact h1

/-- Whatever a statement does, and also if it throws, trees at places that are apart from the places it changes are
exactly what they were, down to their addresses. -/
theorem C59_polymorphic_apart_unchanged (S : tr.Sound) (Rf : tr.Reflexive) (h : Reach tr P K s)
    (hW : Shows tr.res K W s) (c : PCall N A Ty X) (hL : Node.Legal tr K W c.depth c.op.asN) :
    match call tr P K c s with
    | .ok _ s' => ∃ W', Shows tr.res K W' s' ∧
        ∀ z : Path N, (∀ p ∈ Node.changes c.op.asN, p.Apart z) → Node.treeAt W' z = Node.treeAt W z
    | .threw _ s' => ∃ W', Shows tr.res K W' s' ∧
        ∀ z : Path N, (∀ p ∈ Node.changes c.op.asN, p.Apart z) → Node.treeAt W' z = Node.treeAt W z
    | _ => True := by
  have := C58_polymorphic_statements S Rf h hW c hL
  revert this
  cases call tr P K c s with
  | ok a s' => rintro ⟨W', h1, h2⟩; exact ⟨W', h2, fun z hz => Node.Step.apart h1 hz⟩
  | threw e s' => rintro ⟨W', h1, h2⟩; exact ⟨W', h2, fun z hz => Node.Failed.apart h1 hz⟩
  | terminated => intro _; trivial
  | ub u => intro _; trivial
  | diverged => intro _; trivial

/-- Copying the tree at `q` into the empty place `p`: the result is a deep copy - same shape, every node of the dynamic
type of its original and made by the copy constructor of that type, allocators selected - made entirely of new blocks, and
nothing else changes.  If it throws, nothing has changed. -/
theorem C44_polymorphic_deep_copy (S : tr.Sound) (Rf : tr.Reflexive) (h : Reach tr P K s)
    (hW : Shows tr.res K W s) {p q : Path N} {n : Nat} (hp : Node.Empty K W p) (hq : Node.Live K W q)
    (hn : Node.Fits K n W q) (e : Env) :
    match call tr P K (⟨.copy p q, n, e⟩ : PCall N A Ty X) s with
    | .ok _ s' => ∃ t, (Node.treeAt W q).Copy (Copied P) tr.socc K (tr.socc ((Node.treeAt W q).allocOr tr.dflt)) t ∧
        (∀ b, t.Mem K b → s.heap b = none) ∧ Shows tr.res K (Node.putAt W p t) s'
    | .threw _ s' => s'.heap = s.heap ∧ s'.hs = s.hs
    | _ => False := by
  have hL : Node.Legal tr K W n (Stmt.asN (.copy p q : Stmt N A Ty X)) := ⟨hp, hq, hn⟩
  have h1 := C58_polymorphic_statements S Rf h hW ⟨.copy p q, n, e⟩ hL
  cases hr : call tr P K (⟨.copy p q, n, e⟩ : PCall N A Ty X) s with
  | ok a t =>
    rw [hr] at h1
    obtain ⟨_, ⟨t', hc, hf, rfl⟩, h2⟩ := h1
    refine ⟨t', hc.mono fun _ _ => copied_owned.1, fun b hb => ?_, h2⟩
    exact Classical.byContradiction fun hx =>
      ((C60_polymorphic_allocated_iff_owned S Rf h hW b).1 hx).elim fun x hm => hf b hb x hm
  | threw x t =>
    rw [hr] at h1
    obtain ⟨W', h1, h2⟩ := h1
    have h1 : W' = W := h1
    rw [h1] at h2
    exact C60_polymorphic_determined S Rf (.threw h hW hL hr) h h2 hW
  | terminated => rw [hr] at h1; exact h1
  | ub u => rw [hr] at h1; exact h1
  | diverged => rw [hr] at h1; exact h1

/-- The same for the copy constructor with an allocator. -/
theorem C44_polymorphic_deep_copy_with_allocator (S : tr.Sound) (Rf : tr.Reflexive) (h : Reach tr P K s)
    (hW : Shows tr.res K W s) {p q : Path N} {n : Nat} (a : A) (hp : Node.Empty K W p) (hq : Node.Live K W q)
    (hn : Node.Fits K n W q) (e : Env) :
    match call tr P K (⟨.copyA p a q, n, e⟩ : PCall N A Ty X) s with
    | .ok _ s' => ∃ t, (Node.treeAt W q).Copy (Copied P) tr.socc K a t ∧
        (∀ b, t.Mem K b → s.heap b = none) ∧ Shows tr.res K (Node.putAt W p t) s'
    | .threw _ s' => s'.heap = s.heap ∧ s'.hs = s.hs
    | _ => False := by
  have hL : Node.Legal tr K W n (Stmt.asN (.copyA p a q : Stmt N A Ty X)) := ⟨hp, hq, hn⟩
  have h1 := C58_polymorphic_statements S Rf h hW ⟨.copyA p a q, n, e⟩ hL
  cases hr : call tr P K (⟨.copyA p a q, n, e⟩ : PCall N A Ty X) s with
  | ok _ t =>
    rw [hr] at h1
    obtain ⟨_, ⟨t', hc, hf, rfl⟩, h2⟩ := h1
    refine ⟨t', hc.mono fun _ _ => copied_owned.1, fun b hb => ?_, h2⟩
    exact Classical.byContradiction fun hx =>
      ((C60_polymorphic_allocated_iff_owned S Rf h hW b).1 hx).elim fun x hm => hf b hb x hm
  | threw x t =>
    rw [hr] at h1
    obtain ⟨W', h1, h2⟩ := h1
    have h1 : W' = W := h1
    rw [h1] at h2
    exact C60_polymorphic_determined S Rf (.threw h hW hL hr) h h2 hW
  | terminated => rw [hr] at h1; exact h1
  | ub u => rw [hr] at h1; exact h1
  | diverged => rw [hr] at h1; exact h1

/-- Destroying the `polymorphic` at `p` never fails.  It destroys the nodes below `p` and frees their blocks, in the order
given by `teardown`, and empties the place; other storage is not touched. -/
theorem C45_polymorphic_destroy (S : tr.Sound) (Rf : tr.Reflexive) (h : Reach tr P K s) (hW : Shows tr.res K W s)
    {p : Path N} {n : Nat} (hp : Node.Live K W p) (hn : Node.Fits K n W p) (e : Env) :
    ∃ s', call tr P K (⟨.drop p, n, e⟩ : PCall N A Ty X) s = .ok () s' ∧
      Shows tr.res K (Node.putAt W p .absent) s' ∧
      s'.trace = s.trace ++ (Node.treeAt W p).teardown tr.res K ∧
      (∀ q, (Node.treeAt W p).Mem K q → s'.heap q = none) ∧
      (∀ q, ¬ (Node.treeAt W p).Mem K q → s'.heap q = s.heap q) := by
  have hL : Node.Legal tr K W n (Stmt.asN (.drop p : Stmt N A Ty X)) := ⟨hp, hn⟩
  have h1 := h.call S Rf hW ⟨.drop p, n, e⟩ hL
  obtain ⟨w', h2, h3, h4, h5, h6⟩ := C45_destroy (X := Ty × TArgs X) (T := P.owned) S Rf (h.sim S Rf).1 hW.to_view
    hp hn e
  have hc : Node.call tr P.owned K (PCall.asN (⟨.drop p, n, e⟩ : PCall N A Ty X)) (view s) = .ok () w' := h2
  cases hr : call tr P K (⟨.drop p, n, e⟩ : PCall N A Ty X) s with
  | ok a t =>
    rw [hr] at h1
    obtain ⟨G, h1⟩ := h1
    rw [hc] at h1
    cases h1
    have hW' := Shows.of_view G.good h3
    have ht : Reach tr P K t := .ok h hW hL hr
    refine ⟨t, rfl, hW', h4, fun q hm => view_none.1 (h5 q hm), fun q hm => ?_⟩
    exact eq_of_view S Rf ((ht.sim S Rf).1.world S Rf h3) G.good ((h.sim S Rf).1.world S Rf hW.to_view)
      (h.sim S Rf).2.good (h6 q hm)
  | threw x t => rw [hr] at h1; rw [hc] at h1; exact nomatch h1.2
  | terminated => rw [hr] at h1; rw [hc] at h1; exact nomatch h1
  | ub u => rw [hr] at h1; exact h1.elim
  | diverged => rw [hr] at h1; exact h1.elim

/-- In that teardown every node is destroyed exactly once and every block is freed exactly once; no other block is
mentioned. -/
theorem C45_polymorphic_exactly_once (S : tr.Sound) (Rf : tr.Reflexive) (h : Reach tr P K s)
    (hW : Shows tr.res K W s) {p : Path N} (hp : Node.Live K W p) (q : Addr) :
    ((Node.treeAt W p).Mem K q → Spec.deallocsAt q ((Node.treeAt W p).teardown tr.res K) = 1 ∧
      Spec.destroysAt q ((Node.treeAt W p).teardown tr.res K) = 1) ∧
    (¬ (Node.treeAt W p).Mem K q → Spec.deallocsAt q ((Node.treeAt W p).teardown tr.res K) = 0 ∧
      Spec.destroysAt q ((Node.treeAt W p).teardown tr.res K) = 0) :=
  C45_exactly_once S Rf (h.sim S Rf).1 hW.to_view hp q

/-- The trace of a history obeys the life cycle of storage and objects, and describes what is allocated and alive
afterwards. -/
theorem C45_polymorphic_lifecycle (S : tr.Sound) (Rf : tr.Reflexive) (h : Reach tr P K s) :
    ∃ m, Spec.lives s.trace = some m ∧ ∀ p, m p = (s.heap p).map fun c => ⟨c.arena, c.body.isSome⟩ := by
  obtain ⟨m, h1, h2⟩ := C45_lifecycle (h.sim S Rf).1
  refine ⟨m, h1, fun p => (h2 p).trans ?_⟩
  by_cases hq : s.heap p = none
  · rw [hq, view_none.2 hq]; rfl
  · obtain ⟨W, hW⟩ := C60_polymorphic_trees S Rf h
    obtain ⟨x, hm⟩ := (C60_polymorphic_allocated_iff_owned S Rf h hW p).1 hq
    obtain ⟨r, v, hf⟩ := holds_full (hW x) hm
    rw [hf, view_of_full hf]; rfl

/-- A throw in the middle of a copy frees exactly what the copy had allocated and destroys exactly what it had
constructed; objects and storage are as before. -/
theorem C45_polymorphic_partial_copy_undone (S : tr.Sound) (Rf : tr.Reflexive) (h : Reach tr P K s)
    (hW : Shows tr.res K W s) {p q : Path N} {n : Nat} (hp : Node.Empty K W p) (hq : Node.Live K W q)
    (hn : Node.Fits K n W q) {e : Env} {x : Exn} {s' : PSt N A R Ty V}
    (hr : call tr P K (⟨.copy p q, n, e⟩ : PCall N A Ty X) s = .threw x s') :
    s'.heap = s.heap ∧ s'.hs = s.hs ∧ ∃ evs, s'.trace = s.trace ++ evs ∧
      ∀ q, Spec.allocsAt q evs = Spec.deallocsAt q evs ∧ Spec.constructsAt q evs = Spec.destroysAt q evs := by
  have h1 := C44_polymorphic_deep_copy S Rf h hW hp hq hn e
  rw [hr] at h1
  have h2 := h.call S Rf hW ⟨.copy p q, n, e⟩ ⟨hp, hq, hn⟩
  rw [hr] at h2
  obtain ⟨-, -, h3⟩ := C45_partial_copy_undone (X := Ty × TArgs X) (T := P.owned) S Rf (h.sim S Rf).1 hW.to_view hp hq hn
    h2.2
  exact ⟨h1.1, h1.2, h3⟩

/-- Once all variables are empty nothing is left: no storage, no `polymorphic` anywhere; over the whole history every
block was freed as often as it was allocated, and as many nodes were destroyed in it as were constructed there. -/
theorem C45_polymorphic_no_leak (S : tr.Sound) (Rf : tr.Reflexive) (h : Reach tr P K s)
    (hend : ∀ x, s.hs (.var x) = none) :
    (∀ q, s.heap q = none) ∧ (∀ l, s.hs l = none) ∧
    ∀ q, Spec.allocsAt q s.trace = Spec.deallocsAt q s.trace ∧
      Spec.constructsAt q s.trace = Spec.destroysAt q s.trace := by
  obtain ⟨h1, h2, h3⟩ := C45_no_leak S Rf (h.sim S Rf).1 hend
  exact ⟨fun q => view_none.1 (h1 q), h2, h3⟩

/-! ### Assignment of a tree from a part of itself -/

/-- Negation of C46.  Move assignment from a part that holds a value, with equal allocators, is always undefined
behaviour: whatever the tree and wherever the part is. -/
theorem C46_polymorphic_move_from_part_undefined (S : tr.Sound) (Rf : tr.Reflexive) (h : Reach tr P K s)
    (hW : Shows tr.res K W s) {p : Path N} {way : List Nat} {n : Nat} (hway : way ≠ [])
    (hQ : Node.Live K W (Node.below p way)) (hn : Node.Fits K n W p) {q : Addr} {b : A} {v : Ty × V}
    {js : Nat → Tree A (Ty × V)} (hval : Node.treeAt W (Node.below p way) = .node q b v js)
    (heq : tr.eq ((Node.treeAt W p).allocOr tr.dflt) b = true) (e : Env) :
    ∃ u, call tr P K (⟨.moveAssign p (Node.below p way), n, e⟩ : PCall N A Ty X) s = .ub u := by
  have h1 : Node.call tr P.owned K (PCall.asN (⟨.moveAssign p (Node.below p way), n, e⟩ : PCall N A Ty X)) (view s) =
      .ub .deadObject := C46_move_from_part_undefined S Rf (h.sim S Rf).1 hW.to_view hway hQ hn hval heq e
  have h2 := call_of (tr := tr) (P := P) (K := K) (h.sim S Rf).2
    (⟨.moveAssign p (Node.below p way), n, e⟩ : PCall N A Ty X)
  rw [h1] at h2
  revert h2
  cases call tr P K (⟨.moveAssign p (Node.below p way), n, e⟩ : PCall N A Ty X) s with
  | ok a t => exact fun h => nomatch h.2
  | threw x t => exact fun h => nomatch h.2
  | terminated => exact fun h => nomatch h
  | ub u => exact fun _ => ⟨u, rfl⟩
  | diverged => exact fun h => nomatch h

/-- Negation of C46.  If allocators propagate on move assignment, move assignment from a part never completes: it is
undefined behaviour or calls `std::terminate`. -/
theorem C46_polymorphic_move_from_part_never_completes (S : tr.Sound) (Rf : tr.Reflexive) (h : Reach tr P K s)
    (hW : Shows tr.res K W s) (hp : tr.pocma = true) {p : Path N} {way : List Nat} {n : Nat} (hway : way ≠ [])
    (hQ : Node.Live K W (Node.below p way)) (hn : Node.Fits K n W p) (e : Env) :
    match call tr P K (⟨.moveAssign p (Node.below p way), n, e⟩ : PCall N A Ty X) s with
    | .ub _ => True
    | .terminated => True
    | _ => False := by
  have h1 := C46_move_from_part_never_completes (X := Ty × TArgs X) (T := P.owned) S Rf (h.sim S Rf).1 hW.to_view hp hway hQ hn e
  have h2 := call_of (tr := tr) (P := P) (K := K) (h.sim S Rf).2
    (⟨.moveAssign p (Node.below p way), n, e⟩ : PCall N A Ty X)
  revert h2
  have hv : Node.call tr P.owned K (PCall.asN (⟨.moveAssign p (Node.below p way), n, e⟩ : PCall N A Ty X)) (view s) =
    Node.call tr P.owned K (⟨.moveAssign p (Node.below p way), n, e⟩ : Node.NCall N A (Ty × TArgs X)) (view s) := rfl
  rw [hv]
  cases call tr P K (⟨.moveAssign p (Node.below p way), n, e⟩ : PCall N A Ty X) s with
  | ok a t => rintro ⟨_, e⟩; rw [e] at h1; exact h1
  | threw x t => rintro ⟨G, e⟩; rw [e] at h1; exact h1
  | terminated => intro _; trivial
  | ub u => exact id
  | diverged => intro e; rw [e] at h1; exact h1

/-- C46 for move assignment, where it is true: allocators do not propagate, and the part is valueless or its allocator is
unequal.  Then the part's tree, moved, replaces the tree; if moving throws, only the part's value has changed.  Missing:
everything else, see the two theorems above. -/
theorem C46_polymorphic_move_from_part_partial (S : tr.Sound) (Rf : tr.Reflexive) (h : Reach tr P K s)
    (hW : Shows tr.res K W s) (hp : tr.pocma = false) {p : Path N} {way : List Nat} {n : Nat} (hway : way ≠ [])
    (hQ : Node.Live K W (Node.below p way)) (hn : Node.Fits K n W p)
    (hcase : (∃ b, Node.treeAt W (Node.below p way) = .hollow b) ∨
      tr.eq ((Node.treeAt W p).allocOr tr.dflt) ((Node.treeAt W (Node.below p way)).allocOr tr.dflt) = false) (e : Env) :
    match call tr P K (⟨.moveAssign p (Node.below p way), n, e⟩ : PCall N A Ty X) s with
    | .ok _ s' => ∃ t, (Node.treeAt W (Node.below p way)).Like (MovedTo P) K t ∧
        t.allocOr tr.dflt = (Node.treeAt W p).allocOr tr.dflt ∧ Shows tr.res K (Node.putAt W p t) s'
    | .threw _ s' => ∃ q b v v' js, Node.treeAt W (Node.below p way) = .node q b v js ∧
        Shows tr.res K (Node.putAt W p ((Node.treeAt W p).put way (.node q b v' js))) s'
    | .terminated => tr.alwaysEqual = true
    | _ => False := by
  have key := fun e => C46_move_from_part_partial (X := Ty × TArgs X) (T := P.owned) S Rf (h.sim S Rf).1 hW.to_view hp
    hway hQ hn hcase e
  have h1 := call_sim (h.sim S Rf).2 (⟨.moveAssign p (Node.below p way), n, e⟩ : PCall N A Ty X) fun e => by
    have := key e
    revert this
    show _ → match Node.call tr P.owned K (⟨.moveAssign p (Node.below p way), n, e⟩ : Node.NCall N A (Ty × TArgs X))
      (view s) with | .ub _ => False | .diverged => False | _ => True
    cases Node.call tr P.owned K (⟨.moveAssign p (Node.below p way), n, e⟩ : Node.NCall N A (Ty × TArgs X)) (view s) <;>
      simp
  have h2 := key e
  revert h1
  cases call tr P K (⟨.moveAssign p (Node.below p way), n, e⟩ : PCall N A Ty X) s with
  | ok a t =>
    rintro ⟨G, h1⟩
    have h1 : Node.call tr P.owned K (⟨.moveAssign p (Node.below p way), n, e⟩ : Node.NCall N A (Ty × TArgs X))
      (view s) = _ := h1
    rw [h1] at h2
    obtain ⟨t', h3, h4, h5⟩ := h2
    exact ⟨t', h3.mono fun _ _ => movedTo_owned.1, h4, Shows.of_view G.good h5⟩
  | threw x t =>
    rintro ⟨G, h1⟩
    have h1 : Node.call tr P.owned K (⟨.moveAssign p (Node.below p way), n, e⟩ : Node.NCall N A (Ty × TArgs X))
      (view s) = _ := h1
    rw [h1] at h2
    obtain ⟨q, b, v, v', js, h3, h4⟩ := h2
    exact ⟨q, b, v, v', js, h3, Shows.of_view G.good h4⟩
  | terminated =>
    intro h1
    have h1 : Node.call tr P.owned K (⟨.moveAssign p (Node.below p way), n, e⟩ : Node.NCall N A (Ty × TArgs X))
      (view s) = _ := h1
    rw [h1] at h2
    exact h2
  | ub u => exact id
  | diverged => exact id

/-- C46 for copy assignment, if allocators do not propagate: always right, wherever the part is.  The tree is replaced by
a deep copy of the part in new storage and keeps its allocator; if it throws, nothing has changed. -/
theorem C46_polymorphic_copy_from_part (S : tr.Sound) (Rf : tr.Reflexive) (h : Reach tr P K s)
    (hW : Shows tr.res K W s) (hp : tr.pocca = false) {p : Path N} {way : List Nat} {n : Nat} (hway : way ≠ [])
    (hQ : Node.Live K W (Node.below p way)) (hn : Node.Fits K n W p) (e : Env) :
    match call tr P K (⟨.assign p (Node.below p way), n, e⟩ : PCall N A Ty X) s with
    | .ok _ s' => ∃ t, (Node.treeAt W (Node.below p way)).Copy (Copied P) tr.socc K
          ((Node.treeAt W p).allocOr tr.dflt) t ∧
        (∀ q, t.Mem K q → s.heap q = none) ∧ Shows tr.res K (Node.putAt W p t) s'
    | .threw _ s' => s'.heap = s.heap ∧ s'.hs = s.hs
    | _ => False := by
  have key := fun e => C46_copy_from_part_replaced (X := Ty × TArgs X) (T := P.owned) S Rf (h.sim S Rf).1 hW.to_view hp
    hway hQ hn not_inPlace e
  have h1 := call_sim (h.sim S Rf).2 (⟨.assign p (Node.below p way), n, e⟩ : PCall N A Ty X) fun e => by
    have := key e
    revert this
    show _ → match Node.call tr P.owned K (⟨.assign p (Node.below p way), n, e⟩ : Node.NCall N A (Ty × TArgs X))
      (view s) with | .ub _ => False | .diverged => False | _ => True
    cases Node.call tr P.owned K (⟨.assign p (Node.below p way), n, e⟩ : Node.NCall N A (Ty × TArgs X)) (view s) <;>
      simp
  have h2 := key e
  revert h1
  cases call tr P K (⟨.assign p (Node.below p way), n, e⟩ : PCall N A Ty X) s with
  | ok a t =>
    rintro ⟨G, h1⟩
    have h1 : Node.call tr P.owned K (⟨.assign p (Node.below p way), n, e⟩ : Node.NCall N A (Ty × TArgs X))
      (view s) = _ := h1
    rw [h1] at h2
    obtain ⟨t', h3, h4, h5⟩ := h2
    exact ⟨t', h3.mono fun _ _ => copied_owned.1, fun q hm => view_none.1 (h4 q hm), Shows.of_view G.good h5⟩
  | threw x t =>
    rintro ⟨G, h1⟩
    have h1 : Node.call tr P.owned K (⟨.assign p (Node.below p way), n, e⟩ : Node.NCall N A (Ty × TArgs X))
      (view s) = _ := h1
    rw [h1] at h2
    obtain ⟨h3, h4⟩ := h2
    have w := (h.sim S Rf).1.world S Rf hW.to_view
    exact ⟨funext fun q => eq_of_view S Rf (world_congr w h3 h4) G.good w (h.sim S Rf).2.good (by rw [h3]), h4⟩
  | terminated =>
    intro h1
    have h1 : Node.call tr P.owned K (⟨.assign p (Node.below p way), n, e⟩ : Node.NCall N A (Ty × TArgs X))
      (view s) = _ := h1
    rw [h1] at h2
    exact h2
  | ub u => exact id
  | diverged => exact id

/-- Negation of C46.  If allocators propagate on copy assignment, copy assignment from a part never completes: it is
undefined behaviour, unless it throws before. -/
theorem C46_polymorphic_copy_from_part_never_completes (S : tr.Sound) (Rf : tr.Reflexive) (h : Reach tr P K s)
    (hW : Shows tr.res K W s) (hp : tr.pocca = true) {p : Path N} {way : List Nat} {n : Nat} (hway : way ≠ [])
    (hQ : Node.Live K W (Node.below p way)) (hn : Node.Fits K n W p) (e : Env) :
    match call tr P K (⟨.assign p (Node.below p way), n, e⟩ : PCall N A Ty X) s with
    | .ub _ => True
    | .threw _ s' => ∃ t, t ≠ .absent ∧ Shows tr.res K (Node.putAt W p t) s'
    | _ => False := by
  have h1 := C46_copy_from_part_never_completes (X := Ty × TArgs X) (T := P.owned) S Rf (h.sim S Rf).1 hW.to_view hp hway
    hQ hn e
  have h2 := call_of (tr := tr) (P := P) (K := K) (h.sim S Rf).2
    (⟨.assign p (Node.below p way), n, e⟩ : PCall N A Ty X)
  revert h2
  have hv : Node.call tr P.owned K (PCall.asN (⟨.assign p (Node.below p way), n, e⟩ : PCall N A Ty X)) (view s) =
    Node.call tr P.owned K (⟨.assign p (Node.below p way), n, e⟩ : Node.NCall N A (Ty × TArgs X)) (view s) := rfl
  rw [hv]
  cases call tr P K (⟨.assign p (Node.below p way), n, e⟩ : PCall N A Ty X) s with
  | ok a t => rintro ⟨_, e⟩; rw [e] at h1; exact h1
  | threw x t => rintro ⟨G, e⟩; rw [e] at h1; exact h1.imp fun _ h => ⟨h.1, Shows.of_view G.good h.2⟩
  | terminated => intro e; rw [e] at h1; exact h1
  | ub u => exact id
  | diverged => intro e; rw [e] at h1; exact h1

end

/-! ### The hypotheses are met -/
section
open PNDemo
open Verif.NDemo (Var at' from' short)

/-- A tree of four nodes of three dynamic types, with a valueless member, can be copied into the other variable. -/
example : Reach tr0 PDemo.P 2 (s0 tr0) ∧ Shows tr0.res 2 (trees (s0 tr0)) (s0 tr0) := ⟨s0_reach tr0, by decide +kernel⟩

example : Node.Empty 2 (trees (s0 tr0)) (at' 1 []) ∧ Node.Live 2 (trees (s0 tr0)) (at' 0 []) ∧
    Node.Fits 2 3 (trees (s0 tr0)) (at' 0 []) := by decide +kernel

/-- The copy is in blocks 200 to 203. -/
example : Shows tr0.res 2 (trees s1) s1 ∧ (∀ q < 210, (trees s1 1).Mem 2 q ↔ 200 ≤ q ∧ q < 204) := by decide +kernel

/-- The third allocation of the copy fails: the call throws. -/
example : outcome (call tr0 PDemo.P 2 (⟨.copy (at' 1 []) (at' 0 []), 3, short 200 2⟩ : PCall Var Nat Nat Nat)
    (s0 tr0)) = 1 := by decide +kernel

/-- Statements of every kind are legal in that state. -/
example : (∀ o ∈ ([.make (at' 1 []) 5 1 [1], .copy (at' 0 [1, 1]) (at' 0 []), .copyA (at' 1 []) 6 (at' 0 [0]),
      .moveA (at' 1 []) 6 (at' 0 [1]), .move (at' 1 []) (at' 0 [0]), .drop (at' 0 [1]),
      .assign (at' 0 [0]) (at' 0 [1]), .moveAssign (at' 0 [0]) (at' 0 [1]),
      .swap (at' 0 [0]) (at' 0 [1])] : List (Stmt Var Nat Nat Nat)),
    Node.Legal tr0 2 (trees (s0 tr0)) 4 o.asN) := by decide +kernel

/-- The members 0 and 1 of the root are apart; assigning the one to the other returns, or throws if memory is short. -/
example : (at' 0 [0]).Apart (at' 0 [1]) ∧
    outcome (call tr0 PDemo.P 2 (⟨.assign (at' 0 [0]) (at' 0 [1]), 3, from' 200⟩ : PCall Var Nat Nat Nat) (s0 tr0)) = 0 ∧
    outcome (call tr0 PDemo.P 2 (⟨.assign (at' 0 [0]) (at' 0 [1]), 3, short 200 1⟩ : PCall Var Nat Nat Nat) (s0 tr0)) = 1 := by
  decide +kernel

/-- The whole tree is destroyed; nothing is left. -/
example : ∀ x, (after tr0 2 (build ++ [⟨.drop (at' 0 []), 3, from' 200⟩])).hs (.var x) = none := by decide +kernel

/-- `x = std::move(*x->m_0)`, with equal allocators, is undefined behaviour. -/
theorem C46_polymorphic_witness_move :
    outcome (call tr0 PDemo.P 2 (⟨.moveAssign (at' 0 []) (at' 0 [0]), 3, from' 200⟩ : PCall Var Nat Nat Nat)
      (s0 tr0)) = 3 := by decide +kernel

/-- `x = *x->m_0` with allocators that propagate is undefined behaviour, too. -/
theorem C46_polymorphic_witness_copy :
    outcome (call (Demo.alloc true true true) PDemo.P 2
      (⟨.assign (at' 0 []) (at' 0 [0]), 3, from' 200⟩ : PCall Var Nat Nat Nat) (s0 (Demo.alloc true true true))) = 3 := by
  decide +kernel

/-- Without propagation it succeeds. -/
example : outcome (call tr0 PDemo.P 2 (⟨.assign (at' 0 []) (at' 0 [0]), 3, from' 200⟩ : PCall Var Nat Nat Nat)
    (s0 tr0)) = 0 ∧ Node.Live 2 (trees (s0 tr0)) (Node.below (at' 0 []) [0]) := by decide +kernel

/-- Move assignment from a valueless part and from a part with an unequal allocator succeed. -/
example : outcome (call tr0 PDemo.P 2 (⟨.moveAssign (at' 0 []) (at' 0 [0, 1]), 3, from' 200⟩ : PCall Var Nat Nat Nat)
      (s0 tr0)) = 0 ∧
    outcome (call tr0 PDemo.P 2 (⟨.moveAssign (at' 0 []) (at' 0 [1, 0]), 3, from' 200⟩ : PCall Var Nat Nat Nat)
      (s0 tr0)) = 0 := by decide +kernel

end
end Verif.Props
