import Verif.Proofs.NodeSelf
import Verif.NDemo

/-!
# C46: assignment of a tree from a part of itself

`*P = std::move(*Q)` and `*P = *Q` where `Q` is inside the tree at `P`, for instance
`x = std::move(*x->child)`.  The property of the list - such an assignment replaces the tree by the part -
is false: the theorems `…_undefined` and `…_never_completes` say when, and there are concrete cases at the
end.  The theorems `…_partial` say when it is true.
-/

set_option autoImplicit false
set_option linter.unusedSectionVars false
set_option linter.unusedSimpArgs false

namespace Verif.Props
open Verif Verif.Node

section
variable {N A R V X : Type} [DecidableEq N] [DecidableEq R]
variable {tr : ATraits A R} {T : TSpec V X} {K : Nat} {s : NSt N A R V} {W : N → Tree A V}

private theorem parts (w : World tr.res K W s) {P : Path N} {way : List Nat} (hQ : Live K W (below P way)) :
    Exists K W P ∧ (treeAt W P).Has K way ∧ treeAt W (below P way) = (treeAt W P).at' way ∧
    loc W (below P way) = place (loc W P) (treeAt W P) way ∧ (treeAt W P).at' way ≠ .absent := by
  obtain ⟨h1, h2⟩ := has_append P.steps way (W P.root) hQ.1
  have h3 : treeAt W (below P way) = (treeAt W P).at' way := at_append P.steps way (W P.root) h1
  exact ⟨h1, h2, h3, place_append P.steps way _ _ h1, h3 ▸ hQ.2⟩

private theorem run_move (w : World tr.res K W s) {P Q : Path N} (hP : Exists K W P) (hQ : Exists K W Q)
    (n : Nat) (e : Env) :
    call tr T K (⟨.moveAssign P Q, n, e⟩ : NCall N A X) s =
      (Indirect.assignMove tr (ops tr T K n) (loc W P) (loc W Q) >>= fun _ => pure ()) (s.enter e) := by
  show (resolve P >>= fun l => resolve Q >>= fun m => Indirect.assignMove tr (ops tr T K n) l m >>=
    fun _ => pure ()) (s.enter e) = _
  rw [M.bind_ok (resolve_eq (w.enter e) hP), M.bind_ok (resolve_eq (w.enter e) hQ)]

private theorem run_copy (w : World tr.res K W s) {P Q : Path N} (hP : Exists K W P) (hQ : Exists K W Q)
    (n : Nat) (e : Env) :
    call tr T K (⟨.assign P Q, n, e⟩ : NCall N A X) s =
      (Indirect.assignCopy tr (ops tr T K n) (loc W P) (loc W Q) >>= fun _ => pure ()) (s.enter e) := by
  show (resolve P >>= fun l => resolve Q >>= fun m => Indirect.assignCopy tr (ops tr T K n) l m >>=
    fun _ => pure ()) (s.enter e) = _
  rw [M.bind_ok (resolve_eq (w.enter e) hP), M.bind_ok (resolve_eq (w.enter e) hQ)]

/-- Negation of C46.  Move assignment from a part that holds a value, with equal allocators, is always
undefined behaviour: whatever the tree and wherever the part is. -/
theorem C46_move_from_part_undefined (S : tr.Sound) (Rf : tr.Reflexive) (h : Reach tr T K s)
    (hW : Shows tr.res K W s) {P : Path N} {way : List Nat} {n : Nat} (hway : way ≠ [])
    (hQ : Live K W (below P way)) (hn : Fits K n W P) {q : Addr} {b : A} {v : V} {js : Nat → Tree A V}
    (hval : treeAt W (below P way) = .node q b v js)
    (heq : tr.eq ((treeAt W P).allocOr tr.dflt) b = true) (e : Env) :
    call tr T K (⟨.moveAssign P (below P way), n, e⟩ : NCall N A X) s = .ub .deadObject := by
  have w := h.world S Rf hW
  obtain ⟨hP, hr, ht, hl, hna⟩ := parts w hQ
  rw [run_move w hP hQ.1, M.bind_eq, hl]
  obtain ⟨hf, -⟩ := (w.enter e).one hP
  rw [ht] at hval
  cases way with
  | nil => exact absurd rfl hway
  | cons k r =>
    cases hd : treeAt W P with
    | absent => rw [hd] at hr; exact hr.elim
    | hollow c => rw [hd] at hr; exact hr.elim
    | node d c u ks =>
      have := assignMove_inside tr T (n := n) hf (w.enter e).clean hd (by rw [← hd]; exact hr)
        (by rw [hd] at hval; exact hval) (by rw [← hd]; exact hn) (by rw [hd] at heq; exact heq)
      rw [hd] at this
      rw [this]

/-- Negation of C46.  If allocators propagate on move assignment, move assignment from a part never
completes: it is undefined behaviour or calls `std::terminate`. -/
theorem C46_move_from_part_never_completes (S : tr.Sound) (Rf : tr.Reflexive) (h : Reach tr T K s)
    (hW : Shows tr.res K W s) (hp : tr.pocma = true) {P : Path N} {way : List Nat} {n : Nat} (hway : way ≠ [])
    (hQ : Live K W (below P way)) (hn : Fits K n W P) (e : Env) :
    match call tr T K (⟨.moveAssign P (below P way), n, e⟩ : NCall N A X) s with
    | .ub _ => True
    | .terminated => True
    | _ => False := by
  have w := h.world S Rf hW
  cases hval : treeAt W (below P way) with
  | absent => exact absurd hval hQ.2
  | hollow b =>
    obtain ⟨hP, hr, ht, hl, hna⟩ := parts w hQ
    rw [run_move w hP hQ.1, M.bind_eq, hl]
    obtain ⟨hf, -⟩ := (w.enter e).one hP
    rw [ht] at hval
    cases way with
    | nil => exact absurd rfl hway
    | cons k r =>
      rw [(assignMove_hollow_inside tr T (n := n) tr.dflt hf (w.enter e).clean hr hn hval).1 hp]
      trivial
  | node q b v js =>
    by_cases heq : tr.eq ((treeAt W P).allocOr tr.dflt) b = true
    · rw [C46_move_from_part_undefined S Rf h hW hway hQ hn hval heq e]
      trivial
    · obtain ⟨hP, hr, ht, hl, hna⟩ := parts w hQ
      rw [run_move w hP hQ.1, M.bind_eq, hl]
      obtain ⟨hf, -⟩ := (w.enter e).one hP
      rw [ht] at hval
      cases way with
      | nil => exact absurd rfl hway
      | cons k r =>
        rcases (assignMove_make_inside tr T Rf (n := n) tr.dflt hf (w.enter e).clean hr hn hval
          (by simpa using heq)).1 hp with h | h
        · rw [h]; trivial
        · rw [h]; trivial

/-- C46 for move assignment, where it is true: allocators do not propagate, and the part is valueless or its
allocator is unequal.  Then the part's tree, moved, replaces the tree; if moving throws, only the part's
value has changed.  Missing: everything else, see the two theorems above. -/
theorem C46_move_from_part_partial (S : tr.Sound) (Rf : tr.Reflexive) (h : Reach tr T K s)
    (hW : Shows tr.res K W s) (hp : tr.pocma = false) {P : Path N} {way : List Nat} {n : Nat} (hway : way ≠ [])
    (hQ : Live K W (below P way)) (hn : Fits K n W P)
    (hcase : (∃ b, treeAt W (below P way) = .hollow b) ∨
      tr.eq ((treeAt W P).allocOr tr.dflt) ((treeAt W (below P way)).allocOr tr.dflt) = false) (e : Env) :
    match call tr T K (⟨.moveAssign P (below P way), n, e⟩ : NCall N A X) s with
    | .ok _ s' => ∃ t, (treeAt W (below P way)).Like (MovedTo T) K t ∧
        t.allocOr tr.dflt = (treeAt W P).allocOr tr.dflt ∧ Shows tr.res K (putAt W P t) s'
    | .threw _ s' => ∃ q b v v' js, treeAt W (below P way) = .node q b v js ∧
        Shows tr.res K (putAt W P ((treeAt W P).put way (.node q b v' js))) s'
    | .terminated => tr.alwaysEqual = true
    | _ => False := by
  have w := h.world S Rf hW
  obtain ⟨hP, hr, ht, hl, hna⟩ := parts w hQ
  rw [run_move w hP hQ.1, M.bind_eq, hl]
  obtain ⟨hf, hback⟩ := (w.enter e).one hP
  rw [ht] at hcase ⊢
  cases way with
  | nil => exact absurd rfl hway
  | cons k r =>
    cases hval : (treeAt W P).at' (k :: r) with
    | absent => exact absurd hval hna
    | hollow b =>
      obtain ⟨s', h1, c⟩ := (assignMove_hollow_inside tr T (n := n) tr.dflt hf (w.enter e).clean hr hn hval).2 hp
      rw [h1]
      have hw := hback _ _ c
      rw [upd_same] at hw
      exact ⟨_, ⟨_, rfl⟩, rfl, hw.holds⟩
    | node q b v js =>
      rw [hval] at hcase
      have heq : tr.eq ((treeAt W P).allocOr tr.dflt) b = false := hcase.resolve_left (fun ⟨_, h⟩ => by cases h)
      have := (assignMove_make_inside tr T Rf (n := n) tr.dflt hf (w.enter e).clean hr hn hval heq).2 hp
      revert this
      cases Indirect.assignMove tr (ops tr T K n) (loc W P) (place (loc W P) (treeAt W P) (k :: r)) (s.enter e) with
      | ok a s' =>
        rintro ⟨t, c, h1, h2⟩
        have hw := hback _ _ c
        rw [upd_same] at hw
        exact ⟨t, h1, h2, hw.holds⟩
      | threw x s' =>
        rintro ⟨v', c⟩
        have hw := hback _ _ c
        rw [upd_same] at hw
        exact ⟨q, b, v, v', js, rfl, hw.holds⟩
      | terminated => exact id
      | ub u => exact id
      | diverged => exact id

/-- C46 for copy assignment, if allocators do not propagate: whenever the assignment returns, the tree has
been replaced by a copy of the part and the allocator is kept; if it throws, the trees are intact and only the
assigned one has changed.  Missing: it may have undefined behaviour if some member on the way to the part is
not the last of its node. -/
theorem C46_copy_from_part_partial (S : tr.Sound) (Rf : tr.Reflexive) (h : Reach tr T K s)
    (hW : Shows tr.res K W s) (hp : tr.pocca = false) {P : Path N} {way : List Nat} {n : Nat} (hway : way ≠ [])
    (hQ : Live K W (below P way)) (hn : Fits K n W P) (e : Env) :
    match call tr T K (⟨.assign P (below P way), n, e⟩ : NCall N A X) s with
    | .ok _ s' => ∃ t, (treeAt W (below P way)).Like (Given T) K t ∧
        t.allocOr tr.dflt = (treeAt W P).allocOr tr.dflt ∧ Shows tr.res K (putAt W P t) s'
    | .threw _ s' => ∃ t, t ≠ .absent ∧ Shows tr.res K (putAt W P t) s'
    | .ub _ => ¬ LastOnly K way
    | _ => False := by
  have w := h.world S Rf hW
  obtain ⟨hP, hr, ht, hl, hna⟩ := parts w hQ
  rw [run_copy w hP hQ.1, M.bind_eq, hl, ht]
  obtain ⟨hf, hback⟩ := (w.enter e).one hP
  have := alias tr T S hp tr.dflt n (treeAt W P) way (loc W P) _ (s.enter e) rfl hway hf (w.enter e).clean hr hna hn
  revert this
  cases Indirect.assignCopy tr (ops tr T K n) (loc W P) (place (loc W P) (treeAt W P) way) (s.enter e) with
  | ok a s' =>
    rintro ⟨t, c, h1, h2, -⟩
    have hw := hback _ _ c
    rw [upd_same] at hw
    exact ⟨t, h1, h2, hw.holds⟩
  | threw x s' =>
    rintro ⟨t, h1, c⟩
    have hw := hback _ _ c
    rw [upd_same] at hw
    exact ⟨t, h1, hw.holds⟩
  | terminated => exact id
  | ub u => exact fun ⟨m, h1, h2⟩ h3 => by have := h3 m h1; omega
  | diverged => exact id

/-- C46 for copy assignment from a part that is reached through last members only (for instance in a list,
where nodes have one member), if allocators do not propagate: no undefined behaviour. -/
theorem C46_copy_from_last_members (S : tr.Sound) (Rf : tr.Reflexive) (h : Reach tr T K s)
    (hW : Shows tr.res K W s) (hp : tr.pocca = false) {P : Path N} {way : List Nat} {n : Nat} (hway : way ≠ [])
    (hlast : LastOnly K way) (hQ : Live K W (below P way)) (hn : Fits K n W P) (e : Env) :
    match call tr T K (⟨.assign P (below P way), n, e⟩ : NCall N A X) s with
    | .ok _ s' => ∃ t, (treeAt W (below P way)).Like (Given T) K t ∧
        t.allocOr tr.dflt = (treeAt W P).allocOr tr.dflt ∧ Shows tr.res K (putAt W P t) s'
    | .threw _ s' => ∃ t, t ≠ .absent ∧ Shows tr.res K (putAt W P t) s'
    | _ => False := by
  have := C46_copy_from_part_partial (X := X) S Rf h hW hp hway hQ hn e
  revert this
  cases call tr T K (⟨.assign P (below P way), n, e⟩ : NCall N A X) s with
  | ok a s' => exact id
  | threw x s' => exact id
  | terminated => exact id
  | ub u => exact fun h => h hlast
  | diverged => exact id

/-- C46 for copy assignment if the tree is replaced (the value type is not assignable, or the allocators are unequal, or
the part is valueless) and allocators do not propagate: always right, wherever the part is.  The tree is replaced by a deep
copy of the part in new storage; if it throws, nothing has changed. -/
theorem C46_copy_from_part_replaced (S : tr.Sound) (Rf : tr.Reflexive) (h : Reach tr T K s)
    (hW : Shows tr.res K W s) (hp : tr.pocca = false) {P : Path N} {way : List Nat} {n : Nat} (hway : way ≠ [])
    (hQ : Live K W (below P way)) (hn : Fits K n W P)
    (hno : ¬ InPlace tr T (treeAt W P) (treeAt W (below P way))) (e : Env) :
    match call tr T K (⟨.assign P (below P way), n, e⟩ : NCall N A X) s with
    | .ok _ s' => ∃ t, (treeAt W (below P way)).Copy (Copied T) tr.socc K ((treeAt W P).allocOr tr.dflt) t ∧
        (∀ q, t.Mem K q → s.heap q = none) ∧ Shows tr.res K (putAt W P t) s'
    | .threw _ s' => s'.heap = s.heap ∧ s'.hs = s.hs
    | _ => False := by
  have w := h.world S Rf hW
  obtain ⟨hP, hr, ht, hl, hna⟩ := parts w hQ
  rw [run_copy w hP hQ.1, M.bind_eq, hl, ht]
  rw [ht] at hno
  obtain ⟨hf, hback⟩ := (w.enter e).one hP
  cases way with
  | nil => exact absurd rfl hway
  | cons k r =>
    cases hval : (treeAt W P).at' (k :: r) with
    | absent => exact absurd hval hna
    | hollow b =>
      obtain ⟨s', h1, c⟩ := (assignCopy_hollow_inside tr T (n := n) tr.dflt hf (w.enter e).clean hr hn hval).2 hp
      rw [h1]
      have hw := hback _ _ c
      rw [upd_same] at hw
      exact ⟨_, rfl, fun q hm => hm.elim, hw.holds⟩
    | node q b v js =>
      have hno' : (T.assignable && tr.eq ((treeAt W P).allocOr tr.dflt) b) = false := by
        rw [hval] at hno
        cases hd : treeAt W P with
        | absent => rw [hd] at hr; exact hr.elim
        | hollow c => rw [hd] at hr; exact hr.elim
        | node d c u ks =>
          rw [hd] at hno
          cases h1 : T.assignable <;> cases h2 : tr.eq c b <;> simp [Tree.allocOr, h2]
          exact hno ⟨h1, h2⟩
      have := (assignCopy_make_inside tr T (n := n) tr.dflt hf (w.enter e).clean hr hn hval hno').2 hp
      revert this
      cases Indirect.assignCopy tr (ops tr T K n) (loc W P) (place (loc W P) (treeAt W P) (k :: r)) (s.enter e) with
      | ok a s' =>
        rintro ⟨t, c, h1, h2⟩
        have hw := hback _ _ c
        rw [upd_same] at hw
        exact ⟨t, h1, h2, hw.holds⟩
      | threw x s' => exact id
      | terminated => exact id
      | ub u => exact id
      | diverged => exact id

/-- Negation of C46.  If the nodes are assigned (the value type is assignable and the allocators are equal),
copy assignment from a part below a member that is not the last never completes: it is undefined behaviour,
unless it throws before. -/
theorem C46_copy_from_part_undefined (S : tr.Sound) (Rf : tr.Reflexive) (h : Reach tr T K s)
    (hW : Shows tr.res K W s) {P : Path N} {k : Nat} {r : List Nat} {n : Nat}
    (hk : k + 1 < K) (hQ : Live K W (below P (k :: r))) (hn : Fits K n W P) {q : Addr} {b : A} {v : V}
    {js : Nat → Tree A V} (hval : treeAt W (below P (k :: r)) = .node q b v js) (hT : T.assignable = true)
    (heq : tr.eq ((treeAt W P).allocOr tr.dflt) b = true) (e : Env) :
    match call tr T K (⟨.assign P (below P (k :: r)), n, e⟩ : NCall N A X) s with
    | .ub _ => True
    | .threw _ s' => ∃ t, t ≠ .absent ∧ Shows tr.res K (putAt W P t) s'
    | _ => False := by
  have w := h.world S Rf hW
  obtain ⟨hP, hr, ht, hl, hna⟩ := parts w hQ
  rw [run_copy w hP hQ.1, M.bind_eq, hl]
  obtain ⟨hf, hback⟩ := (w.enter e).one hP
  rw [ht] at hval
  have key : PostU True (fun _ _ => False)
      (fun s' => ∃ t', t' ≠ .absent ∧
        Chng tr.res K (· = loc W P) (fun _ => treeAt W P) (upd (fun _ => treeAt W P) (loc W P) t') (s.enter e) s')
      (Indirect.assignCopy tr (ops tr T K n) (loc W P) (place (loc W P) (treeAt W P) (k :: r)) (s.enter e)) := by
    cases hp : tr.pocca with
    | true => exact alias_pocca tr T S hp tr.dflt n _ (k :: r) _ _ _ rfl (by simp) hf (w.enter e).clean hr hna hn
    | false =>
      cases hd : treeAt W P with
      | absent => rw [hd] at hr; exact hr.elim
      | hollow c => rw [hd] at hr; exact hr.elim
      | node d c u ks =>
        rw [hd] at hf hr hval heq
        exact alias_first tr T S hp tr.dflt (ts := fun _ => Tree.node d c u ks) rfl hf (w.enter e).clean hr hval
          (by rw [← hd]; exact hn) hk hT heq
  revert key
  cases Indirect.assignCopy tr (ops tr T K n) (loc W P) (place (loc W P) (treeAt W P) (k :: r)) (s.enter e) with
  | ok a s' => exact id
  | threw x s' =>
    rintro ⟨t, h1, c⟩
    have hw := hback _ _ c
    rw [upd_same] at hw
    exact ⟨t, h1, hw.holds⟩
  | terminated => exact id
  | ub u => exact id
  | diverged => exact id

/-- Negation of C46.  If allocators propagate on copy assignment, copy assignment from a part never completes:
it is undefined behaviour, unless it throws before. -/
theorem C46_copy_from_part_never_completes (S : tr.Sound) (Rf : tr.Reflexive) (h : Reach tr T K s)
    (hW : Shows tr.res K W s) (hp : tr.pocca = true) {P : Path N} {way : List Nat} {n : Nat} (hway : way ≠ [])
    (hQ : Live K W (below P way)) (hn : Fits K n W P) (e : Env) :
    match call tr T K (⟨.assign P (below P way), n, e⟩ : NCall N A X) s with
    | .ub _ => True
    | .threw _ s' => ∃ t, t ≠ .absent ∧ Shows tr.res K (putAt W P t) s'
    | _ => False := by
  have w := h.world S Rf hW
  obtain ⟨hP, hr, ht, hl, hna⟩ := parts w hQ
  rw [run_copy w hP hQ.1, M.bind_eq, hl]
  obtain ⟨hf, hback⟩ := (w.enter e).one hP
  have key := alias_pocca tr T S hp tr.dflt n _ way _ _ _ rfl hway hf (w.enter e).clean hr hna hn
  revert key
  cases Indirect.assignCopy tr (ops tr T K n) (loc W P) (place (loc W P) (treeAt W P) way) (s.enter e) with
  | ok a s' => exact id
  | threw x s' =>
    rintro ⟨t, h1, c⟩
    have hw := hback _ _ c
    rw [upd_same] at hw
    exact ⟨t, h1, hw.holds⟩
  | terminated => exact id
  | ub u => exact id
  | diverged => exact id

end

/-! ### Concrete cases -/
section
open NDemo

/-- `x = std::move(*x->m_0)` in the tree of four nodes, with equal allocators, is undefined behaviour. -/
theorem C46_witness_move :
    Demo.outcome (call tr0 Demo.T 2 (⟨.moveAssign (at' 0 []) (at' 0 [0]), 3, from' 200⟩ : NCall Var Nat Nat)
      (s0 tr0)) = 3 := by decide +kernel

/-- `x = *x->m_0` is undefined behaviour, too. -/
theorem C46_witness_copy :
    Demo.outcome (call tr0 Demo.T 2 (⟨.assign (at' 0 []) (at' 0 [0]), 3, from' 200⟩ : NCall Var Nat Nat)
      (s0 tr0)) = 3 := by decide +kernel

/-- The hypotheses of the theorems about undefined behaviour are met. -/
example : Reach tr0 Demo.T 2 (s0 tr0) ∧ Shows tr0.res 2 (view (s0 tr0)) (s0 tr0) ∧
    Live 2 (view (s0 tr0)) (below (at' 0 []) [0]) ∧ Fits 2 3 (view (s0 tr0)) (at' 0 []) :=
  ⟨s0_reach tr0, by decide +kernel, by decide +kernel, by decide +kernel⟩

/-- `x = *x->m_1`, the last member, succeeds and `x` has the payload 9 of the part, with the part's member below
it. -/
example : Demo.outcome (call tr0 Demo.T 2 (⟨.assign (at' 0 []) (at' 0 [1]), 3, from' 200⟩ : NCall Var Nat Nat)
      (s0 tr0)) = 0 ∧ LastOnly 2 [1] ∧ Live 2 (view (s0 tr0)) (below (at' 0 []) [1]) := by
  refine ⟨by decide +kernel, fun m hm => ?_, by decide +kernel⟩
  cases hm with
  | head => rfl
  | tail _ h => cases h

/-- `x = *x->m_1->m_0` with unequal allocators (5 and 6): the tree is replaced. -/
example : Live 2 (view (s0 tr0)) (below (at' 0 []) [1, 0]) ∧
    ¬ InPlace tr0 Demo.T (treeAt (view (s0 tr0)) (at' 0 [])) (treeAt (view (s0 tr0)) (below (at' 0 []) [1, 0])) ∧
    Demo.outcome (call tr0 Demo.T 2 (⟨.assign (at' 0 []) (at' 0 [1, 0]), 3, from' 200⟩ : NCall Var Nat Nat)
      (s0 tr0)) = 0 := by decide +kernel

/-- Move assignment from a valueless part succeeds. -/
example : Demo.outcome (call tr0 Demo.T 2
      (⟨.moveAssign (at' 0 []) (at' 0 [0, 1]), 3, from' 200⟩ : NCall Var Nat Nat) (s0 tr0)) = 0 := by
  decide +kernel

/-- Move assignment from a part with an unequal allocator (6, the tree has 5) succeeds. -/
example : Demo.outcome (call tr0 Demo.T 2
      (⟨.moveAssign (at' 0 []) (at' 0 [1, 0]), 3, from' 200⟩ : NCall Var Nat Nat) (s0 tr0)) = 0 ∧
    tr0.eq ((treeAt (view (s0 tr0)) (at' 0 [])).allocOr tr0.dflt)
      ((treeAt (view (s0 tr0)) (at' 0 [1, 0])).allocOr tr0.dflt) = false := by
  decide +kernel

/-- The hypotheses of the theorems about propagating allocators are met. -/
example : (Demo.alloc true true true).pocca = true ∧ (Demo.alloc true true true).pocma = true ∧
    Live 2 (view (s0 (Demo.alloc true true true))) (below (at' 0 []) [1]) := by decide +kernel

end
end Verif.Props
