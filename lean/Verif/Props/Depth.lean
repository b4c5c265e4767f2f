import Verif.Proofs.NodeDepth
import Verif.Props.Node14
import Verif.NDemo

/-!
# C84: recursion depth of recursive values

`std::optional<indirect<Node>>` as in C44 and C45.  The statements of `Verif/NodeProg.lean` and the comparisons of
`Verif/NodeCompare.lean` are run with a bound on the nesting of calls of the functions of `Node`; `.diverged` means that a
call would have to be nested more deeply than that.  The theorems of C44, C45, C58 and C61 say that the height of the tree
is enough.  Here: it is necessary, so the stack that is needed grows with the height of the value and no fixed size is
enough for all values; only moving and swapping do not depend on it.
-/

set_option autoImplicit false
set_option linter.unusedSectionVars false
set_option linter.unusedSimpArgs false

namespace Verif.Props
open Verif Verif.Node

section
variable {N A R V X H : Type} [DecidableEq N] [DecidableEq R]
variable {tr : ATraits A R} {T : TSpec V X} {K : Nat} {s : NSt N A R V} {W : N → Tree A V}

/-- Destroying the value at `P` takes calls of destructors nested exactly as deeply as the value is high: with less it
does not return, with that it does. -/
theorem C84_destroy (S : tr.Sound) (Rf : tr.Reflexive) (h : Reach tr T K s) (hW : Shows tr.res K W s)
    {P : Path N} (hP : Live K W P) (n : Nat) (e : Env) :
    (n < (treeAt W P).height K → call tr T K (⟨.drop P, n, e⟩ : NCall N A X) s = .diverged) ∧
    ((treeAt W P).height K ≤ n → ∃ s', call tr T K (⟨.drop P, n, e⟩ : NCall N A X) s = .ok () s') := by
  have w := (h.world S Rf hW).enter e
  refine ⟨fun hn => drop_stuck tr T w hP (Nat.not_le_of_lt hn), fun hn => ?_⟩
  obtain ⟨s', h1, _⟩ := drop_exact tr T w hP hn
  exact ⟨s', h1⟩

/-- The same from the trace of that call, without a bound on the nesting: the largest number of destructors of nodes
running at the same time is the height. -/
theorem C84_destructors_nested (S : tr.Sound) (Rf : tr.Reflexive) (h : Reach tr T K s) (hW : Shows tr.res K W s)
    {P : Path N} (hP : Live K W P) {n : Nat} {e : Env} {s' : NSt N A R V}
    (hr : call tr T K (⟨.drop P, n, e⟩ : NCall N A X) s = .ok () s') :
    ∃ es, s'.trace = s.trace ++ es ∧ Spec.nesting es = (treeAt W P).height K := by
  have w := (h.world S Rf hW).enter e
  have hn : Fits K n W P := by
    cases Nat.lt_or_ge n ((treeAt W P).height K) with
    | inl hn =>
      have := (C84_destroy (X := X) S Rf h hW hP n e).1 hn
      rw [this] at hr; exact nomatch hr
    | inr hn => exact hn
  obtain ⟨s₂, h1, _, h3, _⟩ := drop_exact (X := X) tr T w hP hn
  have : s₂ = s' := by
    have h1 : call tr T K (⟨.drop P, n, e⟩ : NCall N A X) s = .ok () s₂ := h1
    rw [hr] at h1; cases h1; rfl
  subst this
  refine ⟨_, h3, ?_⟩
  have := Tree.nesting_teardown tr.res K (treeAt W P) 0 []
  simpa [Spec.nesting, Spec.nestingFrom] using this

/-- A copy of the value at `Q` succeeds only if calls of copy constructors may be nested as deeply as the value is
high. -/
theorem C84_copy (S : tr.Sound) (Rf : tr.Reflexive) (h : Reach tr T K s) (hW : Shows tr.res K W s)
    {P Q : Path N} (hP : Exists K W P) (hQ : Exists K W Q) {n : Nat} {e : Env} {s' : NSt N A R V}
    (hr : call tr T K (⟨.copy P Q, n, e⟩ : NCall N A X) s = .ok () s') : (treeAt W Q).height K ≤ n := by
  cases Nat.lt_or_ge n ((treeAt W Q).height K) with
  | inl hn =>
    have := copy_stuck (X := X) tr T ((h.world S Rf hW).enter e) hP hQ (Nat.not_le_of_lt hn)
    rw [show exec tr T K n (.copy P Q : NOp N A X) (s.enter e) = .ok () s' from hr] at this
    exact this.elim
  | inr hn => exact hn

/-- The same with an allocator. -/
theorem C84_copy_with_allocator (S : tr.Sound) (Rf : tr.Reflexive) (h : Reach tr T K s) (hW : Shows tr.res K W s)
    {P Q : Path N} (a : A) (hP : Exists K W P) (hQ : Exists K W Q) {n : Nat} {e : Env} {s' : NSt N A R V}
    (hr : call tr T K (⟨.copyA P a Q, n, e⟩ : NCall N A X) s = .ok () s') : (treeAt W Q).height K ≤ n := by
  cases Nat.lt_or_ge n ((treeAt W Q).height K) with
  | inl hn =>
    have := copyA_stuck (X := X) tr T ((h.world S Rf hW).enter e) a hP hQ (Nat.not_le_of_lt hn)
    rw [show exec tr T K n (.copyA P a Q : NOp N A X) (s.enter e) = .ok () s' from hr] at this
    exact this.elim
  | inr hn => exact hn

/-- The hash takes exactly the height. -/
theorem C84_hash (_h : Reach tr T K s) (hW : Shows tr.res K W s) (hd : Header) (nothing npos : H) (mix : H → H → H)
    (g : V → H) {P : Path N} (hP : Exists K W P) (n : Nat) :
    (n < (treeAt W P).height K → Node.hash hd nothing npos mix (fun v => pure (g v)) K n P s = .diverged) ∧
    ((treeAt W P).height K ≤ n → ∃ x, Node.hash hd nothing npos mix (fun v => pure (g v)) K n P s = .ok x s) := by
  refine ⟨fun hn => ?_, fun hn => ⟨_, hash_eval hW hd nothing npos mix g hP hn⟩⟩
  unfold Node.hash
  rw [M.bind_ok (shows_resolve hW hP)]
  exact hashOpt_stuck hd nothing npos mix g (shows_holds hW hP) hn

/-- To find that two values are equal takes exactly the height (which is the same for both). -/
theorem C84_equal (_h : Reach tr T K s) (hW : Shows tr.res K W s) (hd : Header) (f : V → V → Bool) {P Q : Path N}
    (hP : Exists K W P) (hQ : Exists K W Q)
    (hE : (treeAt W P).Like (fun v w => f v w = true) K (treeAt W Q)) (n : Nat) :
    (n < (treeAt W P).height K → equal hd (pureOp f) K n P Q s = .diverged) ∧
    ((treeAt W P).height K ≤ n → equal hd (pureOp f) K n P Q s = .ok true s) ∧
    (treeAt W Q).height K = (treeAt W P).height K := by
  refine ⟨fun hn => ?_, fun hn => ?_, like_height hE⟩
  · unfold equal
    rw [M.bind_ok (shows_resolve hW hP), M.bind_ok (shows_resolve hW hQ)]
    exact eqOpt_stuck hd f (shows_holds hW hP) (shows_holds hW hQ) hE hn
  · rw [equal_eval hW hd f hP hQ (Or.inl hn), Tree.eqb_iff.2 hE]

/-- Move construction and swap call no function of `Node`: they return with no nesting at all, whatever the height, and
nothing is allocated, constructed, destroyed or freed. -/
theorem C84_move_swap (S : tr.Sound) (Rf : tr.Reflexive) (h : Reach tr T K s) (hW : Shows tr.res K W s)
    {P Q : Path N} (e : Env) :
    (Empty K W P → Live K W Q →
      ∃ s', call tr T K (⟨.move P Q, 0, e⟩ : NCall N A X) s = .ok () s' ∧ s'.trace = s.trace) ∧
    (Live K W P → Live K W Q →
      tr.pocs = true ∨ tr.eq ((treeAt W P).allocOr tr.dflt) ((treeAt W Q).allocOr tr.dflt) = true →
      ∃ s', call tr T K (⟨.swap P Q, 0, e⟩ : NCall N A X) s = .ok () s' ∧ s'.trace = s.trace) :=
  have w := (h.world S Rf hW).enter e
  ⟨fun hP hQ => move_exact tr T Rf w hP hQ, fun hP hQ ha => swap_exact tr T w hP hQ ha⟩

/-- A program can build values of every height (if memory does not run out and the payload can be made), so the nesting
has no bound: for every `n` there is a reachable state with a variable whose destruction needs `n` nested calls. -/
theorem C84_unbounded (S : tr.Sound) (Rf : tr.Reflexive) (hK : 0 < K) (x : N) (a : A) {us : List X} {v : V}
    (hT : T.make (.pack us) 0 = .ok v) (n : Nat) :
    ∃ (s : NSt N A R V) (W : N → Tree A V), Reach tr T K s ∧ Shows tr.res K W s ∧ (W x).height K = n ∧
      ∀ m, m < n → ∀ e, call tr T K (⟨.drop ⟨x, []⟩, m, e⟩ : NCall N A X) s = .diverged := by
  have chain : ∀ n : Nat, ∃ (s : NSt N A R V) (W : N → Tree A V), Reach tr T K s ∧ Shows tr.res K W s ∧
      (W x).height K = n ∧ Empty K W ⟨x, List.replicate n 0⟩ ∧ ∀ q, n ≤ q → s.heap q = none := by
    intro n
    induction n with
    | zero =>
      exact ⟨start ⟨fun _ => false, id, fun _ => 0⟩, fun _ => .absent, .start _, fun _ => rfl, rfl,
        ⟨trivial, rfl⟩, fun _ _ => rfl⟩
    | succ n ih =>
      obtain ⟨s, W, h, hW, hh, hE, hf⟩ := ih
      let e : Env := ⟨fun _ => false, fun _ => n, fun _ => 0⟩
      let c : NCall N A X := ⟨.make ⟨x, List.replicate n 0⟩ a us, 1, e⟩
      have w := (h.world S Rf hW).enter e
      have hm : memOk (s.enter e) = true := by
        simp [memOk, St.enter, e, hf n (Nat.le_refl n)]
      obtain ⟨s', h1, h2⟩ := make_exact tr T (n := 0) w hE hT hm (a := a)
      have hL : Legal tr K W c.depth c.op := ⟨hE, Nat.zero_lt_one⟩
      have h3 : call tr T K c s = .ok () s' := h1
      have hst := exec_spec tr T S Rf w c.depth c.op hL
      rw [show exec tr T K c.depth c.op (s.enter e) = .ok () s' from h1] at hst
      obtain ⟨W', ⟨p, v', _, _, _, rfl⟩, w'⟩ := hst
      refine ⟨s', _, .ok h hW hL h3, w'.holds, ?_, ?_, ?_⟩
      · show (upd W x _ x).height K = _
        rw [upd_same]
        obtain ⟨a1, a2⟩ := height_put (K := K) (List.replicate n 0) (t := W x) (u := .node p a v' (fun _ => .absent)) hE.1
        have : (Tree.node p a v' (fun _ => .absent) : Tree A V).height K = 1 := by
          have := maxBelow_le (f := fun _ => (Tree.absent : Tree A V).height K) (m := 0) (K := K) (fun _ _ => Nat.le_refl 0)
          simp only [Tree.height] at this ⊢; omega
        rw [this, List.length_replicate] at a1 a2
        rw [hh] at a2
        exact Nat.le_antisymm (Nat.le_trans a2 (by omega)) a1
      · have := has_put_app (K := K) (List.replicate n 0) (t := W x) (u := .node p a v' (fun _ => .absent)) (r' := [0]) hE.1
          ⟨hK, trivial⟩
        show (upd W x _ x).Has K _ ∧ (upd W x _ x).at' _ = _
        rw [upd_same, List.replicate_succ']
        exact this
      · intro q hq
        rw [h2]
        show upd s.heap n _ q = none
        have hqn : q ≠ n := by rintro rfl; exact absurd hq (Nat.not_succ_le_self _)
        rw [upd_other _ _ hqn]
        exact hf q (Nat.le_of_succ_le hq)
  obtain ⟨s, W, h, hW, hh, _⟩ := chain n
  refine ⟨s, W, h, hW, hh, fun m hm e => ?_⟩
  have ht : treeAt W ⟨x, []⟩ = W x := by unfold treeAt; cases W x <;> rfl
  refine (C84_destroy (X := X) S Rf h hW (P := ⟨x, []⟩) ⟨by unfold Node.Exists; cases W x <;> trivial, ?_⟩ m e).1 (by rw [ht, hh]; exact hm)
  rw [ht]; exact ne_absent_of_height (by rw [hh]; exact hm)

end

/-! ### indirect_cxx14.h and polymorphic.h -/
section
variable {N A R V X : Type} [DecidableEq N] [DecidableEq R]
variable {tr : ATraits A R} {T : TSpec V X} {K : Nat} {s : NSt N A R V} {W : N → Tree A V}

/-- Destruction with indirect_cxx14.h. -/
theorem C84_cxx14_destroy (S : tr.Sound) (Rf : tr.Reflexive) (h : Node14.Reach tr T K s) (hW : Shows tr.res K W s)
    {P : Path N} (hP : Live K W P) (n : Nat) (e : Env) :
    (n < (treeAt W P).height K → Node14.call tr T K (⟨.drop P, n, e⟩ : NCall N A X) s = .diverged) ∧
    ((treeAt W P).height K ≤ n → ∃ s', Node14.call tr T K (⟨.drop P, n, e⟩ : NCall N A X) s = .ok () s') := by
  rw [Node14.call_eq]
  exact C84_destroy S Rf ((Node14.reach_iff tr T K).1 h) hW hP n e

/-- Copies with indirect_cxx14.h. -/
theorem C84_cxx14_copy (S : tr.Sound) (Rf : tr.Reflexive) (h : Node14.Reach tr T K s) (hW : Shows tr.res K W s)
    {P Q : Path N} (hP : Exists K W P) (hQ : Exists K W Q) {n : Nat} {e : Env} {s' : NSt N A R V}
    (hr : Node14.call tr T K (⟨.copy P Q, n, e⟩ : NCall N A X) s = .ok () s') : (treeAt W Q).height K ≤ n := by
  rw [Node14.call_eq] at hr
  exact C84_copy S Rf ((Node14.reach_iff tr T K).1 h) hW hP hQ hr

end

section
open Verif.Polymorphic
variable {N A R Ty V X : Type} [DecidableEq N] [DecidableEq R] [DecidableEq Ty]
variable {tr : ATraits A R} {P : PSpec Ty V X} {K : Nat} {s : PNode.PSt N A R Ty V} {W : N → Tree A (Ty × V)}

/-- Destruction of a tree of `polymorphic`s: it returns exactly if destructors may be nested as deeply as the tree is
high. -/
theorem C84_polymorphic_destroy (S : tr.Sound) (Rf : tr.Reflexive) (h : PNode.Reach tr P K s)
    (hW : PNode.Shows tr.res K W s) {p : Path N} (hp : Live K W p) (n : Nat) (e : Env) :
    (∃ s', PNode.call tr P K (⟨.drop p, n, e⟩ : PNode.PCall N A Ty X) s = .ok () s') ↔ (treeAt W p).height K ≤ n := by
  constructor
  · rintro ⟨s', hr⟩
    have h2 := PNode.call_of (tr := tr) (P := P) (K := K) (h.sim S Rf).2 (⟨.drop p, n, e⟩ : PNode.PCall N A Ty X)
    rw [hr] at h2
    cases Nat.lt_or_ge n ((treeAt W p).height K) with
    | inl hn =>
      have h3 : Node.call tr P.owned K (PNode.PCall.asN (⟨.drop p, n, e⟩ : PNode.PCall N A Ty X)) (view s) = .diverged :=
        (C84_destroy S Rf (h.sim S Rf).1 hW.to_view hp n e).1 hn
      rw [h3] at h2; exact nomatch h2.2
    | inr hn => exact hn
  · intro hn
    obtain ⟨s', h1, _⟩ := C45_polymorphic_destroy S Rf h hW hp hn e
    exact ⟨s', h1⟩

/-- Copies of a tree of `polymorphic`s. -/
theorem C84_polymorphic_copy (S : tr.Sound) (Rf : tr.Reflexive) (h : PNode.Reach tr P K s)
    (hW : PNode.Shows tr.res K W s) {p q : Path N} (hp : Exists K W p) (hq : Exists K W q) {n : Nat} {e : Env}
    {s' : PNode.PSt N A R Ty V}
    (hr : PNode.call tr P K (⟨.copy p q, n, e⟩ : PNode.PCall N A Ty X) s = .ok () s') : (treeAt W q).height K ≤ n := by
  have h2 := PNode.call_of (tr := tr) (P := P) (K := K) (h.sim S Rf).2 (⟨.copy p q, n, e⟩ : PNode.PCall N A Ty X)
  rw [hr] at h2
  exact C84_copy S Rf (h.sim S Rf).1 hW.to_view hp hq h2.2

/-- With polymorphic_cxx14.h destruction and copies are the same programs as with polymorphic.h, at every depth. -/
theorem cxx14_same_at_every_depth (E : tr.Equality) (p q : Path N) (n : Nat) (e : Env) (s : PNode.PSt N A R Ty V) :
    PNode14.call tr P K (⟨.drop p, n, e⟩ : PNode.PCall N A Ty X) s = PNode.call tr P K ⟨.drop p, n, e⟩ s ∧
    PNode14.call tr P K (⟨.copy p q, n, e⟩ : PNode.PCall N A Ty X) s = PNode.call tr P K ⟨.copy p q, n, e⟩ s := by
  constructor <;> (unfold PNode14.call PNode.call; simp only [PNode14.exec, PNode.exec, PNode14.resolve_eq, PNode14.ops_eq tr P K E]; rfl)

/-- Destruction with polymorphic_cxx14.h. -/
theorem C84_polymorphic_cxx14_destroy (S : tr.Sound) (Rf : tr.Reflexive) (E : tr.Equality) (h : PNode14.Reach tr P K s)
    (hW : PNode.Shows tr.res K W s) {p : Path N} (hp : Live K W p) (n : Nat) (e : Env) :
    (∃ s', PNode14.call tr P K (⟨.drop p, n, e⟩ : PNode.PCall N A Ty X) s = .ok () s') ↔ (treeAt W p).height K ≤ n := by
  rw [(cxx14_same_at_every_depth E p p n e s).1]
  exact C84_polymorphic_destroy S Rf (h.to20 E) hW hp n e

/-- Copies with polymorphic_cxx14.h. -/
theorem C84_polymorphic_cxx14_copy (S : tr.Sound) (Rf : tr.Reflexive) (E : tr.Equality) (h : PNode14.Reach tr P K s)
    (hW : PNode.Shows tr.res K W s) {p q : Path N} (hp : Exists K W p) (hq : Exists K W q) {n : Nat} {e : Env}
    {s' : PNode.PSt N A R Ty V}
    (hr : PNode14.call tr P K (⟨.copy p q, n, e⟩ : PNode.PCall N A Ty X) s = .ok () s') : (treeAt W q).height K ≤ n := by
  rw [(cxx14_same_at_every_depth E p q n e s).2] at hr
  exact C84_polymorphic_copy S Rf (h.to20 E) hW hp hq hr

end

/-! ### The hypotheses are met -/
section
open NDemo

/-- The tree of four nodes has height three: two nested calls are not enough to destroy it, three are. -/
example : Live 2 (view (s0 tr0)) (at' 0 []) ∧ (treeAt (view (s0 tr0)) (at' 0 [])).height 2 = 3 ∧
    Demo.outcome (call tr0 Demo.T 2 (⟨.drop (at' 0 []), 2, from' 200⟩ : NCall Var Nat Nat) (s0 tr0)) = 4 ∧
    Demo.outcome (call tr0 Demo.T 2 (⟨.drop (at' 0 []), 3, from' 200⟩ : NCall Var Nat Nat) (s0 tr0)) = 0 := by
  decide +kernel

/-- The payload of the examples can be made. -/
example : ∃ v, Demo.T.make (.pack [7]) 0 = .ok v := ⟨_, rfl⟩

/-- The copy of that tree in the other variable is equal to it. -/
example : (treeAt (view s1) (at' 0 [])).eqb (fun v w => v == w) 2 (treeAt (view s1) (at' 1 [])) = true ∧
    Node.Exists 2 (view s1) (at' 0 []) ∧ Node.Exists 2 (view s1) (at' 1 []) := by decide +kernel

/-- There are lists of a million nodes. -/
example : ∃ (s : S) (W : Var → Tree Nat Nat), Reach tr0 Demo.T 1 s ∧ Shows tr0.res 1 W s ∧ (W 0).height 1 = 1000000 := by
  obtain ⟨s, W, h1, h2, h3, _⟩ := C84_unbounded (tr := tr0) (T := Demo.T) (Demo.alloc_sound _ _ _) (Demo.alloc_refl _ _ _)
    Nat.zero_lt_one (0 : Var) 5 (us := [7]) rfl 1000000
  exact ⟨s, W, h1, h2, h3⟩

end
end Verif.Props
