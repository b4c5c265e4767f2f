import Verif.Spec.Node14
import Verif.Proofs.Indirect14
import Verif.Proofs.Polymorphic14

/-! Statements on recursive values do with the C++14 headers what they do with the C++20 headers. -/

set_option autoImplicit false
set_option linter.unusedSectionVars false
set_option linter.unusedSimpArgs false

namespace Verif

namespace Node14
open Node
section
variable {N A R V X : Type} [DecidableEq N] [DecidableEq R]
variable (tr : ATraits A R) (T : TSpec V X) (K : Nat) (I : TOps (NSt N A R V) A X)

theorem dropMembers_eq (p : Addr) (k : Nat) : dropMembers tr I p k = Node.dropMembers tr I.cxx14 p k := by
  induction k with
  | zero => rfl
  | succ k ih => simp only [dropMembers, Node.dropMembers, ih]; rfl

theorem drop_eq : (dropMembers tr I : Addr → Nat → M (NSt N A R V) Unit) = Node.dropMembers tr I.cxx14 :=
  funext fun p => funext fun k => dropMembers_eq tr I p k

theorem node_eq : (node tr T K I).cxx14 = Node.node tr T.cxx14 K I.cxx14 := by
  unfold node Node.node
  rw [drop_eq]
  rfl

theorem ops_eq (n : Nat) : (ops tr T K n : TOps (NSt N A R V) A X).cxx14 = Node.ops tr T.cxx14 K n := by
  induction n with
  | zero => rfl
  | succ n ih => rw [ops, Node.ops, node_eq, ih]

theorem walk_eq (l : Loc N) (ks : List Nat) : (walk l ks : M (NSt N A R V) (Loc N)) = Node.walk l ks := by
  induction ks generalizing l with
  | nil => rfl
  | cons k ks ih => simp only [walk, Node.walk, ih]; rfl

theorem resolve_eq (P : Path N) : (resolve P : M (NSt N A R V) (Loc N)) = Node.resolve P := walk_eq _ _

theorem exec_eq (n : Nat) (o : NOp N A X) : (exec tr T K n o : M (NSt N A R V) Unit) = Node.exec tr T.cxx14 K n o := by
  cases o <;> simp only [exec, Node.exec, resolve_eq, Indirect14.assignFrom_eq, ← ops_eq] <;> rfl

theorem call_eq (c : NCall N A X) (s : NSt N A R V) : call tr T K c s = Node.call tr T.cxx14 K c s := by
  unfold call Node.call
  rw [exec_eq]

theorem reach_iff {s : NSt N A R V} : Reach tr T K s ↔ Node.Reach tr T.cxx14 K s := by
  constructor
  · intro h
    induction h with
    | start e => exact .start e
    | ok _ hW hL hr ih => exact .ok ih hW hL (by rw [← call_eq]; exact hr)
    | threw _ hW hL hr ih => exact .threw ih hW hL (by rw [← call_eq]; exact hr)
  · intro h
    induction h with
    | start e => exact .start e
    | ok _ hW hL hr ih => exact .ok ih hW hL (by rw [call_eq]; exact hr)
    | threw _ hW hL hr ih => exact .threw ih hW hL (by rw [call_eq]; exact hr)

end
end Node14

namespace PNode14
open PNode
section
variable {N A R Ty V X : Type} [DecidableEq N] [DecidableEq R] [DecidableEq Ty]
variable (tr : ATraits A R) (P : PSpec Ty V X) (K : Nat) (I : POps (PSt N A R Ty V) A Ty X)

theorem dropMembers_eq (p : Addr) (k : Nat) : dropMembers tr I p k = PNode.dropMembers tr I p k := by
  induction k with
  | zero => rfl
  | succ k ih => simp only [dropMembers, PNode.dropMembers, ih]; rfl

theorem moveMember_eq (E : tr.Equality) (dst src : Addr) :
    moveMember tr I dst src = PNode.moveMember tr I dst src := by
  funext k
  unfold moveMember PNode.moveMember
  rw [show Polymorphic14.ctorMove tr I (.field src k) = Polymorphic.ctorMove tr I (.field src k) from
    funext fun s => Polymorphic14.ctorMove_eq tr I E _ s]

theorem drop_eq : (dropMembers tr I : Addr → Nat → M (PSt N A R Ty V) Unit) = PNode.dropMembers tr I :=
  funext fun p => funext fun k => dropMembers_eq tr I p k

theorem node_eq (E : tr.Equality) : node tr P K I = PNode.node tr P K I := by
  unfold node PNode.node
  rw [drop_eq]
  simp only [moveMember_eq tr I E]
  rfl

theorem ops_eq (E : tr.Equality) (n : Nat) : (ops tr P K n : POps (PSt N A R Ty V) A Ty X) = PNode.ops tr P K n := by
  induction n with
  | zero => rfl
  | succ n ih => rw [ops, PNode.ops, node_eq tr P K _ E, ih]

theorem walk_eq (l : Loc N) (ks : List Nat) : (walk l ks : M (PSt N A R Ty V) (Loc N)) = PNode.walk l ks := by
  induction ks generalizing l with
  | nil => rfl
  | cons k ks ih => simp only [walk, PNode.walk, ih]; rfl

theorem resolve_eq (p : Path N) : (resolve p : M (PSt N A R Ty V) (Loc N)) = PNode.resolve p := walk_eq _ _

/-- A place that exists is found, and holds its tree. -/
theorem walk_lands {res : A → R} {s : PSt N A R Ty V} : ∀ (r : List Nat) {l : Loc N} {t : Tree A (Ty × V)},
    Holds res K s (s.hs l) t → t.Has K r → ∃ m, PNode.walk l r s = .ok m s ∧ Holds res K s (s.hs m) (t.at' r)
  | [], l, t, h, _ => ⟨l, rfl, by cases t <;> exact h⟩
  | k :: r, l, t, hh, hr => by
    cases t with
    | absent => exact hr.elim
    | hollow a => exact hr.elim
    | node p a v ks =>
      obtain ⟨h1, h2, h3⟩ := hh
      obtain ⟨hk, hr⟩ := hr
      obtain ⟨m, h4, h5⟩ := walk_lands r (h3 k hk) hr
      refine ⟨m, ?_, h5⟩
      have hd : Polymorphic.deref l s = .ok p s := by
        simp [Polymorphic.deref, Polymorphic.derefCB, M.bind_eq, getH, h1, readCB, h2, readBody]
      have hr : readAny p s = .ok v s := by
        simp [readAny, M.bind_eq, readCB, h2, readBody]
      show (Polymorphic.deref l >>= fun p => readAny p >>= fun _ => PNode.walk (.field p k) r) s = _
      rw [M.bind_ok hd, M.bind_ok hr]
      exact h4

theorem alloc_of {res : A → R} {s : PSt N A R Ty V} {t : Tree A (Ty × V)} {m : Loc N} (d : A)
    (h : Holds res K s (s.hs m) t) {k : Handle A} (hk : s.hs m = some k) : k.alloc = t.allocOr d := by
  cases t with
  | absent => rw [hk] at h; exact nomatch h
  | hollow a => rw [hk] at h; cases h; rfl
  | node p a v ks => rw [hk] at h; cases h.1; rfl

theorem exec_eq (E : tr.Equality) (n : Nat) (o : Stmt N A Ty X) {s : PSt N A R Ty V} {W : N → Tree A (Ty × V)}
    (hW : Shows tr.res K W s) (hL : Node.Legal tr K W n o.asN) (hS : Safe14 tr W o) :
    exec tr P K n o s = PNode.exec tr P K n o s := by
  cases o with
  | move p q =>
    simp only [exec, PNode.exec, resolve_eq, ops_eq tr P K E]
    refine congrFun ?_ s
    congr 1; funext l; congr 1; funext m
    rw [show Polymorphic14.ctorMove tr (PNode.ops tr P K n) m = Polymorphic.ctorMove tr (PNode.ops tr P K n) m from
      funext fun s => Polymorphic14.ctorMove_eq tr _ E _ s]
  | moveA p a q =>
    simp only [exec, PNode.exec, resolve_eq, ops_eq tr P K E]
    obtain ⟨l, hl, -⟩ := walk_lands K p.steps (hW p.root) hL.1.1
    obtain ⟨m, hm, hq⟩ := walk_lands K q.steps (hW q.root) hL.2.1.1
    have hl : PNode.resolve p s = .ok l s := hl
    have hm : PNode.resolve q s = .ok m s := hm
    rw [M.bind_ok hl, M.bind_ok hl, M.bind_ok hm, M.bind_ok hm]
    simp only [M.bind_eq]
    rw [Polymorphic14.ctorMoveA_eq tr _ E a m s fun hp k hk => by
      rw [alloc_of K tr.dflt hq hk]; exact hS hp]
  | _ => simp only [exec, PNode.exec, resolve_eq, ops_eq tr P K E] <;> rfl

theorem holds_enter {res : A → R} {s : PSt N A R Ty V} (e : Env) : ∀ {t : Tree A (Ty × V)} {o : Option (Handle A)},
    Holds res K s o t → Holds res K (s.enter e) o t
  | .absent, _, h => h
  | .hollow _, _, h => h
  | .node _ _ _ _, _, ⟨h1, h2, h3⟩ => ⟨h1, h2, fun k hk => holds_enter e (h3 k hk)⟩

theorem call_eq (E : tr.Equality) (c : PCall N A Ty X) {s : PSt N A R Ty V} {W : N → Tree A (Ty × V)}
    (hW : Shows tr.res K W s) (hL : Node.Legal tr K W c.depth c.op.asN) (hS : Safe14 tr W c.op) :
    call tr P K c s = PNode.call tr P K c s := by
  unfold call PNode.call
  exact exec_eq tr P K E _ _ (s := s.enter c.env) (fun x => holds_enter K c.env (hW x)) hL hS

theorem Reach.to20 {tr : ATraits A R} {P : PSpec Ty V X} {K : Nat} (E : tr.Equality) {s : PSt N A R Ty V}
    (h : Reach tr P K s) : PNode.Reach tr P K s := by
  induction h with
  | start e => exact .start e
  | ok _ hW hL hS hr ih => exact .ok ih hW hL (by rw [← call_eq tr P K E _ hW hL hS]; exact hr)
  | threw _ hW hL hS hr ih => exact .threw ih hW hL (by rw [← call_eq tr P K E _ hW hL hS]; exact hr)

theorem safe_of (E : tr.Equality) (h : tr.pocca = true → tr.alwaysEqual = true) (W : N → Tree A (Ty × V))
    (o : Stmt N A Ty X) : Safe14 tr W o := by
  cases o <;> first | trivial | exact fun hp => E.always (h hp) _ _

theorem reach_iff (E : tr.Equality) (hq : tr.pocca = true → tr.alwaysEqual = true) {s : PSt N A R Ty V} :
    Reach tr P K s ↔ PNode.Reach tr P K s := by
  refine ⟨fun h => h.to20 E, fun h => ?_⟩
  induction h with
  | start e => exact .start e
  | ok _ hW hL hr ih =>
    have hS := fun W o => safe_of (X := X) (N := N) (Ty := Ty) (V := V) tr E hq W o
    exact .ok ih hW hL (hS _ _) (by rw [call_eq tr P K E _ hW hL (hS _ _)]; exact hr)
  | threw _ hW hL hr ih =>
    have hS := fun W o => safe_of (X := X) (N := N) (Ty := Ty) (V := V) tr E hq W o
    exact .threw ih hW hL (hS _ _) (by rw [call_eq tr P K E _ hW hL (hS _ _)]; exact hr)

end
end PNode14
end Verif
