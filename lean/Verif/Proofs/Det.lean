import Verif.NodeProg
import Verif.Proofs.Basic

/-!
A computation consults the environment only for the allocations and operations it makes: in another environment that
agrees on those it has the same result.  Needed to compare programs that make the same steps in a different order.
-/

set_option autoImplicit false
set_option linter.unusedSectionVars false
set_option linter.unusedSimpArgs false

namespace Verif

section
variable {L A R B : Type}

/-- The state in another environment. -/
def St.inEnv (s : St L A R B) (e : Env) : St L A R B := { s with env := e }

/-- The environments agree on the first `ai` allocations and the first `ti` operations. -/
def Env.Agree (e e' : Env) (ai ti : Nat) : Prop :=
  (∀ i, i < ai → e'.fail i = e.fail i ∧ e'.pick i = e.pick i) ∧ ∀ i, i < ti → e'.choice i = e.choice i

theorem Env.Agree.mono {e e' : Env} {a b c d : Nat} (h : e.Agree e' b d) (h1 : a ≤ b) (h2 : c ≤ d) : e.Agree e' a c :=
  ⟨fun i hi => h.1 i (by omega), fun i hi => h.2 i (by omega)⟩

theorem Env.Agree.refl (e : Env) (a b : Nat) : e.Agree e a b := ⟨fun _ _ => ⟨rfl, rfl⟩, fun _ _ => rfl⟩

/-- The state `t` is reached from `s` without looking ahead. -/
def Later (s t : St L A R B) : Prop := t.env = s.env ∧ s.ai ≤ t.ai ∧ s.ti ≤ t.ti

/-- Same result in environments that agree on what was consulted. -/
def Det {α : Type} (m : M (St L A R B) α) : Prop := ∀ s,
  match m s with
  | .ok a t => Later s t ∧ ∀ e, s.env.Agree e t.ai t.ti → m (s.inEnv e) = .ok a (t.inEnv e)
  | .threw x t => Later s t ∧ ∀ e, s.env.Agree e t.ai t.ti → m (s.inEnv e) = .threw x (t.inEnv e)
  | _ => True

variable {α β : Type}

theorem Det.ok {m : M (St L A R B) α} (h : Det m) {s t : St L A R B} {a : α} (e : m s = .ok a t) :
    Later s t ∧ ∀ e, s.env.Agree e t.ai t.ti → m (s.inEnv e) = .ok a (t.inEnv e) := by
  have := h s; rw [e] at this; exact this

theorem Det.threw {m : M (St L A R B) α} (h : Det m) {s t : St L A R B} {x : Exn} (e : m s = .threw x t) :
    Later s t ∧ ∀ e, s.env.Agree e t.ai t.ti → m (s.inEnv e) = .threw x (t.inEnv e) := by
  have := h s; rw [e] at this; exact this

theorem Later.refl (s : St L A R B) : Later s s := ⟨rfl, Nat.le_refl _, Nat.le_refl _⟩

theorem Later.trans {s t u : St L A R B} (h : Later s t) (h' : Later t u) : Later s u :=
  ⟨h'.1.trans h.1, Nat.le_trans h.2.1 h'.2.1, Nat.le_trans h.2.2 h'.2.2⟩

theorem det_pure (a : α) : Det (pure a : M (St L A R B) α) := fun s => ⟨Later.refl s, fun _ _ => rfl⟩
theorem det_throwE (e : Exn) : Det (M.throwE e : M (St L A R B) α) := fun s => ⟨Later.refl s, fun _ _ => rfl⟩
theorem det_undef (u : UB) : Det (M.undef u : M (St L A R B) α) := fun _ => trivial
theorem det_diverge : Det (M.diverge : M (St L A R B) α) := fun _ => trivial

theorem det_bind {m : M (St L A R B) α} {f : α → M (St L A R B) β} (hm : Det m) (hf : ∀ a, Det (f a)) :
    Det (m >>= f) := by
  intro s
  rw [M.bind_eq]
  cases h : m s with
  | ok a t =>
    obtain ⟨h1, h2⟩ := hm.ok h
    simp only
    cases h' : f a t with
    | ok b u =>
      obtain ⟨h3, h4⟩ := (hf a).ok h'
      refine ⟨h1.trans h3, fun e he => ?_⟩
      rw [M.bind_ok (h2 e (he.mono h3.2.1 h3.2.2))]
      exact h4 e (by rw [h1.1]; exact he)
    | threw x u =>
      obtain ⟨h3, h4⟩ := (hf a).threw h'
      refine ⟨h1.trans h3, fun e he => ?_⟩
      rw [M.bind_ok (h2 e (he.mono h3.2.1 h3.2.2))]
      exact h4 e (by rw [h1.1]; exact he)
    | terminated => trivial
    | ub u => trivial
    | diverged => trivial
  | threw x t =>
    obtain ⟨h1, h2⟩ := hm.threw h
    exact ⟨h1, fun e he => M.bind_threw (h2 e he)⟩
  | terminated => trivial
  | ub u => trivial
  | diverged => trivial

theorem det_onThrow {m : M (St L A R B) α} {c : M (St L A R B) Unit} (hm : Det m) (hc : Det c) :
    Det (M.onThrow m c) := by
  intro s
  unfold M.onThrow
  cases h : m s with
  | ok a t =>
    obtain ⟨h1, h2⟩ := hm.ok h
    exact ⟨h1, fun e he => by rw [h2 e he]⟩
  | threw x t =>
    obtain ⟨h1, h2⟩ := hm.threw h
    simp only
    cases h' : c t with
    | ok b u =>
      obtain ⟨h3, h4⟩ := hc.ok h'
      refine ⟨h1.trans h3, fun e he => ?_⟩
      rw [h2 e (he.mono h3.2.1 h3.2.2)]
      simp only
      rw [h4 e (by rw [h1.1]; exact he)]
    | threw y u =>
      obtain ⟨h3, h4⟩ := hc.threw h'
      refine ⟨h1.trans h3, fun e he => ?_⟩
      rw [h2 e (he.mono h3.2.1 h3.2.2)]
      simp only
      rw [h4 e (by rw [h1.1]; exact he)]
    | terminated => trivial
    | ub u => trivial
    | diverged => trivial
  | terminated => trivial
  | ub u => trivial
  | diverged => trivial

theorem det_noexcept {b : Bool} {m : M (St L A R B) α} (hm : Det m) : Det (M.noexceptIf b m) := by
  intro s
  unfold M.noexceptIf
  cases h : m s with
  | ok a t =>
    obtain ⟨h1, h2⟩ := hm.ok h
    exact ⟨h1, fun e he => by rw [h2 e he]⟩
  | threw x t =>
    obtain ⟨h1, h2⟩ := hm.threw h
    cases b with
    | true => trivial
    | false => exact ⟨h1, fun e he => by rw [h2 e he]; rfl⟩
  | terminated => trivial
  | ub u => trivial
  | diverged => trivial

theorem det_ite {c : Prop} [Decidable c] {m n : M (St L A R B) α} (hm : Det m) (hn : Det n) :
    Det (if c then m else n) := by split <;> assumption

end

section
variable {L A R B : Type} [DecidableEq L] [DecidableEq R] [Body B]

theorem det_getH (l : L) : Det (getH l : M (St L A R B) _) := by
  intro s; unfold getH
  cases h : s.hs l
  · trivial
  · exact ⟨Later.refl s, fun e _ => by simp [St.inEnv, h]⟩

theorem det_setP (l : L) (p : Option Addr) : Det (setP l p : M (St L A R B) _) := by
  intro s; unfold setP
  cases h : s.hs l
  · trivial
  · exact ⟨Later.refl s, fun e _ => by simp [St.inEnv, h]⟩

theorem det_setAlloc (l : L) (a : A) : Det (setAlloc l a : M (St L A R B) _) := by
  intro s; unfold setAlloc
  cases h : s.hs l
  · trivial
  · exact ⟨Later.refl s, fun e _ => by simp [St.inEnv, h]⟩

theorem det_emplace (l : L) (k : Handle A) : Det (emplace l k : M (St L A R B) _) := by
  intro s; unfold emplace
  cases h : s.hs l
  · exact ⟨Later.refl s, fun e _ => by simp [St.inEnv, h]⟩
  · trivial

theorem det_endLife (l : L) : Det (endLife l : M (St L A R B) _) := by
  intro s; unfold endLife
  cases h : s.hs l
  · trivial
  · exact ⟨Later.refl s, fun e _ => by simp [St.inEnv, h]⟩

theorem det_emit (ev : Ev R) : Det (emit ev : M (St L A R B) _) := fun s => ⟨Later.refl s, fun _ _ => rfl⟩

theorem det_choose : Det (choose : M (St L A R B) _) := by
  intro s
  refine ⟨⟨rfl, Nat.le_refl _, Nat.le_succ _⟩, fun e he => ?_⟩
  have := he.2 s.ti (Nat.lt_succ_self _)
  simp [choose, St.inEnv, this]

theorem det_readBody (p : Addr) : Det (readBody p : M (St L A R B) _) := by
  intro s; unfold readBody
  cases h : s.heap p
  · trivial
  · exact ⟨Later.refl s, fun e _ => by simp [St.inEnv, h]⟩

theorem det_writeBody (p : Addr) (b : B) : Det (writeBody p b : M (St L A R B) _) := by
  intro s; unfold writeBody
  cases h : s.heap p
  · trivial
  · exact ⟨Later.refl s, fun e _ => by simp [St.inEnv, h]⟩

theorem det_allocate (r : R) : Det (allocate r : M (St L A R B) _) := by
  intro s
  have hm : ∀ e, s.env.Agree e (s.ai + 1) s.ti → memOk (s.inEnv e) = memOk s ∧ e.pick s.ai = s.env.pick s.ai := by
    intro e he
    obtain ⟨h1, h2⟩ := he.1 s.ai (Nat.lt_succ_self _)
    simp [memOk, St.inEnv, h1, h2]
  rw [allocate_eq]
  cases h : memOk s with
  | true =>
    refine ⟨⟨rfl, Nat.le_succ _, Nat.le_refl _⟩, fun e he => ?_⟩
    obtain ⟨h1, h2⟩ := hm e he
    rw [allocate_eq, h1, h]
    simp [St.inEnv, h2]
  | false =>
    refine ⟨⟨rfl, Nat.le_succ _, Nat.le_refl _⟩, fun e he => ?_⟩
    obtain ⟨h1, h2⟩ := hm e he
    rw [allocate_eq, h1, h]
    simp [St.inEnv]

theorem det_deallocate (r : R) (p : Addr) : Det (deallocate r p : M (St L A R B) _) := by
  intro s
  unfold deallocate
  cases h : s.heap p with
  | none => trivial
  | some c =>
    simp only
    by_cases h1 : c.arena ≠ r
    · rw [if_pos h1]; trivial
    · rw [if_neg h1]
      cases h2 : Body.occupied c.body with
      | true => trivial
      | false => exact ⟨Later.refl s, fun e _ => by simp [St.inEnv, h, h1, h2]⟩

end

section
variable {L A R V X : Type} [DecidableEq L] [DecidableEq R]

theorem det_readObj (p : Addr) : Det (readObj p : M (St L A R (Obj V)) _) := by
  unfold readObj
  refine det_bind (det_readBody p) fun b => ?_
  cases b
  · exact det_undef _
  · exact det_pure _

theorem det_writeObj (p : Addr) (v : V) : Det (writeObj p v : M (St L A R (Obj V)) _) :=
  det_bind (det_readObj p) fun _ => det_writeBody p _

theorem det_beginObj (p : Addr) (v : V) (how : How) : Det (beginObj p v how : M (St L A R (Obj V)) _) := by
  intro s; unfold beginObj
  cases h : s.heap p with
  | none => trivial
  | some c =>
    rcases c with ⟨r, _ | w⟩
    · exact ⟨Later.refl s, fun e _ => by simp [St.inEnv, h]⟩
    · trivial

theorem det_finish (p : Addr) (how : How) (v : Except Exn V) : Det (finish p how v : M (St L A R (Obj V)) _) := by
  cases v
  · exact det_throwE _
  · exact det_beginObj _ _ _

theorem det_rethrow (e : Option Exn) : Det (rethrow e : M (St L A R (Obj V)) _) := by
  cases e
  · exact det_pure _
  · exact det_throwE _

/-- The operations of the owned type consult the environment only for what they do. -/
structure DetOps {σ : Type} (D : {α : Type} → M σ α → Prop) (T : TOps σ A X) : Prop where
  make : ∀ a d xs, D (T.make a d xs)
  copyCtor : ∀ a d q, D (T.copyCtor a d q)
  moveCtor : ∀ a d q, D (T.moveCtor a d q)
  copyAssign : ∀ d q, D (T.copyAssign d q)
  moveAssign : ∀ d q, D (T.moveAssign d q)
  assignArg : ∀ d x, D (T.assignArg d x)
  dtor : ∀ a d, D (T.dtor a d)

end

/-- Decompose a computation. -/
macro "det_step" : tactic => `(tactic| first
  | with_reducible assumption
  | with_reducible exact det_pure _
  | with_reducible exact det_throwE _
  | with_reducible exact det_undef _
  | with_reducible exact det_diverge
  | with_reducible exact det_getH _
  | with_reducible exact det_setP _ _
  | with_reducible exact det_setAlloc _ _
  | with_reducible exact det_emplace _ _
  | with_reducible exact det_endLife _
  | with_reducible exact det_emit _
  | with_reducible exact det_choose
  | with_reducible exact det_readObj _
  | with_reducible exact det_writeObj _ _
  | with_reducible exact det_writeBody _ _
  | with_reducible exact det_beginObj _ _ _
  | with_reducible exact det_finish _ _ _
  | with_reducible exact det_rethrow _
  | with_reducible exact det_allocate _
  | with_reducible exact det_deallocate _ _
  | with_reducible apply det_onThrow
  | with_reducible apply det_noexcept
  | with_reducible apply det_bind
  | with_reducible apply det_ite
  | split
  | intro _)

section
variable {L A R V X : Type} [DecidableEq L] [DecidableEq R]
variable (tr : ATraits A R) {T : TOps (St L A R (Obj V)) A X}

theorem det_valueless (x : L) : Det (Indirect.valueless x : M (St L A R (Obj V)) _) := by
  unfold Indirect.valueless; repeat' det_step

theorem det_deref (x : L) : Det (Indirect.deref x : M (St L A R (Obj V)) _) := by
  unfold Indirect.deref; repeat' det_step

theorem det_constructFrom (a : A) {k : A → Addr → M (St L A R (Obj V)) Unit} (hk : ∀ b p, Det (k b p)) :
    Det (Indirect.constructFrom tr a k) := by
  unfold Indirect.constructFrom
  repeat' (first | exact hk _ _ | det_step)

variable (h : DetOps Det T)
include h

theorem det_reset (x : L) : Det (Indirect.reset tr T x) := by
  unfold Indirect.reset Indirect.destroyWith
  repeat' (first | exact h.dtor _ _ | det_step)

theorem det_dtor (x : L) : Det (Indirect.dtor tr T x) := by
  unfold Indirect.dtor
  repeat' (first | exact det_reset tr h _ | det_step)

theorem det_ctorInPlaceA (a : A) (us : List X) : Det (Indirect.ctorInPlaceA tr T a us) := by
  unfold Indirect.ctorInPlaceA
  repeat' (first | exact det_constructFrom tr _ (fun _ _ => h.make _ _ _) | det_step)

theorem det_ctorCopyA (a : A) (y : L) : Det (Indirect.ctorCopyA tr T a y) := by
  unfold Indirect.ctorCopyA
  repeat' (first | exact det_valueless _ | exact det_deref _ | exact det_constructFrom tr _ (fun _ _ => h.copyCtor _ _ _) | det_step)

theorem det_ctorCopy (y : L) : Det (Indirect.ctorCopy tr T y) := by
  unfold Indirect.ctorCopy
  repeat' (first | exact det_ctorCopyA tr h _ _ | det_step)

theorem det_ctorMoveA (a : A) (y : L) : Det (Indirect.ctorMoveA tr T a y) := by
  unfold Indirect.ctorMoveA
  repeat' (first | exact det_valueless _ | exact det_deref _ | exact det_constructFrom tr _ (fun _ _ => h.moveCtor _ _ _) | det_step)

theorem det_ctorMove (y : L) : Det (Indirect.ctorMove tr T y) := by
  unfold Indirect.ctorMove
  repeat' (first | exact det_ctorMoveA tr h _ _ | det_step)

theorem det_assignCopy (x y : L) : Det (Indirect.assignCopy tr T x y) := by
  unfold Indirect.assignCopy
  dsimp only
  repeat' (first
    | exact det_valueless _ | exact det_deref _ | exact det_reset tr h _ | exact h.copyAssign _ _
    | exact det_constructFrom tr _ (fun _ _ => h.copyCtor _ _ _) | det_step)

theorem det_assignMove (x y : L) : Det (Indirect.assignMove tr T x y) := by
  unfold Indirect.assignMove
  dsimp only
  repeat' (first
    | exact det_valueless _ | exact det_deref _ | exact det_reset tr h _
    | exact det_constructFrom tr _ (fun _ _ => h.moveCtor _ _ _) | det_step)

theorem det_assignFrom (x : L) (u : Fwd X) : Det (Indirect.assignFrom tr T x u) := by
  unfold Indirect.assignFrom TOps.makeFwd TOps.assignFwd
  cases u <;> dsimp only <;>
  repeat' (first
    | exact det_valueless _ | exact det_deref _ | exact h.assignArg _ _ | exact h.copyAssign _ _
    | exact h.moveAssign _ _ | exact det_constructFrom tr _ (fun _ _ => h.make _ _ _)
    | exact det_constructFrom tr _ (fun _ _ => h.copyCtor _ _ _)
    | exact det_constructFrom tr _ (fun _ _ => h.moveCtor _ _ _) | det_step)

omit h in
theorem det_swap (x y : L) : Det (Indirect.swap tr x y : M (St L A R (Obj V)) _) := by
  unfold Indirect.swap; repeat' det_step

end

namespace Node
section
variable {N A R V X : Type} [DecidableEq N] [DecidableEq R]
variable (tr : ATraits A R) (T : TSpec V X) (K : Nat)

theorem det_engaged (l : Loc N) : Det (engaged l : M (NSt N A R V) _) := fun s => ⟨Later.refl s, fun _ _ => rfl⟩

theorem det_hasMember (p : Addr) (k : Nat) : Det (hasMember p k : M (NSt N A R V) _) :=
  det_bind (det_readObj p) fun _ => det_engaged _

theorem det_build {f undo : Nat → M (NSt N A R V) Unit} (hf : ∀ k, Det (f k)) (hu : ∀ k, Det (undo k)) :
    ∀ k, Det (buildMembers f undo k)
  | 0 => det_pure _
  | k + 1 => det_bind (det_build hf hu k) fun _ => det_onThrow (hf k) (hu k)

theorem det_each {f : Nat → M (NSt N A R V) Unit} (hf : ∀ k, Det (f k)) : ∀ k, Det (eachMember f k)
  | 0 => det_pure _
  | k + 1 => det_bind (det_each hf k) fun _ => hf k

section
variable {I : TOps (NSt N A R V) A X} (h : DetOps Det I)
include h

theorem det_dropMember (p : Addr) (k : Nat) : Det (dropMember tr I p k) := by
  unfold dropMember
  repeat' (first | exact det_engaged _ | exact det_dtor tr h _ | det_step)

theorem det_dropMembers (p : Addr) : ∀ k, Det (dropMembers tr I p k)
  | 0 => det_pure _
  | k + 1 => det_bind (det_dropMember tr h p k) fun _ => det_dropMembers p k

theorem det_copyMember (d q : Addr) (k : Nat) : Det (copyMember tr I d q k) := by
  unfold copyMember
  repeat' (first | exact det_hasMember _ _ | exact det_ctorCopy tr h _ | det_step)

theorem det_moveMember (d q : Addr) (k : Nat) : Det (moveMember tr I d q k) := by
  unfold moveMember
  repeat' (first | exact det_hasMember _ _ | exact det_ctorMove tr h _ | det_step)

theorem det_copyAssignMember (d q : Addr) (k : Nat) : Det (copyAssignMember tr I d q k) := by
  unfold copyAssignMember
  repeat' (first
    | exact det_hasMember _ _ | exact det_ctorCopy tr h _ | exact det_assignCopy tr h _ _
    | exact det_dtor tr h _ | det_step)

theorem det_moveAssignMember (d q : Addr) (k : Nat) : Det (moveAssignMember tr I d q k) := by
  unfold moveAssignMember
  repeat' (first
    | exact det_hasMember _ _ | exact det_ctorMove tr h _ | exact det_assignMove tr h _ _
    | exact det_dtor tr h _ | det_step)

theorem det_node : DetOps Det (node tr T K I) where
  make _ d xs := by unfold node; dsimp only; repeat' det_step
  copyCtor _ d q := by
    unfold node; dsimp only
    repeat' (first | exact det_build (det_copyMember tr h d q) (det_dropMembers tr h d) K | det_step)
  moveCtor _ d q := by
    unfold node; dsimp only
    repeat' (first | exact det_build (det_moveMember tr h d q) (det_dropMembers tr h d) K | det_step)
  copyAssign d q := by
    unfold node; dsimp only
    repeat' (first | exact det_each (det_copyAssignMember tr h d q) K | det_step)
  moveAssign d q := by
    unfold node; dsimp only
    repeat' (first | exact det_each (det_moveAssignMember tr h d q) K | det_step)
  assignArg d x := by unfold node; dsimp only; repeat' det_step
  dtor _ p := by
    unfold node; dsimp only
    repeat' (first | exact det_dropMembers tr h p K | det_step)

end

theorem det_ops : ∀ n, DetOps Det (ops tr T K n : TOps (NSt N A R V) A X)
  | 0 => ⟨fun _ _ _ => det_diverge, fun _ _ _ => det_diverge, fun _ _ _ => det_diverge, fun _ _ => det_diverge,
      fun _ _ => det_diverge, fun _ _ => det_diverge, fun _ _ => det_diverge⟩
  | n + 1 => det_node tr T K (det_ops n)

theorem det_walk : ∀ (ks : List Nat) (l : Loc N), Det (walk l ks : M (NSt N A R V) _)
  | [], _ => det_pure _
  | k :: ks, l => det_bind (det_deref l) fun p => det_bind (det_readObj p) fun _ => det_walk ks _

theorem det_exec (n : Nat) (o : NOp N A X) : Det (exec tr T K n o : M (NSt N A R V) _) := by
  have h : DetOps Det (ops tr T K n : TOps (NSt N A R V) A X) := det_ops tr T K n
  cases o <;> unfold exec resolve <;>
  repeat' (first
    | with_reducible exact det_walk _ _ | with_reducible exact det_ctorInPlaceA tr h _ _ | with_reducible exact det_ctorCopy tr h _
    | with_reducible exact det_ctorCopyA tr h _ _ | with_reducible exact det_ctorMoveA tr h _ _ | with_reducible exact det_ctorMove tr h _ | with_reducible exact det_dtor tr h _
    | with_reducible exact det_assignCopy tr h _ _ | with_reducible exact det_assignMove tr h _ _ | with_reducible exact det_swap tr _ _
    | with_reducible exact det_assignFrom tr h _ _ | with_reducible exact det_deref _ | det_step)

end
end Node
end Verif
