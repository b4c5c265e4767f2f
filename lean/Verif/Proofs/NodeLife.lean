import Verif.Proofs.IndirectKeeps
import Verif.NodeProg

/-! The trace of programs with recursive nodes follows the protocol for storage and lifetimes. -/

set_option autoImplicit false
set_option linter.unusedSectionVars false
set_option linter.unusedSimpArgs false

namespace Verif

section
variable {R : Type} [DecidableEq R]

theorem allocsAt_anon (p : Addr) : ∀ t : List (Ev R), Spec.allocsAt p (t.map Spec.anon) = Spec.allocsAt p t
  | [] => rfl
  | ev :: t => by
    have := allocsAt_anon p t
    cases ev <;> simp [Spec.anon, Spec.allocsAt, this]

theorem deallocsAt_anon (p : Addr) :
    ∀ t : List (Ev R), Spec.deallocsAt p (t.map Spec.anon) = Spec.deallocsAt p t
  | [] => rfl
  | ev :: t => by
    have := deallocsAt_anon p t
    cases ev <;> simp [Spec.anon, Spec.deallocsAt, this]

theorem constructsAt_anon (p : Addr) :
    ∀ t : List (Ev R), Spec.constructsAt p (t.map Spec.anon) = Spec.constructsAt p t
  | [] => rfl
  | ev :: t => by
    have := constructsAt_anon p t
    cases ev <;> simp [Spec.anon, Spec.constructsAt, this]

theorem destroysAt_anon (p : Addr) :
    ∀ t : List (Ev R), Spec.destroysAt p (t.map Spec.anon) = Spec.destroysAt p t
  | [] => rfl
  | ev :: t => by
    have := destroysAt_anon p t
    cases ev <;> simp [Spec.anon, Spec.destroysAt, this]

/-- Every block was freed as often as it was allocated, except for the blocks still held. -/
theorem lives_alloc {t : List (Ev R)} {m : Spec.Mem R} (h : Spec.lives t = some m) (p : Addr) :
    Spec.allocsAt p t = Spec.deallocsAt p t + (if (m p).isSome then 1 else 0) := by
  have := replayFrom_alloc_balance h p
  rw [allocsAt_anon, deallocsAt_anon] at this
  simpa using this

/-- As many objects were destroyed in a block as were constructed there, except for those alive. -/
theorem lives_construct {t : List (Ev R)} {m : Spec.Mem R} (h : Spec.lives t = some m) (p : Addr) :
    Spec.constructsAt p t = Spec.destroysAt p t + (if Spec.liveAt m p then 1 else 0) := by
  have := replayFrom_construct_balance h p
  rw [constructsAt_anon, destroysAt_anon] at this
  simpa [Spec.liveAt] using this

end

section
variable {L A R V X : Type} [DecidableEq L] [DecidableEq R]

/-- The trace extends `t₀`, follows the protocol for storage and lifetimes and describes the heap. -/
def LifeOk (t₀ : List (Ev R)) (s : St L A R (Obj V)) : Prop :=
  t₀ <+: s.trace ∧ Spec.lives s.trace = some (shape s.heap)

variable {t₀ : List (Ev R)}

theorem life_snoc {t : List (Ev R)} {m m' : Spec.Mem R} {ev : Ev R} (h : t₀ <+: t ∧ Spec.lives t = some m)
    (h' : Spec.obey m (Spec.anon ev) = some m') : t₀ <+: t ++ [ev] ∧ Spec.lives (t ++ [ev]) = some m' := by
  refine ⟨h.1.trans (List.prefix_append _ _), ?_⟩
  unfold Spec.lives at *
  rw [List.map_append]
  exact replay_snoc h.2 h'

theorem life_handles {α : Type} {m : M (St L A R (Obj V)) α}
    (h : ∀ s, match m s with
      | .ok _ s' => s'.heap = s.heap ∧ s'.trace = s.trace
      | .threw _ s' => s'.heap = s.heap ∧ s'.trace = s.trace
      | _ => True) : Keeps (LifeOk t₀) m := by
  intro s hs
  have := h s
  cases e : m s <;> rw [e] at this
  · show LifeOk t₀ _; unfold LifeOk; rw [this.1, this.2]; exact hs
  · show LifeOk t₀ _; unfold LifeOk; rw [this.1, this.2]; exact hs
  all_goals trivial

theorem life_prims : PrimsKeep (LifeOk t₀ : St L A R (Obj V) → Prop) (fun _ => True) where
  getH l := by apply life_handles; intro s; unfold getH; cases s.hs l <;> simp
  setP l _ p := by apply life_handles; intro s; unfold setP; cases s.hs l <;> simp
  setAlloc l _ a := by apply life_handles; intro s; unfold setAlloc; cases s.hs l <;> simp
  emplace l _ h := by apply life_handles; intro s; unfold emplace; cases s.hs l <;> simp
  endLife l _ := by apply life_handles; intro s; unfold endLife; cases s.hs l <;> simp
  allocate r := by
    intro s hs
    rw [allocate_eq]
    split
    · rename_i h
      have hn : s.heap (s.env.pick s.ai) = none := by simp [memOk] at h; exact h.2
      show LifeOk t₀ _
      refine life_snoc hs ?_
      have : shape s.heap (s.env.pick s.ai) = none := by simp [shape, hn]
      simp [Spec.anon, Spec.obey, this, shape_upd, Body.occupied, Body.raw]
    · exact hs
  deallocate r p := by
    intro s hs
    unfold deallocate
    cases hp : s.heap p with
    | none => trivial
    | some c =>
      simp only
      split
      · trivial
      · split
        · trivial
        · rename_i h1 h2
          refine life_snoc hs ?_
          have : shape s.heap p = some ⟨r, false⟩ := by
            simp at h1 h2; simp [shape, hp, h1, h2]
          simp [Spec.anon, Spec.obey, this, shape_upd]

theorem life_choose : Keeps (LifeOk t₀) (choose : M (St L A R (Obj V)) _) := by
  apply life_handles; intro s; simp [choose]

theorem life_readObj (p : Addr) : Keeps (LifeOk t₀) (readObj p : M (St L A R (Obj V)) _) := by
  apply life_handles; intro s
  cases hp : s.heap p with
  | none => simp [readObj, readBody, M.bind_eq, hp]
  | some c => rcases c with ⟨r, _ | v⟩ <;> simp [readObj, readBody, M.bind_eq, hp]

theorem life_rethrow (e : Option Exn) : Keeps (LifeOk t₀) (rethrow e : M (St L A R (Obj V)) _) := by
  cases e
  · exact keeps_pure _
  · exact keeps_throwE _

theorem life_writeObj (p : Addr) (v : V) : Keeps (LifeOk t₀) (writeObj p v : M (St L A R (Obj V)) _) := by
  refine fun s hs => readObj_all fun r w hp => ?_
  have : LifeOk t₀ { s with heap := upd s.heap p (some ⟨r, some v⟩) } := by
    unfold LifeOk at hs ⊢; rw [shape_write hp]; exact hs
  simpa [writeBody, hp, Res.All] using this

theorem life_beginObj (p : Addr) (v : V) (how : How) :
    Keeps (LifeOk t₀) (beginObj p v how : M (St L A R (Obj V)) _) := by
  intro s hs
  simp only [beginObj]
  cases hp : s.heap p with
  | none => trivial
  | some c =>
    rcases c with ⟨r, _ | w⟩
    · refine life_snoc hs ?_
      have : shape s.heap p = some ⟨r, false⟩ := by simp [shape, hp, Body.occupied]
      simp [Spec.anon, Spec.obey, Spec.sourceOk, this, shape_upd, Body.occupied]
    · trivial

theorem life_finish (p : Addr) (how : How) (r : Except Exn V) :
    Keeps (LifeOk t₀) (finish p how r : M (St L A R (Obj V)) _) := by
  cases r
  · exact keeps_throwE _
  · exact life_beginObj _ _ _

/-- Recording an assignment to a live object. -/
theorem life_assign {α : Type} {s : St L A R (Obj V)} {d : Addr} {r : R} {v : V} {how : How}
    {f : M (St L A R (Obj V)) α} (hs : LifeOk t₀ s) (hd : s.heap d = some ⟨r, some v⟩) (hf : Keeps (LifeOk t₀) f) :
    ((emit (.assign d how) >>= fun _ => f) s).All (LifeOk t₀) := by
  rw [M.bind_eq]
  exact hf _ (life_snoc hs (by simp [Spec.anon, Spec.obey, Spec.sourceOk, shape_live hd]))

end

namespace Node
section
variable {N A R V X : Type} [DecidableEq N] [DecidableEq R] {t₀ : List (Ev R)}

/-- Rules for the members of nodes. -/
macro "life_step" : tactic => `(tactic| first
  | with_reducible exact life_readObj _
  | with_reducible exact life_choose
  | with_reducible exact life_rethrow _
  | with_reducible exact life_writeObj _ _
  | with_reducible exact life_beginObj _ _ _
  | with_reducible exact life_finish _ _ _
  | with_reducible exact keeps_pure _
  | with_reducible exact keeps_throwE _
  | with_reducible exact keeps_diverge
  | with_reducible apply keeps_onThrow
  | with_reducible apply keeps_bind
  | with_reducible apply keeps_ite
  | with_reducible intro _)

theorem life_engaged (l : Loc N) : Keeps (LifeOk t₀) (engaged l : M (NSt N A R V) Bool) := by
  apply life_handles; intro s; simp [engaged]

theorem life_hasMember (p : Addr) (k : Nat) : Keeps (LifeOk t₀) (hasMember p k : M (NSt N A R V) Bool) := by
  unfold hasMember
  repeat' first | exact life_engaged _ | life_step

theorem life_build {f undo : Nat → M (NSt N A R V) Unit} (hf : ∀ k, Keeps (LifeOk t₀) (f k))
    (hu : ∀ k, Keeps (LifeOk t₀) (undo k)) : ∀ k, Keeps (LifeOk t₀) (buildMembers f undo k)
  | 0 => keeps_pure _
  | k + 1 => keeps_bind (life_build hf hu k) fun _ => keeps_onThrow (hf k) (hu k)

theorem life_each {f : Nat → M (NSt N A R V) Unit} (hf : ∀ k, Keeps (LifeOk t₀) (f k)) :
    ∀ k, Keeps (LifeOk t₀) (eachMember f k)
  | 0 => keeps_pure _
  | k + 1 => keeps_bind (life_each hf k) fun _ => hf k

variable (tr : ATraits A R) (T : TSpec V X) (K : Nat) {I : TOps (NSt N A R V) A X} (h : TKeep (LifeOk t₀) I)

include h in
theorem life_dropMembers (p : Addr) : ∀ k, Keeps (LifeOk t₀) (dropMembers tr I p k)
  | 0 => keeps_pure _
  | k + 1 => by
    refine keeps_bind ?_ fun _ => life_dropMembers p k
    unfold dropMember
    repeat' first
      | with_reducible exact life_engaged _
      | with_reducible exact Indirect.keeps_dtor life_prims tr h _ trivial
      | life_step

include h in
theorem life_node : TKeep (LifeOk t₀) (node tr T K I) where
  make _ d xs := by
    simp only [node]
    repeat' life_step
  copyCtor _ d q := by
    simp only [node]
    refine keeps_bind (life_readObj _) fun v => keeps_bind life_choose fun c => ?_
    split
    · exact keeps_throwE _
    · refine keeps_bind (life_build (fun k => ?_) (life_dropMembers tr h d) K) fun _ => life_beginObj _ _ _
      unfold copyMember
      repeat' first
        | with_reducible exact life_hasMember _ _
        | with_reducible exact Indirect.keeps_ctorCopy life_prims tr h _
        | with_reducible exact life_prims.emplace _ trivial _
        | life_step
  moveCtor _ d q := by
    simp only [node]
    refine keeps_bind (life_readObj _) fun v => keeps_bind life_choose fun c =>
      keeps_bind (life_writeObj _ _) fun _ => ?_
    split
    · exact keeps_throwE _
    · refine keeps_bind (life_build (fun k => ?_) (life_dropMembers tr h d) K) fun _ => life_beginObj _ _ _
      unfold moveMember
      repeat' first
        | with_reducible exact life_hasMember _ _
        | with_reducible exact Indirect.keeps_ctorMove life_prims tr h _ trivial
        | with_reducible exact life_prims.emplace _ trivial _
        | life_step
  copyAssign d q := by
    simp only [node]
    refine fun s hs => readObj_all fun r v hd => readObj_all fun r' w hq => ?_
    rw [M.bind_ok (show choose s = .ok (s.env.choice s.ti) { s with ti := s.ti + 1 } from rfl)]
    refine life_assign (s := { s with ti := s.ti + 1 }) hs hd ?_
    refine keeps_bind (life_writeObj _ _) fun _ => keeps_bind (life_rethrow _) fun _ =>
      life_each (fun k => ?_) K
    unfold copyAssignMember
    repeat' first
      | with_reducible exact life_hasMember _ _
      | with_reducible exact Indirect.keeps_ctorCopy life_prims tr h _
      | with_reducible exact Indirect.keeps_assignCopy life_prims tr h _ _ trivial
      | with_reducible exact Indirect.keeps_dtor life_prims tr h _ trivial
      | with_reducible exact life_prims.emplace _ trivial _
      | life_step
  moveAssign d q := by
    simp only [node]
    refine fun s hs => readObj_all fun r v hd => readObj_all fun r' w hq => ?_
    rw [M.bind_ok (show choose s = .ok (s.env.choice s.ti) { s with ti := s.ti + 1 } from rfl)]
    refine life_assign (s := { s with ti := s.ti + 1 }) hs hd ?_
    refine keeps_bind (life_writeObj _ _) fun _ => keeps_bind (life_writeObj _ _) fun _ =>
      keeps_bind (life_rethrow _) fun _ => life_each (fun k => ?_) K
    unfold moveAssignMember
    repeat' first
      | with_reducible exact life_hasMember _ _
      | with_reducible exact Indirect.keeps_ctorMove life_prims tr h _ trivial
      | with_reducible exact Indirect.keeps_assignMove life_prims tr h _ _ trivial trivial
      | with_reducible exact Indirect.keeps_dtor life_prims tr h _ trivial
      | with_reducible exact life_prims.emplace _ trivial _
      | life_step
  assignArg d x := by
    simp only [node]
    refine fun s hs => readObj_all fun r v hd => ?_
    rw [M.bind_ok (show choose s = .ok (s.env.choice s.ti) { s with ti := s.ti + 1 } from rfl)]
    refine life_assign (s := { s with ti := s.ti + 1 }) hs hd ?_
    repeat' life_step
  dtor _ p := by
    simp only [node]
    refine fun s hs => readObj_all fun r v hp => ?_
    have : LifeOk t₀ { s with heap := upd s.heap p (some ⟨r, none⟩), trace := s.trace ++ [.destroy p] } := by
      refine life_snoc hs ?_
      have : shape s.heap p = some ⟨r, true⟩ := by simp [shape, hp, Body.occupied]
      simp [Spec.anon, Spec.obey, this, shape_upd, Body.occupied]
    have := life_dropMembers tr h p K _ this
    simpa [M.bind_eq, writeBody, hp, emit] using this

theorem life_ops : ∀ n, TKeep (LifeOk t₀) (ops (N := N) tr T K n)
  | 0 => ⟨fun _ _ _ => keeps_diverge, fun _ _ _ => keeps_diverge, fun _ _ _ => keeps_diverge,
      fun _ _ => keeps_diverge, fun _ _ => keeps_diverge, fun _ _ => keeps_diverge, fun _ _ => keeps_diverge⟩
  | n + 1 => life_node tr T K (life_ops n)

theorem life_walk : ∀ (ks : List Nat) (l : Loc N), Keeps (LifeOk t₀) (walk l ks : M (NSt N A R V) _)
  | [], _ => keeps_pure _
  | _ :: ks, _ => keeps_bind (Indirect.keeps_deref life_prims _) fun _ => keeps_bind (life_readObj _) fun _ =>
      life_walk ks _

theorem life_resolve (P : Path N) : Keeps (LifeOk t₀) (resolve P : M (NSt N A R V) _) := life_walk _ _

/-- Every statement keeps the protocol, legal or not. -/
theorem life_exec (n : Nat) (o : NOp N A X) : Keeps (LifeOk t₀) (exec tr T K n o) := by
  have h := life_ops (N := N) (t₀ := t₀) tr T K n
  cases o <;> simp only [exec]
  all_goals
    repeat' first
      | with_reducible exact life_resolve _
      | with_reducible exact Indirect.keeps_deref life_prims _
      | with_reducible exact Indirect.keeps_ctorCopy life_prims tr h _
      | with_reducible exact Indirect.keeps_ctorCopyA life_prims tr h _ _
      | with_reducible exact Indirect.keeps_ctorMove life_prims tr h _ trivial
      | with_reducible exact Indirect.keeps_ctorMoveA life_prims tr h _ _ trivial
      | with_reducible exact Indirect.keeps_assignCopy life_prims tr h _ _ trivial
      | with_reducible exact Indirect.keeps_assignMove life_prims tr h _ _ trivial trivial
      | with_reducible exact Indirect.keeps_assignFrom life_prims tr h _ _ trivial
      | with_reducible exact Indirect.keeps_swap life_prims tr _ _ trivial trivial
      | with_reducible exact Indirect.keeps_dtor life_prims tr h _ trivial
      | with_reducible exact life_prims.emplace _ trivial _
      | with_reducible exact Indirect.keeps_constructFrom life_prims tr _ fun _ _ => h.make _ _ _
      | life_step
      | unfold Indirect.ctorInPlaceA

end
end Node
end Verif
