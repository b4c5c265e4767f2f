import Verif.Proofs.OpaqueLaws
import Verif.Demo
import Verif.PDemo

/-!
# C94: owners treat the types they own as opaque
-/

set_option autoImplicit false
set_option linter.unusedSectionVars false
set_option linter.unusedSimpArgs false

namespace Verif.Props
open Verif Verif.Opaque Verif.Spec.Opaque

section
variable {L A R V W X : Type} [DecidableEq L] [DecidableEq R]

/-- **C94.** `indirect` cannot tell types apart: let `Rv` relate the values of two types whose functions do related things.  In any two states that are alike the same call on owners of the one and of the
other has the same outcome, with related values, and leaves states that are alike: the same blocks are allocated, the same functions of the owned types were called in the same order. -/
theorem C94_indirect (tr : ATraits A R) (Rv : V → W → Prop) (T : TOps (St L A R (Obj V)) A X) (T' : TOps (St L A R (Obj W)) A X) (hT : AlikeT Rv T T')
    (o : Op L A V X) (o' : Op L A W X) (ho : AlikeOp Rv o o') : AlikeM (ObjRel Rv) (AlikeOut Rv) (Indirect.step tr T o) (Indirect.step tr T' o') :=
  step_rel objRel (.of hT) ho

/-- **C94**, indirect_cxx14.h. -/
theorem C94_indirect_cxx14 (tr : ATraits A R) (Rv : V → W → Prop) (T : TOps (St L A R (Obj V)) A X) (T' : TOps (St L A R (Obj W)) A X) (hT : AlikeT Rv T T')
    (o : Op L A V X) (o' : Op L A W X) (ho : AlikeOp Rv o o') : AlikeM (ObjRel Rv) (AlikeOut Rv) (Indirect14.step tr T o) (Indirect14.step tr T' o') :=
  step14_rel objRel (.of hT) ho

/-- **C94.** Every history of calls: nothing that a client of `indirect` sees depends on how the values of the owned type are represented. -/
theorem C94_history_indirect (tr : ATraits A R) (Rv : V → W → Prop) (T : TSpec V X) (T' : TSpec W X) (hT : Respects Rv T T') (cs : List (Op L A V X × Env)) (cs' : List (Op L A W X × Env))
    (hc : AlikeCalls Rv cs cs') : AlikeRun (ObjRel Rv) (AlikeOut Rv) (Indirect.run tr T cs (St.init : St L A R (Obj V))) (Indirect.run tr T' cs' St.init) :=
  runWith_alike (fun c c' s s' h hs => by
    show AlikeRes _ _ (Indirect.step tr (plain T) c.1 (s.enter c.2)) (Indirect.step tr (plain T') c'.1 (s'.enter c'.2))
    rw [h.2]; exact C94_indirect tr Rv _ _ (plain_alike hT) _ _ h.1 _ _ (enter_alike hs _)) hc _ _ (init_alike _)

/-- **C94**, indirect_cxx14.h. -/
theorem C94_history_indirect_cxx14 (tr : ATraits A R) (Rv : V → W → Prop) (T : TSpec V X) (T' : TSpec W X) (hT : Respects Rv T T') (cs : List (Op L A V X × Env)) (cs' : List (Op L A W X × Env))
    (hc : AlikeCalls Rv cs cs') : AlikeRun (ObjRel Rv) (AlikeOut Rv) (Indirect14.run tr T cs (St.init : St L A R (Obj V))) (Indirect14.run tr T' cs' St.init) :=
  runWith_alike (fun c c' s s' h hs => by
    show AlikeRes _ _ (Indirect14.step tr (plain T) c.1 (s.enter c.2)) (Indirect14.step tr (plain T') c'.1 (s'.enter c'.2))
    rw [h.2]; exact C94_indirect_cxx14 tr Rv _ _ (plain_alike hT) _ _ h.1 _ _ (enter_alike hs _)) hc _ _ (init_alike _)

/-- **C94.** Owners do not break invariants: if the functions of `T`, and clients that modify objects, establish and keep an invariant of the values of `T`, then every value that is seen through an
`indirect` in any history satisfies it, and so does every object that is alive. -/
theorem C94_invariant_indirect (tr : ATraits A R) (Q : V → Prop) (T : TSpec V X) (hT : KeepsT Q T) (cs : List (Op L A V X × Env)) (hc : ∀ c, c ∈ cs → OpKeeps Q c.1)
    (log : List (Seen (Out L A V))) (s : St L A R (Obj V)) (h : Indirect.run tr T cs St.init = .done log s) :
    (∀ v, .ret (.value v) ∈ log → Q v) ∧ ∀ p r v, s.heap p = some ⟨r, some v⟩ → Q v :=
  inv_run (C94_history_indirect tr (InvRel Q) T T (inv_respects hT) cs cs (each_refl fun c hm => ⟨inv_op (hc c hm), rfl⟩)) h

/-- **C94**, indirect_cxx14.h. -/
theorem C94_invariant_indirect_cxx14 (tr : ATraits A R) (Q : V → Prop) (T : TSpec V X) (hT : KeepsT Q T) (cs : List (Op L A V X × Env)) (hc : ∀ c, c ∈ cs → OpKeeps Q c.1)
    (log : List (Seen (Out L A V))) (s : St L A R (Obj V)) (h : Indirect14.run tr T cs St.init = .done log s) :
    (∀ v, .ret (.value v) ∈ log → Q v) ∧ ∀ p r v, s.heap p = some ⟨r, some v⟩ → Q v :=
  inv_run (C94_history_indirect_cxx14 tr (InvRel Q) T T (inv_respects hT) cs cs (each_refl fun c hm => ⟨inv_op (hc c hm), rfl⟩)) h

end

section
variable {L A R Ty V W X : Type} [DecidableEq L] [DecidableEq R] [DecidableEq Ty]

/-- **C94**, `polymorphic`; every derived type has its own relation. -/
theorem C94_polymorphic (tr : ATraits A R) (Rt : Ty → V → W → Prop) (P : POps (St L A R (PBody Ty V)) A Ty X) (P' : POps (St L A R (PBody Ty W)) A Ty X) (hP : AlikeP Rt P P')
    (o : POp L A Ty V X) (o' : POp L A Ty W X) (ho : AlikePOp Rt o o') : AlikeM (CBRel Rt) (AlikeOut (TyRel Rt)) (Polymorphic.step tr P o) (Polymorphic.step tr P' o') :=
  stepP_rel cbRel hP ho

/-- **C94**, polymorphic_cxx14.h. -/
theorem C94_polymorphic_cxx14 (tr : ATraits A R) (Rt : Ty → V → W → Prop) (P : POps (St L A R (PBody Ty V)) A Ty X) (P' : POps (St L A R (PBody Ty W)) A Ty X) (hP : AlikeP Rt P P')
    (o : POp L A Ty V X) (o' : POp L A Ty W X) (ho : AlikePOp Rt o o') : AlikeM (CBRel Rt) (AlikeOut (TyRel Rt)) (Polymorphic14.step tr P o) (Polymorphic14.step tr P' o') :=
  stepP14_rel cbRel hP ho

/-- **C94.** Every history of calls on `polymorphic` objects. -/
theorem C94_history_polymorphic (tr : ATraits A R) (Rt : Ty → V → W → Prop) (P : PSpec Ty V X) (P' : PSpec Ty W X) (hP : RespectsP Rt P P') (cs : List (POp L A Ty V X × Env))
    (cs' : List (POp L A Ty W X × Env)) (hc : AlikePCalls Rt cs cs') :
    AlikeRun (CBRel Rt) (AlikeOut (TyRel Rt)) (Polymorphic.run tr P cs (St.init : St L A R (PBody Ty V))) (Polymorphic.run tr P' cs' St.init) :=
  runWith_alike (fun c c' s s' h hs => by
    show AlikeRes _ _ (Polymorphic.step tr (plainP P) c.1 (s.enter c.2)) (Polymorphic.step tr (plainP P') c'.1 (s'.enter c'.2))
    rw [h.2]; exact C94_polymorphic tr Rt _ _ (plainP_alike hP) _ _ h.1 _ _ (enter_alike hs _)) hc _ _ (init_alike _)

/-- **C94**, polymorphic_cxx14.h. -/
theorem C94_history_polymorphic_cxx14 (tr : ATraits A R) (Rt : Ty → V → W → Prop) (P : PSpec Ty V X) (P' : PSpec Ty W X) (hP : RespectsP Rt P P') (cs : List (POp L A Ty V X × Env))
    (cs' : List (POp L A Ty W X × Env)) (hc : AlikePCalls Rt cs cs') :
    AlikeRun (CBRel Rt) (AlikeOut (TyRel Rt)) (Polymorphic14.run tr P cs (St.init : St L A R (PBody Ty V))) (Polymorphic14.run tr P' cs' St.init) :=
  runWith_alike (fun c c' s s' h hs => by
    show AlikeRes _ _ (Polymorphic14.step tr (plainP P) c.1 (s.enter c.2)) (Polymorphic14.step tr (plainP P') c'.1 (s'.enter c'.2))
    rw [h.2]; exact C94_polymorphic_cxx14 tr Rt _ _ (plainP_alike hP) _ _ h.1 _ _ (enter_alike hs _)) hc _ _ (init_alike _)

/-- **C94.** `polymorphic` does not break invariants; every derived type has its own, which its objects satisfy however they were copied, moved, swapped or assigned. -/
theorem C94_invariant_polymorphic (tr : ATraits A R) (Q : Ty → V → Prop) (P : PSpec Ty V X) (hP : KeepsP Q P) (cs : List (POp L A Ty V X × Env)) (hc : ∀ c, c ∈ cs → POpKeeps Q c.1)
    (log : List (Seen (Out L A (Ty × V)))) (s : St L A R (PBody Ty V)) (h : Polymorphic.run tr P cs St.init = .done log s) :
    (∀ ty v, .ret (.value (ty, v)) ∈ log → Q ty v) ∧ ∀ p r ty q v, s.heap p = some ⟨r, some ⟨ty, q, some v⟩⟩ → Q ty v :=
  invP_run (C94_history_polymorphic tr (InvP Q) P P (invP_respects hP) cs cs (each_refl fun c hm => ⟨invP_op (hc c hm), rfl⟩)) h

/-- **C94**, polymorphic_cxx14.h. -/
theorem C94_invariant_polymorphic_cxx14 (tr : ATraits A R) (Q : Ty → V → Prop) (P : PSpec Ty V X) (hP : KeepsP Q P) (cs : List (POp L A Ty V X × Env)) (hc : ∀ c, c ∈ cs → POpKeeps Q c.1)
    (log : List (Seen (Out L A (Ty × V)))) (s : St L A R (PBody Ty V)) (h : Polymorphic14.run tr P cs St.init = .done log s) :
    (∀ ty v, .ret (.value (ty, v)) ∈ log → Q ty v) ∧ ∀ p r ty q v, s.heap p = some ⟨r, some ⟨ty, q, some v⟩⟩ → Q ty v :=
  invP_run (C94_history_polymorphic_cxx14 tr (InvP Q) P P (invP_respects hP) cs cs (each_refl fun c hm => ⟨invP_op (hc c hm), rfl⟩)) h

end

/-! ## Examples -/

namespace OpaqueDemo

/-- `Demo.T` with another representation: pairs whose sum is the value. -/
def T' : TSpec (Nat × Nat) Nat where
  make xs n := if n = 13 then .error (.user 13) else .ok (0, match xs with
    | .none => 0
    | .pack xs => xs.sum
    | .ilist l xs => l.sum + xs.sum)
  copy v n := if n = 13 then .error (.user 13) else .ok (v.1 + v.2, 0)
  move v n := if n = 13 then (.error (.user 13), (90, 9)) else (.ok (v.2, v.1), (0, 0))
  copyAssign _ v n := if n = 13 then (some (.user 13), (8, 90)) else (none, v)
  moveAssign _ v n := if n = 13 then (some (.user 13), (8, 90), (9, 90)) else (none, (v.2, v.1), (0, 0))
  assignArg _ x n := if n = 13 then (some (.user 13), (8, 90)) else (none, (x, 0))
  assignable := true
  copyAssignable := true

/-- The pair stands for its sum. -/
def Sum (v : Nat) (w : Nat × Nat) : Prop := v = w.1 + w.2

/-- The functions of the two types respect the relation. -/
theorem respects : Respects Sum Demo.T T' where
  make xs n := by by_cases h : n = 13 <;> cases xs <;> simp [Demo.T, T', h, ExceptRel, Sum]
  copy v w n h := by by_cases e : n = 13 <;> simp_all [Demo.T, T', ExceptRel, Sum]
  move v w n h := by by_cases e : n = 13 <;> simp_all [Demo.T, T', ExceptRel, Sum, Nat.add_comm]
  copyAssign d d' v w n g h := by by_cases e : n = 13 <;> simp_all [Demo.T, T', Sum]
  moveAssign d d' v w n g h := by by_cases e : n = 13 <;> simp_all [Demo.T, T', Sum, Nat.add_comm]
  assignArg d d' x n g := by by_cases e : n = 13 <;> simp_all [Demo.T, T', Sum]
  assignable := rfl
  copyAssignable := rfl

/-- A history: an object is made, copied, modified, moved to an owner with another allocator, read. -/
def hist {V : Type} (f : V → V) : List (Op Nat Nat V Nat × Env) :=
  [(.make 0 (some 1) (.inPlace [3, 4]), Demo.fine 10), (.copy 1 0, Demo.fine 11), (.modify 1 f, Demo.fine 0), (.moveA 2 7 1, Demo.fine 12), (.deref 2, Demo.fine 0), (.assignCopy 0 2, Demo.fine 13),
    (.deref 0, Demo.fine 0)]

theorem hist_alike : AlikeCalls Sum (hist (· + 1)) (hist fun w => (w.1, w.2 + 1)) := by
  refine .cons ⟨.make _ _ _, rfl⟩ (.cons ⟨.copy _ _, rfl⟩ (.cons ⟨.modify _ _ _ ?_, rfl⟩ (.cons ⟨.moveA _ _ _, rfl⟩ (.cons ⟨.deref _, rfl⟩ (.cons ⟨.assignCopy _ _, rfl⟩ (.cons ⟨.deref _, rfl⟩ .nil))))))
  intro v w h
  simp only [Sum] at *
  omega

/-- Numbers up to 100. -/
def Small : TSpec Nat Nat where
  make xs n := if n = 13 then .error (.user 13) else .ok (min 100 (match xs with
    | .none => 0
    | .pack xs => xs.sum
    | .ilist l xs => l.sum + xs.sum))
  copy v n := if n = 13 then .error (.user 13) else .ok v
  move v n := if n = 13 then (.error (.user 13), 99) else (.ok v, 0)
  copyAssign _ v n := if n = 13 then (some (.user 13), 98) else (none, v)
  moveAssign _ v n := if n = 13 then (some (.user 13), 98, 99) else (none, v, 0)
  assignArg _ x n := if n = 13 then (some (.user 13), 98) else (none, min 100 x)
  assignable := true
  copyAssignable := true

theorem small : KeepsT (· ≤ 100) Small where
  make xs n v h := by by_cases e : n = 13 <;> simp [Small, e] at h; omega
  copy v n w q h := by by_cases e : n = 13 <;> simp_all [Small]
  move v n w q h := by by_cases e : n = 13 <;> simp_all [Small]
  moveLeft v n q := by by_cases e : n = 13 <;> simp [Small, e]
  copyAssign d v n g h := by by_cases e : n = 13 <;> simp [Small, e]; exact h
  moveAssign d v n g h := by by_cases e : n = 13 <;> simp [Small, e]; exact h
  moveAssignLeft d v n g h := by by_cases e : n = 13 <;> simp [Small, e]
  assignArg d x n g := by by_cases e : n = 13 <;> simp [Small, e]; omega

end OpaqueDemo

open OpaqueDemo in
/-- The invariant holds in every history in which clients keep it; `hist` is one. -/
example (log : List (Seen (Out Nat Nat Nat))) (s : St Nat Nat Nat (Obj Nat)) (h : Indirect.run (Demo.alloc false false false) Small (hist fun v => min 100 (v + 1)) St.init = .done log s) :
    ∀ v, .ret (.value v) ∈ log → v ≤ 100 :=
  (C94_invariant_indirect _ _ _ small _ (by simp [hist, OpKeeps]; intros; omega) _ _ h).1

open OpaqueDemo in
/-- The two histories really do something, and it is the same: 8 on the one side, pairs with sum 8 on the other. -/
example :
    (match Indirect.run (Demo.alloc false false false) Demo.T (hist (· + 1)) (St.init : St Nat Nat Nat (Obj Nat)) with
      | .done log _ => log == [.ret .unit, .ret .unit, .ret .unit, .ret .unit, .ret (.value 8), .ret (.self 0), .ret (.value 8)] | _ => false) = true ∧
    (match Indirect.run (Demo.alloc false false false) T' (hist fun w => (w.1, w.2 + 1)) (St.init : St Nat Nat Nat (Obj (Nat × Nat))) with
      | .done log _ => log == [.ret .unit, .ret .unit, .ret .unit, .ret .unit, .ret (.value (1, 7)), .ret (.self 0), .ret (.value (8, 0))] | _ => false) = true := by
  decide +kernel

open OpaqueDemo in
example : AlikeRun (ObjRel Sum) (AlikeOut Sum) (Indirect.run (Demo.alloc false false false) Demo.T (hist (· + 1)) (St.init : St Nat Nat Nat (Obj Nat)))
    (Indirect.run (Demo.alloc false false false) T' (hist fun w => (w.1, w.2 + 1)) St.init) :=
  C94_history_indirect _ _ _ _ respects _ _ hist_alike

open OpaqueDemo in
/-- The hypotheses of the statement about single calls hold for these types. -/
example : AlikeT (L := Nat) (A := Nat) (R := Nat) Sum (plain Demo.T) (plain T') := plain_alike respects

/-- An invariant that is not trivial: derived type `ty` has values `1000 * ty + k` or what is left after a move. -/
example : KeepsP (fun ty v => 1000 * ty ≤ v ∨ v = 0 ∨ v = 99) PDemo.P where
  make ty xs n v h := by
    by_cases e : n = 13 <;> simp [PDemo.P, e] at h
    exact .inl (by omega)
  copy ty v n w q h := by by_cases e : n = 13 <;> simp_all [PDemo.P]
  move ty v n w q h := by by_cases e : n = 13 <;> simp_all [PDemo.P]
  moveLeft ty v n q := by by_cases e : n = 13 <;> simp [PDemo.P, e]

end Verif.Props
