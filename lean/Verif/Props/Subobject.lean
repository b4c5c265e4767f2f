import Verif.Proofs.SubobjectLaws
import Verif.Props.PolyOps
import Verif.Props.Polymorphic14
import Verif.PDemo

/-!
# C95: a `polymorphic` gives access to the base class subobject of what it owns
-/

set_option autoImplicit false
set_option linter.unusedSectionVars false
set_option linter.unusedSimpArgs false

namespace Verif.Props
open Verif Verif.SubobjectProofs Verif.Spec.Subobject
open Verif.Subobject (Classes Ptr SCB SBody plainS)

section
variable {L A R Ty V X : Type} [DecidableEq L] [DecidableEq R] [DecidableEq Ty]

/-- **C95.** Wherever the compiler puts the `T` in a `U` (several base classes, virtual base classes): a call does what it does when there are no offsets.  The same result, exception or undefined behaviour,
the same owners, blocks, objects and events; and all pointers to base class subobjects are to the right place again. -/
theorem C95_same_polymorphic (K : Classes Ty) (tr : ATraits A R) (P : POps (St L A R (SBody Ty V)) A Ty X) (P' : POps (St L A R (PBody Ty V)) A Ty X) (hP : Objects K P P')
    (o : POp L A Ty V X) : Same K (Subobject.Polymorphic.step K tr P o) (Polymorphic.step tr P' o) :=
  same_iff.1 (stepP_rel cbRel (objects_iff.2 hP) o)

/-- **C95**, polymorphic_cxx14.h. -/
theorem C95_same_polymorphic_cxx14 (K : Classes Ty) (tr : ATraits A R) (P : POps (St L A R (SBody Ty V)) A Ty X) (P' : POps (St L A R (PBody Ty V)) A Ty X) (hP : Objects K P P')
    (o : POp L A Ty V X) : Same K (Subobject.Polymorphic14.step K tr P o) (Polymorphic14.step tr P' o) :=
  same_iff.1 (stepP14_rel cbRel (objects_iff.2 hP) o)

/-- Types that own nothing are as `C95_same_polymorphic` asks. -/
theorem C95_objects (K : Classes Ty) (P : PSpec Ty V X) : Objects (L := L) (A := A) (R := R) K (plainS P) (plainP P) := objects_iff.1 (plain_alike P)

/-- **C95.** Every history: clients see what they see when there are no offsets. -/
theorem C95_history_polymorphic (K : Classes Ty) (tr : ATraits A R) (P : PSpec Ty V X) (cs : List (POp L A Ty V X × Env)) :
    eraseRun (run K tr P cs (St.init : St L A R (SBody Ty V))) = Polymorphic.run tr P cs St.init ∧ (LegalRun K tr P cs (St.init : St L A R (SBody Ty V)) ↔ Polymorphic.LegalRun tr P cs St.init) := by
  have h := run_same (C := K) (legal := fun s c => Spec.PLegal tr (Polymorphic.abs s) c.1) (fun (c : POp L A Ty V X × Env) s hs => call_same (tr := tr) P c.1 c.2 hs) cs St.init placed_init
  exact ⟨h.1, h.2.2⟩

/-- **C95**, polymorphic_cxx14.h. -/
theorem C95_history_polymorphic_cxx14 (K : Classes Ty) (tr : ATraits A R) (P : PSpec Ty V X) (cs : List (POp L A Ty V X × Env)) :
    eraseRun (run14 K tr P cs (St.init : St L A R (SBody Ty V))) = Polymorphic14.run tr P cs St.init ∧
      (LegalRun14 K tr P cs (St.init : St L A R (SBody Ty V)) ↔ Polymorphic14.LegalRun tr P cs St.init) := by
  have h := run_same (C := K) (legal := fun s c => Spec.PLegal tr (Polymorphic.abs s) c.1) (fun (c : POp L A Ty V X × Env) s hs => call_same14 (tr := tr) P c.1 c.2 hs) cs St.init placed_init
  exact ⟨h.1, h.2.2⟩

/-- **C95.** Nothing that clients see depends on where the compiler puts base class subobjects, or on whether they are virtual. -/
theorem C95_layout_polymorphic (K K' : Classes Ty) (tr : ATraits A R) (P : PSpec Ty V X) (cs : List (POp L A Ty V X × Env)) :
    eraseRun (run K tr P cs (St.init : St L A R (SBody Ty V))) = eraseRun (run K' tr P cs St.init) :=
  (C95_history_polymorphic K tr P cs).1.trans (C95_history_polymorphic K' tr P cs).1.symm

/-- **C95**, polymorphic_cxx14.h. -/
theorem C95_layout_polymorphic_cxx14 (K K' : Classes Ty) (tr : ATraits A R) (P : PSpec Ty V X) (cs : List (POp L A Ty V X × Env)) :
    eraseRun (run14 K tr P cs (St.init : St L A R (SBody Ty V))) = eraseRun (run14 K' tr P cs St.init) :=
  (C95_history_polymorphic_cxx14 K tr P cs).1.trans (C95_history_polymorphic_cxx14 K' tr P cs).1.symm

/-- **C95.** No legal history has undefined behaviour: no pointer to a base class subobject is formed when there is no object, and no such pointer that clients get is to anything else. -/
theorem C95_safe_polymorphic (K : Classes Ty) (tr : ATraits A R) (S : tr.Sound) (P : PSpec Ty V X) (cs : List (POp L A Ty V X × Env)) (hl : LegalRun K tr P cs (St.init : St L A R (SBody Ty V))) :
    (∃ log s, run K tr P cs (St.init : St L A R (SBody Ty V)) = .done log s) ∨ ∃ log, run K tr P cs (St.init : St L A R (SBody Ty V)) = .terminated log := by
  have h := C95_history_polymorphic (L := L) (V := V) K tr P cs
  have k := C31_history_no_undefined_behaviour S cs (h.2.1 hl)
  rw [← h.1] at k
  cases hr : run K tr P cs (St.init : St L A R (SBody Ty V)) <;> rw [hr] at k <;> simp [eraseRun] at k ⊢

/-- **C95**, polymorphic_cxx14.h, for allocators that propagate on copy assignment only if they are always equal (see C41). -/
theorem C95_safe_polymorphic_cxx14 (K : Classes Ty) (tr : ATraits A R) (S : tr.Sound) (E : tr.Equality) (hq : tr.pocca = true → tr.alwaysEqual = true) (P : PSpec Ty V X)
    (cs : List (POp L A Ty V X × Env)) (hl : LegalRun14 K tr P cs (St.init : St L A R (SBody Ty V))) :
    (∃ log s, run14 K tr P cs (St.init : St L A R (SBody Ty V)) = .done log s) ∨ ∃ log, run14 K tr P cs (St.init : St L A R (SBody Ty V)) = .terminated log := by
  have h := C95_history_polymorphic_cxx14 (L := L) (V := V) K tr P cs
  have k := C55_no_undefined_behaviour S E hq cs (h.2.1 hl)
  rw [← h.1] at k
  cases hr : run14 K tr P cs (St.init : St L A R (SBody Ty V)) <;> rw [hr] at k <;> simp [eraseRun] at k ⊢

variable {K : Classes Ty} {tr : ATraits A R} {P : PSpec Ty V X} {s s' : St L A R (SBody Ty V)} {x y z : L} {q : Addr} {r t : Ptr}

namespace SubobjectLemmas

theorem reached (h : Reached K tr P s) : Placed K s ∧ Polymorphic.Reach tr P (erase s) := by
  obtain ⟨cs, log, hl, hr⟩ := h
  have k := run_same (C := K) (legal := fun s c => Spec.PLegal tr (Polymorphic.abs s) c.1) (fun (c : POp L A Ty V X × Env) s hs => call_same (tr := tr) P c.1 c.2 hs) cs St.init placed_init
  refine ⟨k.2.1 _ _ hr, C31_histories_reach (k.2.2.1 hl) (log := log) ?_⟩
  have e := k.1
  rw [show runWith _ cs St.init = _ from hr] at e
  exact e.symm

theorem reached14 (E : tr.Equality) (hq : tr.pocca = true → tr.alwaysEqual = true) (h : Reached14 K tr P s) : Placed K s ∧ Polymorphic.Reach tr P (erase s) := by
  obtain ⟨cs, log, hl, hr⟩ := h
  have k := run_same (C := K) (legal := fun s c => Spec.PLegal tr (Polymorphic.abs s) c.1) (fun (c : POp L A Ty V X × Env) s hs => call_same14 (tr := tr) P c.1 c.2 hs) cs St.init placed_init
  have e := k.1
  rw [show runWith _ cs St.init = _ from hr] at e
  have w := Polymorphic14.run_eq E hq P cs (St.init : St L A R (PBody Ty V))
  exact ⟨k.2.1 _ _ hr, C31_histories_reach (w.2.1 (k.2.2.1 hl)) (log := log) (w.1.symm.trans e.symm)⟩

/-- What an owner refers to, in terms of the state without offsets. -/
theorem refers (S : tr.Sound) (h : Placed K s ∧ Polymorphic.Reach tr P (erase s)) (hx : addr s x = some q) :
    ∃ a ty v, s.heap q = some ⟨a, some ⟨ty, some ⟨q, K.storage ty + K.base ty⟩, some v⟩⟩ ∧ Spec.valueOf (Polymorphic.abs (erase s)) x = some (ty, v) ∧
      Subobject.Polymorphic.deref x s = .ok ⟨q, K.storage ty + K.base ty⟩ s ∧ Subobject.Polymorphic.arrow x s = .ok ⟨q, K.storage ty + K.base ty⟩ s := by
  obtain ⟨a, ty, v, h1, h2⟩ := C31_control_blocks_complete S h.2 (x := x) hx
  replace h1 : (s.heap q).map _ = _ := h1
  cases hq : s.heap q with
  | none => rw [hq] at h1; cases h1
  | some c =>
    rw [hq] at h1
    obtain ⟨a', b⟩ := c
    cases b with
    | none => cases h1
    | some c =>
      obtain ⟨ty', p, u⟩ := c
      cases p with
      | none => cases h1
      | some p =>
        have hp := h.1 _ _ _ _ _ hq
        subst hp
        cases h1
        exact ⟨_, _, _, rfl, h2, deref_at hx hq⟩

/-- An owner of the same block with an object of the same type refers to the same place. -/
theorem same_place (S : tr.Sound) (h : Placed K s ∧ Polymorphic.Reach tr P (erase s)) (h' : Placed K s' ∧ Polymorphic.Reach tr P (erase s')) (ha : addr s' y = addr s x)
    (ht : (Spec.valueOf (Polymorphic.abs (erase s')) y).map (·.1) = (Spec.valueOf (Polymorphic.abs (erase s)) x).map (·.1)) (hr : Subobject.Polymorphic.deref x s = .ok r s) :
    Subobject.Polymorphic.deref y s' = .ok r s' := by
  obtain ⟨q, hx⟩ := deref_owns hr
  obtain ⟨_, ty, v, _, h1, h2, _⟩ := refers S h hx
  obtain ⟨_, ty', v', _, h3, h4, _⟩ := refers S h' (ha.trans hx)
  rw [h1, h3] at ht
  cases ht
  rw [hr] at h2
  cases h2
  exact h4

theorem reached_ret {o : POp L A Ty V X} {e : Env} {out : Out L A (Ty × V)} (h : Placed K s ∧ Polymorphic.Reach tr P (erase s)) (hl : Spec.PLegal tr (Polymorphic.abs (erase s)) o)
    (hc : Subobject.Polymorphic.call K tr (plainS P) o e s = .ok out s') :
    Polymorphic.call tr (plainP P) o e (erase s) = .ok out (erase s') ∧ Placed K s' ∧ Polymorphic.Reach tr P (erase s') := by
  have k := call_same (tr := tr) P o e h.1
  rw [hc] at k
  exact ⟨k.1.symm, k.2, .ret o e out h.2 hl k.1.symm⟩

theorem reached_threw {o : POp L A Ty V X} {e : Env} {ex : Exn} (h : Placed K s ∧ Polymorphic.Reach tr P (erase s)) (hl : Spec.PLegal tr (Polymorphic.abs (erase s)) o)
    (hc : Subobject.Polymorphic.call K tr (plainS P) o e s = .threw ex s') :
    Polymorphic.call tr (plainP P) o e (erase s) = .threw ex (erase s') ∧ Placed K s' ∧ Polymorphic.Reach tr P (erase s') := by
  have k := call_same (tr := tr) P o e h.1
  rw [hc] at k
  exact ⟨k.1.symm, k.2, .threw o e ex h.2 hl k.1.symm⟩

/-- A call that returns when there are no offsets returns. -/
theorem ret_of {o : POp L A Ty V X} {e : Env} {out : Out L A (Ty × V)} {t : St L A R (PBody Ty V)} (h : Placed K s) (hc : Polymorphic.call tr (plainP P) o e (erase s) = .ok out t) :
    ∃ s', Subobject.Polymorphic.call K tr (plainS P) o e s = .ok out s' ∧ erase s' = t := by
  have k := (call_same (tr := tr) P o e h).1
  rw [hc] at k
  cases hs : Subobject.Polymorphic.call K tr (plainS P) o e s <;> rw [hs] at k <;> cases k
  exact ⟨_, rfl, rfl⟩

theorem reached_ret14 (E : tr.Equality) (he : tr.pocca = true → tr.alwaysEqual = true) {o : POp L A Ty V X} {e : Env} {out : Out L A (Ty × V)} (h : Placed K s ∧ Polymorphic.Reach tr P (erase s))
    (hl : Spec.PLegal tr (Polymorphic.abs (erase s)) o) (hc : Subobject.Polymorphic14.call K tr (plainS P) o e s = .ok out s') :
    Polymorphic.call tr (plainP P) (Polymorphic14.fix P.base o) e (erase s) = .ok out (erase s') ∧ Placed K s' ∧ Polymorphic.Reach tr P (erase s') := by
  have k := call_same14 (tr := tr) P o e h.1
  rw [hc, Polymorphic14.call_eq tr E P o e _ (Polymorphic14.safe_of E he _ _)] at k
  exact ⟨k.1.symm, k.2, .ret _ e out h.2 ((Polymorphic14.legal_fix P.base).2 hl) k.1.symm⟩

theorem reached_threw14 (E : tr.Equality) (he : tr.pocca = true → tr.alwaysEqual = true) {o : POp L A Ty V X} {e : Env} {ex : Exn} (h : Placed K s ∧ Polymorphic.Reach tr P (erase s))
    (hl : Spec.PLegal tr (Polymorphic.abs (erase s)) o) (hc : Subobject.Polymorphic14.call K tr (plainS P) o e s = .threw ex s') :
    Polymorphic.call tr (plainP P) (Polymorphic14.fix P.base o) e (erase s) = .threw ex (erase s') ∧ Placed K s' ∧ Polymorphic.Reach tr P (erase s') := by
  have k := call_same14 (tr := tr) P o e h.1
  rw [hc, Polymorphic14.call_eq tr E P o e _ (Polymorphic14.safe_of E he _ _)] at k
  exact ⟨k.1.symm, k.2, .threw _ e ex h.2 ((Polymorphic14.legal_fix P.base).2 hl) k.1.symm⟩

theorem ret_of14 (E : tr.Equality) (he : tr.pocca = true → tr.alwaysEqual = true) {o : POp L A Ty V X} {e : Env} {out : Out L A (Ty × V)} {t : St L A R (PBody Ty V)} (h : Placed K s)
    (hc : Polymorphic.call tr (plainP P) (Polymorphic14.fix P.base o) e (erase s) = .ok out t) : ∃ s', Subobject.Polymorphic14.call K tr (plainS P) o e s = .ok out s' ∧ erase s' = t := by
  have k := (call_same14 (tr := tr) P o e h).1
  rw [Polymorphic14.call_eq tr E P o e _ (Polymorphic14.safe_of E he _ _), hc] at k
  cases hs : Subobject.Polymorphic14.call K tr (plainS P) o e s <;> rw [hs] at k <;> cases k
  exact ⟨_, rfl, rfl⟩

theorem prebinds_fix (base : Ty) (o : POp L A Ty V X) : Spec.prebinds (Polymorphic14.fix base o) = Spec.prebinds o := by
  cases o with
  | make x a c => cases c <;> rfl
  | _ => rfl

end SubobjectLemmas
open SubobjectLemmas

/-- **C95.** `*x` and `x->` are the `T` in the `U` that `x` owns: in its control block, where the `T` of an object of that dynamic type is. -/
theorem C95_refers_polymorphic (S : tr.Sound) (h : Reached K tr P s) (hx : addr s x = some q) :
    ∃ a ty v, s.heap q = some ⟨a, some ⟨ty, some ⟨q, K.storage ty + K.base ty⟩, some v⟩⟩ ∧ Spec.valueOf (Polymorphic.abs (erase s)) x = some (ty, v) ∧
      Subobject.Polymorphic.deref x s = .ok ⟨q, K.storage ty + K.base ty⟩ s ∧ Subobject.Polymorphic.arrow x s = .ok ⟨q, K.storage ty + K.base ty⟩ s :=
  refers S (reached h) hx

/-- **C95**, polymorphic_cxx14.h, for allocators that propagate on copy assignment only if they are always equal (see C41). -/
theorem C95_refers_polymorphic_cxx14 (S : tr.Sound) (E : tr.Equality) (he : tr.pocca = true → tr.alwaysEqual = true) (h : Reached14 K tr P s) (hx : addr s x = some q) :
    ∃ a ty v, s.heap q = some ⟨a, some ⟨ty, some ⟨q, K.storage ty + K.base ty⟩, some v⟩⟩ ∧ Spec.valueOf (Polymorphic.abs (erase s)) x = some (ty, v) ∧
      Subobject.Polymorphic14.deref x s = .ok ⟨q, K.storage ty + K.base ty⟩ s ∧ Subobject.Polymorphic14.arrow x s = .ok ⟨q, K.storage ty + K.base ty⟩ s :=
  refers S (reached14 E he h) hx

/-- **C95.** Different owners refer to different places, in different blocks. -/
theorem C95_distinct_polymorphic (S : tr.Sound) (h : Reached K tr P s) (hxy : x ≠ y) (hx : Subobject.Polymorphic.deref x s = .ok r s) (hy : Subobject.Polymorphic.deref y s = .ok t s) :
    r.block ≠ t.block := by
  obtain ⟨p, hp⟩ := deref_owns hx
  obtain ⟨q, hq⟩ := deref_owns hy
  obtain ⟨_, _, _, _, _, h1, _⟩ := refers S (reached h) hp
  obtain ⟨_, _, _, _, _, h2, _⟩ := refers S (reached h) hq
  rw [h1] at hx
  rw [h2] at hy
  cases hx
  cases hy
  exact fun e => hxy (C32_exclusive_ownership S (reached h).2 (p := p) hp (by show addr s y = _; rw [hq]; exact congrArg some e.symm))

/-- **C95**, polymorphic_cxx14.h, for allocators that propagate on copy assignment only if they are always equal (see C41). -/
theorem C95_distinct_polymorphic_cxx14 (S : tr.Sound) (E : tr.Equality) (he : tr.pocca = true → tr.alwaysEqual = true) (h : Reached14 K tr P s) (hxy : x ≠ y)
    (hx : Subobject.Polymorphic14.deref x s = .ok r s) (hy : Subobject.Polymorphic14.deref y s = .ok t s) : r.block ≠ t.block := by
  obtain ⟨p, hp⟩ := deref_owns hx
  obtain ⟨q, hq⟩ := deref_owns hy
  obtain ⟨_, _, _, _, _, h1, _⟩ := refers S (reached14 E he h) hp
  obtain ⟨_, _, _, _, _, h2, _⟩ := refers S (reached14 E he h) hq
  rw [show Subobject.Polymorphic14.deref x s = _ from h1] at hx
  rw [show Subobject.Polymorphic14.deref y s = _ from h2] at hy
  cases hx
  cases hy
  exact fun e => hxy (C32_exclusive_ownership S (reached14 E he h).2 (p := p) hp (by show addr s y = _; rw [hq]; exact congrArg some e.symm))

/-- **C95.** A call that does not create, destroy, assign to, move from or swap `z` leaves references to `*z` valid: they are to the same place as before. -/
theorem C95_kept_polymorphic (S : tr.Sound) (h : Reached K tr P s) {o : POp L A Ty V X} {e : Env} (hl : Spec.PLegal tr (Polymorphic.abs (erase s)) o) (hz : z ∉ Spec.prebinds o)
    (hc : (∃ out, Subobject.Polymorphic.call K tr (plainS P) o e s = .ok out s') ∨ ∃ ex, Subobject.Polymorphic.call K tr (plainS P) o e s = .threw ex s')
    (hr : Subobject.Polymorphic.deref z s = .ok r s) : Subobject.Polymorphic.deref z s' = .ok r s' := by
  have h := reached h
  have k : ((∃ out, Polymorphic.call tr (plainP P) o e (erase s) = .ok out (erase s')) ∨ ∃ ex, Polymorphic.call tr (plainP P) o e (erase s) = .threw ex (erase s')) ∧
      Placed K s' ∧ Polymorphic.Reach tr P (erase s') := by
    rcases hc with ⟨out, hc⟩ | ⟨ex, hc⟩
    · exact ⟨.inl ⟨_, (reached_ret h hl hc).1⟩, (reached_ret h hl hc).2⟩
    · exact ⟨.inr ⟨_, (reached_threw h hl hc).1⟩, (reached_threw h hl hc).2⟩
  refine same_place S h k.2 ?_ (C38_call_keeps_type S h.2 hl hz k.1) hr
  have e : s'.hs z = s.hs z := C38_call_keeps_reference S h.2 hl hz k.1
  unfold addr
  rw [e]

/-- **C95**, polymorphic_cxx14.h, for allocators that propagate on copy assignment only if they are always equal (see C41). -/
theorem C95_kept_polymorphic_cxx14 (S : tr.Sound) (E : tr.Equality) (he : tr.pocca = true → tr.alwaysEqual = true) (h : Reached14 K tr P s) {o : POp L A Ty V X} {e : Env} (hl : Spec.PLegal tr (Polymorphic.abs (erase s)) o) (hz : z ∉ Spec.prebinds o)
    (hc : (∃ out, Subobject.Polymorphic14.call K tr (plainS P) o e s = .ok out s') ∨ ∃ ex, Subobject.Polymorphic14.call K tr (plainS P) o e s = .threw ex s')
    (hr : Subobject.Polymorphic14.deref z s = .ok r s) : Subobject.Polymorphic14.deref z s' = .ok r s' := by
  have h := reached14 E he h
  have k : ((∃ out, Polymorphic.call tr (plainP P) (Polymorphic14.fix P.base o) e (erase s) = .ok out (erase s')) ∨ ∃ ex, Polymorphic.call tr (plainP P) (Polymorphic14.fix P.base o) e (erase s) = .threw ex (erase s')) ∧
      Placed K s' ∧ Polymorphic.Reach tr P (erase s') := by
    rcases hc with ⟨out, hc⟩ | ⟨ex, hc⟩
    · exact ⟨.inl ⟨_, (reached_ret14 E he h hl hc).1⟩, (reached_ret14 E he h hl hc).2⟩
    · exact ⟨.inr ⟨_, (reached_threw14 E he h hl hc).1⟩, (reached_threw14 E he h hl hc).2⟩
  refine same_place S h k.2 ?_ (C38_call_keeps_type S h.2 ((Polymorphic14.legal_fix P.base).2 hl) (by rw [prebinds_fix]; exact hz) k.1) hr
  have e : s'.hs z = s.hs z := C38_call_keeps_reference S h.2 ((Polymorphic14.legal_fix P.base).2 hl) (by rw [prebinds_fix]; exact hz) k.1
  unfold addr
  rw [e]

/-- **C95.** A reference to `*y` is to `*x` after `x` was move constructed from `y`. -/
theorem C95_moved_polymorphic (S : tr.Sound) (Rf : tr.Reflexive) (h : Reached K tr P s) (hx : Spec.Dead (Polymorphic.abs (erase s)) x) (hr : Subobject.Polymorphic.deref y s = .ok r s) (e : Env) :
    ∃ s', Subobject.Polymorphic.call K tr (plainS P) (.move x y) e s = .ok .unit s' ∧ Subobject.Polymorphic.deref x s' = .ok r s' := by
  have h := reached h
  obtain ⟨q, hq⟩ := deref_owns hr
  obtain ⟨_, ty, v, _, h1, _⟩ := refers S h hq
  cases hy : Polymorphic.abs (erase s) y with
  | none => simp [Spec.valueOf, hy] at h1
  | some k =>
    obtain ⟨t, h2, h3, h4⟩ := C36_move_transfers S h.2 Rf hx hy e
    obtain ⟨s', h5, rfl⟩ := ret_of h.1 h2
    refine ⟨s', h5, same_place S h (reached_ret (o := .move x y) h ⟨hx, _, hy⟩ h5).2 h4.address ?_ hr⟩
    rw [h3]
    simp [Spec.valueOf, Spec.put, hy]

/-- **C95**, polymorphic_cxx14.h, for allocators that propagate on copy assignment only if they are always equal (see C41). -/
theorem C95_moved_polymorphic_cxx14 (S : tr.Sound) (E : tr.Equality) (he : tr.pocca = true → tr.alwaysEqual = true) (h : Reached14 K tr P s) (hx : Spec.Dead (Polymorphic.abs (erase s)) x) (hr : Subobject.Polymorphic14.deref y s = .ok r s) (e : Env) :
    ∃ s', Subobject.Polymorphic14.call K tr (plainS P) (.move x y) e s = .ok .unit s' ∧ Subobject.Polymorphic14.deref x s' = .ok r s' := by
  have h := reached14 E he h
  obtain ⟨q, hq⟩ := deref_owns hr
  obtain ⟨_, ty, v, _, h1, _⟩ := refers S h hq
  cases hy : Polymorphic.abs (erase s) y with
  | none => simp [Spec.valueOf, hy] at h1
  | some k =>
    obtain ⟨t, h2, h3, h4⟩ := C36_move_transfers S h.2 ⟨E.refl⟩ hx hy e
    obtain ⟨s', h5, rfl⟩ := ret_of14 E he (o := .move x y) h.1 h2
    refine ⟨s', h5, same_place S h (reached_ret14 E he (o := .move x y) h ⟨hx, _, hy⟩ h5).2 h4.address ?_ hr⟩
    rw [h3]
    simp [Spec.valueOf, Spec.put, hy]

/-- **C95.** The same when `x` is assigned `y`, if the allocators are equal. -/
theorem C95_assigned_polymorphic (S : tr.Sound) (h : Reached K tr P s) (hxy : x ≠ y) {k l : Spec.Box A (Ty × V)} (hx : Polymorphic.abs (erase s) x = some k)
    (hy : Polymorphic.abs (erase s) y = some l) (ha : tr.eq k.alloc l.alloc = true) (hr : Subobject.Polymorphic.deref y s = .ok r s) (e : Env) :
    ∃ s', Subobject.Polymorphic.call K tr (plainS P) (.assignMove x y) e s = .ok (.self x) s' ∧ Subobject.Polymorphic.deref x s' = .ok r s' := by
  have h := reached h
  obtain ⟨q, hq⟩ := deref_owns hr
  obtain ⟨_, ty, v, _, h1, _⟩ := refers S h hq
  obtain ⟨b, w⟩ := l
  have hw : w = some (ty, v) := by simpa [Spec.valueOf, hy] using h1
  subst hw
  obtain ⟨t, h2, h3, h4, _⟩ := C36_assign_equal S h.2 hxy hx hy ha e
  obtain ⟨s', h5, rfl⟩ := ret_of h.1 h2
  refine ⟨s', h5, same_place S h (reached_ret (o := .assignMove x y) h ⟨⟨_, hx⟩, _, hy⟩ h5).2 h3 ?_ hr⟩
  simp [Spec.valueOf, h4, hy]

/-- **C95**, polymorphic_cxx14.h, for allocators that propagate on copy assignment only if they are always equal (see C41). -/
theorem C95_assigned_polymorphic_cxx14 (S : tr.Sound) (E : tr.Equality) (he : tr.pocca = true → tr.alwaysEqual = true) (h : Reached14 K tr P s) (hxy : x ≠ y) {k l : Spec.Box A (Ty × V)} (hx : Polymorphic.abs (erase s) x = some k)
    (hy : Polymorphic.abs (erase s) y = some l) (ha : tr.eq k.alloc l.alloc = true) (hr : Subobject.Polymorphic14.deref y s = .ok r s) (e : Env) :
    ∃ s', Subobject.Polymorphic14.call K tr (plainS P) (.assignMove x y) e s = .ok (.self x) s' ∧ Subobject.Polymorphic14.deref x s' = .ok r s' := by
  have h := reached14 E he h
  obtain ⟨q, hq⟩ := deref_owns hr
  obtain ⟨_, ty, v, _, h1, _⟩ := refers S h hq
  obtain ⟨b, w⟩ := l
  have hw : w = some (ty, v) := by simpa [Spec.valueOf, hy] using h1
  subst hw
  obtain ⟨t, h2, h3, h4, _⟩ := C36_assign_equal S h.2 hxy hx hy ha e
  obtain ⟨s', h5, rfl⟩ := ret_of14 E he (o := .assignMove x y) h.1 h2
  refine ⟨s', h5, same_place S h (reached_ret14 E he (o := .assignMove x y) h ⟨⟨_, hx⟩, _, hy⟩ h5).2 h3 ?_ hr⟩
  simp [Spec.valueOf, h4, hy]

/-- **C95.** Swapping exchanges what references are to. -/
theorem C95_swapped_polymorphic (S : tr.Sound) (h : Reached K tr P s) (hxy : x ≠ y) {k l : Spec.Box A (Ty × V)} (hx : Polymorphic.abs (erase s) x = some k)
    (hy : Polymorphic.abs (erase s) y = some l) (ha : tr.pocs = true ∨ tr.eq k.alloc l.alloc = true) (hr : Subobject.Polymorphic.deref x s = .ok r s)
    (ht : Subobject.Polymorphic.deref y s = .ok t s) (e : Env) :
    ∃ s', Subobject.Polymorphic.call K tr (plainS P) (.swap x y) e s = .ok .unit s' ∧ Subobject.Polymorphic.deref x s' = .ok t s' ∧ Subobject.Polymorphic.deref y s' = .ok r s' := by
  have h := reached h
  obtain ⟨t', h2, h3, h4, h5, h6, _⟩ := C37_swap S h.2 hx hy hxy ha e
  obtain ⟨s', h7, rfl⟩ := ret_of h.1 h2
  have k' := (reached_ret (o := .swap x y) h ⟨_, _, hx, hy, ha⟩ h7).2
  refine ⟨s', h7, same_place S h k' h3 ?_ ht, same_place S h k' h4 ?_ hr⟩
  · simp [Spec.valueOf, h5, hy]
  · simp [Spec.valueOf, h6, hx]

/-- **C95**, polymorphic_cxx14.h, for allocators that propagate on copy assignment only if they are always equal (see C41). -/
theorem C95_swapped_polymorphic_cxx14 (S : tr.Sound) (E : tr.Equality) (he : tr.pocca = true → tr.alwaysEqual = true) (h : Reached14 K tr P s) (hxy : x ≠ y) {k l : Spec.Box A (Ty × V)} (hx : Polymorphic.abs (erase s) x = some k)
    (hy : Polymorphic.abs (erase s) y = some l) (ha : tr.pocs = true ∨ tr.eq k.alloc l.alloc = true) (hr : Subobject.Polymorphic14.deref x s = .ok r s)
    (ht : Subobject.Polymorphic14.deref y s = .ok t s) (e : Env) :
    ∃ s', Subobject.Polymorphic14.call K tr (plainS P) (.swap x y) e s = .ok .unit s' ∧ Subobject.Polymorphic14.deref x s' = .ok t s' ∧ Subobject.Polymorphic14.deref y s' = .ok r s' := by
  have h := reached14 E he h
  obtain ⟨t', h2, h3, h4, h5, h6, _⟩ := C37_swap S h.2 hx hy hxy ha e
  obtain ⟨s', h7, rfl⟩ := ret_of14 E he (o := .swap x y) h.1 h2
  have k' := (reached_ret14 E he (o := .swap x y) h ⟨_, _, hx, hy, ha⟩ h7).2
  refine ⟨s', h7, same_place S h k' h3 ?_ ht, same_place S h k' h4 ?_ hr⟩
  · simp [Spec.valueOf, h5, hy]
  · simp [Spec.valueOf, h6, hx]

/-- **C95.** A copy refers to a place of its own, and the original to the one it referred to before. -/
theorem C95_copied_polymorphic (S : tr.Sound) (h : Reached K tr P s) (hx : Spec.Dead (Polymorphic.abs (erase s)) x) (hr : Subobject.Polymorphic.deref y s = .ok r s) (e : Env) {out : Out L A (Ty × V)}
    (hc : Subobject.Polymorphic.call K tr (plainS P) (.copy x y) e s = .ok out s') (hs : Subobject.Polymorphic.deref x s' = .ok t s') :
    Subobject.Polymorphic.deref y s' = .ok r s' ∧ t.block ≠ r.block := by
  have g := reached h
  have hne : y ≠ x := by
    rintro rfl
    obtain ⟨q, hq⟩ := deref_owns hr
    obtain ⟨_, ty, v, _, h1, _⟩ := refers S g hq
    have hx : Polymorphic.abs (erase s) y = none := hx
    simp [Spec.valueOf, hx] at h1
  obtain ⟨q, hq⟩ := deref_owns hr
  obtain ⟨_, ty, v, _, h1, _⟩ := refers S g hq
  have hl : Spec.PLegal tr (Polymorphic.abs (erase s)) (.copy x y : POp L A Ty V X) := by
    cases hy : Polymorphic.abs (erase s) y with
    | none => simp [Spec.valueOf, hy] at h1
    | some k => exact ⟨hx, _, hy⟩
  have hk := C95_kept_polymorphic S h hl (z := y) (by simp [Spec.prebinds, hne]) (.inl ⟨_, hc⟩) hr
  refine ⟨hk, ?_⟩
  have g' := (reached_ret g hl hc).2
  obtain ⟨p, hp⟩ := deref_owns hs
  obtain ⟨q, hq⟩ := deref_owns hk
  obtain ⟨_, _, _, _, _, h1, _⟩ := refers S g' hp
  obtain ⟨_, _, _, _, _, h2, _⟩ := refers S g' hq
  rw [h1] at hs
  rw [h2] at hk
  cases hs
  cases hk
  exact fun e => hne (C32_exclusive_ownership S g'.2 (p := q) hq (by show addr s' x = _; rw [hp]; exact congrArg some e))

/-- **C95**, polymorphic_cxx14.h, for allocators that propagate on copy assignment only if they are always equal (see C41). -/
theorem C95_copied_polymorphic_cxx14 (S : tr.Sound) (E : tr.Equality) (he : tr.pocca = true → tr.alwaysEqual = true) (h : Reached14 K tr P s) (hx : Spec.Dead (Polymorphic.abs (erase s)) x) (hr : Subobject.Polymorphic14.deref y s = .ok r s) (e : Env) {out : Out L A (Ty × V)}
    (hc : Subobject.Polymorphic14.call K tr (plainS P) (.copy x y) e s = .ok out s') (hs : Subobject.Polymorphic14.deref x s' = .ok t s') :
    Subobject.Polymorphic14.deref y s' = .ok r s' ∧ t.block ≠ r.block := by
  have g := reached14 E he h
  have hne : y ≠ x := by
    rintro rfl
    obtain ⟨q, hq⟩ := deref_owns hr
    obtain ⟨_, ty, v, _, h1, _⟩ := refers S g hq
    have hx : Polymorphic.abs (erase s) y = none := hx
    simp [Spec.valueOf, hx] at h1
  obtain ⟨q, hq⟩ := deref_owns hr
  obtain ⟨_, ty, v, _, h1, _⟩ := refers S g hq
  have hl : Spec.PLegal tr (Polymorphic.abs (erase s)) (.copy x y : POp L A Ty V X) := by
    cases hy : Polymorphic.abs (erase s) y with
    | none => simp [Spec.valueOf, hy] at h1
    | some k => exact ⟨hx, _, hy⟩
  have hk := C95_kept_polymorphic_cxx14 S E he h hl (z := y) (by simp [Spec.prebinds, hne]) (.inl ⟨_, hc⟩) hr
  refine ⟨hk, ?_⟩
  have g' := (reached_ret14 E he g hl hc).2
  obtain ⟨p, hp⟩ := deref_owns hs
  obtain ⟨q, hq⟩ := deref_owns hk
  obtain ⟨_, _, _, _, _, h1, _⟩ := refers S g' hp
  obtain ⟨_, _, _, _, _, h2, _⟩ := refers S g' hq
  rw [show Subobject.Polymorphic14.deref x s' = _ from h1] at hs
  rw [show Subobject.Polymorphic14.deref y s' = _ from h2] at hk
  cases hs
  cases hk
  exact fun e => hne (C32_exclusive_ownership S g'.2 (p := q) hq (by show addr s' x = _; rw [hp]; exact congrArg some e))

end

/-! ## Examples -/

namespace SubobjectDemo
open Demo

/-- Three types.  In type 1 the `T` is behind another base class of 8 bytes, in type 2 it is a virtual base class at the end. -/
def K : Classes Nat where
  storage ty := 16 + ty
  base ty := 8 * ty
  virt ty := ty == 2

/-- The five objects of `PDemo.build`. -/
def s1 : St Nat Nat Nat (SBody Nat Nat) :=
  match run K (alloc false false false) PDemo.P PDemo.build St.init with
  | .done _ s => s
  | _ => St.init

/-- Where `*x` is. -/
def place (s : St Nat Nat Nat (SBody Nat Nat)) (x : Nat) : Option (Nat × Nat) :=
  match Subobject.Polymorphic.deref x s with
  | .ok r _ => some (r.block, r.off)
  | _ => none

/-- The state after a call. -/
def then_ (s : St Nat Nat Nat (SBody Nat Nat)) (o : POp Nat Nat Nat Nat Nat) (e : Env) : St Nat Nat Nat (SBody Nat Nat) :=
  match Subobject.Polymorphic.call K (alloc false false false) (plainS PDemo.P) o e s with
  | .ok _ s' => s'
  | .threw _ s' => s'
  | _ => St.init

theorem s1_reached : Reached K (alloc false false false) PDemo.P s1 := by
  have h := C95_history_polymorphic (L := Nat) K (alloc false false false) PDemo.P PDemo.build
  have hl : LegalRun K (alloc false false false) PDemo.P PDemo.build St.init := h.2.2 (by decide)
  unfold s1
  rcases C95_safe_polymorphic K _ (alloc_sound _ _ _) PDemo.P _ hl with ⟨log, s, hr⟩ | ⟨log, hr⟩
  · exact ⟨_, log, hl, by rw [hr]⟩
  · have := h.1
    have h2 : (match Polymorphic.run (alloc false false false) PDemo.P PDemo.build St.init with | .terminated _ => true | _ => false) = false := by decide
    rw [← this, hr] at h2
    cases h2

/-- The hypotheses of the theorems are met: different offsets for different types, a place that travels with ownership. -/
example : place s1 1 = some (100, 25) ∧ place s1 2 = some (101, 34) ∧ place s1 3 = some (102, 16) ∧ place s1 4 = none ∧ place s1 5 = some (103, 34) ∧
    place (then_ s1 (.swap 1 2) full) 1 = some (101, 34) ∧ place (then_ s1 (.swap 1 2) full) 2 = some (100, 25) ∧
    place (then_ s1 (.move 6 1) full) 6 = some (100, 25) ∧ place (then_ s1 (.assignMove 2 1) full) 2 = some (100, 25) ∧
    place (then_ s1 (.copy 6 1) (fine 200)) 6 = some (200, 25) ∧ place (then_ s1 (.copy 6 1) (fine 200)) 1 = some (100, 25) ∧
    place (then_ s1 (.copy 6 1) (bad 200)) 1 = some (100, 25) := by decide

example : Subobject.Polymorphic.deref 1 s1 = .ok ⟨100, 25⟩ s1 := by
  obtain ⟨a, ty, v, h1, h2, h3, _⟩ := C95_refers_polymorphic (alloc_sound _ _ _) s1_reached (x := 1) (q := 100) (by decide)
  have : ty = 1 := by
    have h4 : (Spec.valueOf (Polymorphic.abs (erase s1)) 1).map (·.1) = some 1 := by decide
    rw [h2] at h4
    exact Option.some.inj h4
  subst this
  exact h3

/-- The same without offsets: the theorem about histories is about something. -/
example : outcome (Subobject.Polymorphic.call K (alloc false false false) (plainS PDemo.P) (.deref 2) full s1) = 0 ∧
    outcome (Subobject.Polymorphic.call K (alloc false false false) (plainS PDemo.P) (.deref 4) full s1) = 3 := by decide

/-- The hypotheses for polymorphic_cxx14.h are met, too. -/
example : (alloc false false false).Equality ∧ ((alloc false false false).pocca = true → (alloc false false false).alwaysEqual = true) ∧
    LegalRun14 K (alloc false false false) PDemo.P PDemo.build St.init ∧
    (match run14 K (alloc false false false) PDemo.P PDemo.build St.init with
      | .done _ s => [place s 1, place s 2, place s 3, place s 4, place s 5]
      | _ => []) = [some (100, 25), some (101, 34), some (102, 16), none, some (103, 16)] :=
  ⟨alloc_equality _ _ _, by decide, (C95_history_polymorphic_cxx14 (L := Nat) K (alloc false false false) PDemo.P PDemo.build).2.2
    ((Polymorphic14.run_eq (alloc_equality _ _ _) (by decide) _ _ _).2.2 (by decide)), by decide⟩

/-- Offsets matter: a pointer to the beginning of the block is not a pointer to the `T`. -/
example : outcome (Subobject.locate K ⟨100, 0⟩ s1) = 3 ∧ outcome (Subobject.locate K ⟨100, 25⟩ s1) = 0 := by decide

/-- Converting to a pointer to a virtual base class needs an object, to another base class does not. -/
example : outcome (Subobject.upcast K 2 ⟨300, 18⟩ s1) = 3 ∧ outcome (Subobject.upcast K 1 ⟨300, 17⟩ s1) = 0 ∧ outcome (Subobject.upcast K 2 ⟨101, 18⟩ s1) = 0 := by decide

end SubobjectDemo
end Verif.Props
