import Verif.Proofs.Looking
import Verif.Demo
import Verif.PDemo

/-!
# C92: owned objects that look at owners
-/

set_option autoImplicit false
set_option linter.unusedSectionVars false
set_option linter.unusedSimpArgs false

namespace Verif.Props
open Verif Verif.Looking Verif.Spec.Looking

section
variable {L A R V X : Type} [DecidableEq L] [DecidableEq R]

/-- **C92.** Whatever the functions of `T` do depending on owners: constructors and assignment operators that a function of `indirect` calls see all owners as they were when that function was
called, and destructors see what `dying` says.  (Constructors of `T` must not change owners; destructors and assignments may.) -/
theorem C92_indirect (tr : ATraits A R) (b c : Bool) (U : Owners L A → TOps (St L A R (Obj V)) A X) (hq : ∀ h, QuietT (U h)) (o : Op L A V X) (s : St L A R (Obj V)) :
    Indirect.step tr (looking b c U) o s = Indirect.step tr (fixed b c U s.hs (dying tr s.hs o)) o s :=
  step_agree (hq _) o (fun _ _ _ => rfl) s rfl

/-- **C92**, indirect_cxx14.h. -/
theorem C92_indirect_cxx14 (tr : ATraits A R) (b c : Bool) (U : Owners L A → TOps (St L A R (Obj V)) A X) (hq : ∀ h, QuietT (U h)) (o : Op L A V X) (s : St L A R (Obj V)) :
    Indirect14.step tr (looking b c U) o s = Indirect14.step tr (fixed b c U s.hs (dying tr s.hs o)) o s := by
  rw [step14, step14]
  exact step_agree (b := c) (c := c) (U := U) (hq _) o (fun _ _ _ => rfl) s rfl

/-- **C92.** A destructor of `T` is called only while some owner refers to the object: what it would do otherwise does not matter. -/
theorem C92_referred_indirect (tr : ATraits A R) (b c : Bool) (U : Owners L A → TOps (St L A R (Obj V)) A X) (hq : ∀ h, QuietT (U h)) (m : M (St L A R (Obj V)) Unit)
    (o : Op L A V X) (s : St L A R (Obj V)) :
    Indirect.step tr (looking b c (onlyReferred U m)) o s = Indirect.step tr (looking b c U) o s := by
  have h1 := step_agree (tr := tr) (b := b) (c := c) (D := (onlyReferred U m (dying tr s.hs o)).dtor) (hq s.hs) o (fun a p hp => if_pos hp) s rfl
  have h2 := step_agree (tr := tr) (b := b) (c := c) (U := onlyReferred U m) (D := (onlyReferred U m (dying tr s.hs o)).dtor) ⟨(hq s.hs).make, (hq s.hs).copyCtor, (hq s.hs).moveCtor⟩ o
    (fun _ _ _ => rfl) s rfl
  exact h2.trans h1.symm

/-- **C92**, indirect_cxx14.h. -/
theorem C92_referred_indirect_cxx14 (tr : ATraits A R) (b c : Bool) (U : Owners L A → TOps (St L A R (Obj V)) A X) (hq : ∀ h, QuietT (U h)) (m : M (St L A R (Obj V)) Unit)
    (o : Op L A V X) (s : St L A R (Obj V)) :
    Indirect14.step tr (looking b c (onlyReferred U m)) o s = Indirect14.step tr (looking b c U) o s := by
  rw [step14, step14]
  exact C92_referred_indirect tr c c U hq m o s

end

section
variable {L A R Ty V X : Type} [DecidableEq L] [DecidableEq R] [DecidableEq Ty]

/-- **C92**, polymorphic.h. -/
theorem C92_polymorphic (tr : ATraits A R) (base : Ty) (U : Owners L A → POps (St L A R (PBody Ty V)) A Ty X) (hq : ∀ h, QuietP (U h)) (o : POp L A Ty V X)
    (s : St L A R (PBody Ty V)) :
    Polymorphic.step tr (lookingP base U) o s = Polymorphic.step tr (fixedP base U s.hs (dyingP tr s.hs o)) o s :=
  stepP_agree (hq _) o (fun _ _ _ _ => rfl) s rfl

/-- **C92**, polymorphic_cxx14.h. -/
theorem C92_polymorphic_cxx14 (tr : ATraits A R) (base : Ty) (U : Owners L A → POps (St L A R (PBody Ty V)) A Ty X) (hq : ∀ h, QuietP (U h)) (o : POp L A Ty V X)
    (s : St L A R (PBody Ty V)) :
    Polymorphic14.step tr (lookingP base U) o s = Polymorphic14.step tr (fixedP base U s.hs (dyingP tr s.hs o)) o s :=
  stepP14_agree (hq _) o (fun _ _ _ _ => rfl) s rfl

/-- **C92**, polymorphic.h: a destructor is called only while some owner refers to the object. -/
theorem C92_referred_polymorphic (tr : ATraits A R) (base : Ty) (U : Owners L A → POps (St L A R (PBody Ty V)) A Ty X) (hq : ∀ h, QuietP (U h)) (m : M (St L A R (PBody Ty V)) Unit)
    (o : POp L A Ty V X) (s : St L A R (PBody Ty V)) :
    Polymorphic.step tr (lookingP base (onlyReferredP U m)) o s = Polymorphic.step tr (lookingP base U) o s := by
  have h1 := stepP_agree (tr := tr) (base := base) (D := (onlyReferredP U m (dyingP tr s.hs o)).dtor) (hq s.hs) o (fun ty a p hp => if_pos hp) s rfl
  have h2 := stepP_agree (tr := tr) (base := base) (U := onlyReferredP U m) (D := (onlyReferredP U m (dyingP tr s.hs o)).dtor)
    ⟨(hq s.hs).make, (hq s.hs).copyCtor, (hq s.hs).moveCtor⟩ o (fun _ _ _ _ => rfl) s rfl
  exact h2.trans h1.symm

/-- **C92**, polymorphic_cxx14.h. -/
theorem C92_referred_polymorphic_cxx14 (tr : ATraits A R) (base : Ty) (U : Owners L A → POps (St L A R (PBody Ty V)) A Ty X) (hq : ∀ h, QuietP (U h))
    (m : M (St L A R (PBody Ty V)) Unit) (o : POp L A Ty V X) (s : St L A R (PBody Ty V)) :
    Polymorphic14.step tr (lookingP base (onlyReferredP U m)) o s = Polymorphic14.step tr (lookingP base U) o s := by
  have h1 := stepP14_agree (tr := tr) (base := base) (D := (onlyReferredP U m (dyingP tr s.hs o)).dtor) (hq s.hs) o (fun ty a p hp => if_pos hp) s rfl
  have h2 := stepP14_agree (tr := tr) (base := base) (U := onlyReferredP U m) (D := (onlyReferredP U m (dyingP tr s.hs o)).dtor)
    ⟨(hq s.hs).make, (hq s.hs).copyCtor, (hq s.hs).moveCtor⟩ o (fun _ _ _ _ => rfl) s rfl
  exact h2.trans h1.symm

end

section
variable {L A R Ty V X : Type} [DecidableEq L] [DecidableEq R] [DecidableEq Ty]

/-- **C92.** A destructor of `T` cannot come back to the owner: the owner refers to the dying object still, so that destroying or assigning to an owner `x` of a type whose destructor calls `x = y`
is undefined, however often the calls are nested. -/
theorem C92_reentry_indirect (tr : ATraits A R) (T : TSpec V X) (n : Nat) {x y : L} (hne : x ≠ y) {s : St L A R (Obj V)} {a a' : A} {p : Addr} {v : V}
    (hx : s.hs x = some ⟨some p, a⟩) (hp : s.heap p = some ⟨tr.res a, some v⟩) (hy : s.hs y = some ⟨none, a'⟩) :
    Indirect.step tr (returning tr (plain T) x y (n + 1)) (.destroy x) s = .ub .deadObject ∧
      Indirect.step tr (returning tr (plain T) x y (n + 1)) (.assignCopy x y) s = .ub .deadObject ∧
      Indirect14.step tr (returning tr (plain T) x y (n + 1)) (.destroy x) s = .ub .deadObject ∧
      Indirect14.step tr (returning tr (plain T) x y (n + 1)) (.assignCopy x y) s = .ub .deadObject := by
  have hr := reset_of_ub (tr := tr) hx (returning_dtor (T := T) hne hx hp hy n)
  have h1 : Indirect.step tr (returning tr (plain T) x y (n + 1)) (.destroy x) s = .ub .deadObject := by
    simp [-bind_pure_comp, Indirect.step, Indirect.dtor, M.noexceptIf, M.bind_eq, hr]
  have h2 (T' : TOps (St L A R (Obj V)) A X) (hT : T'.dtor = (returning tr (plain T) x y (n + 1)).dtor) : Indirect.step tr T' (.assignCopy x y) s = .ub .deadObject := by
    have : Indirect.assignCopy tr T' x y s = .ub .deadObject := by
      rw [assignCopy_of_valueless hne hy]
      unfold M.andThen
      rw [reset_of_ub hx (by rw [hT]; exact returning_dtor (T := T) hne hx hp hy n)]
    simp [-bind_pure_comp, Indirect.step, M.bind_eq, this]
  exact ⟨h1, h2 _ rfl, h1, by rw [step14]; exact h2 _ rfl⟩

/-- **C92**, polymorphic.h and polymorphic_cxx14.h. -/
theorem C92_reentry_polymorphic (tr : ATraits A R) (P : PSpec Ty V X) (n : Nat) {x y : L} (hne : x ≠ y) {s : St L A R (PBody Ty V)} {a a' : A} {p : Addr} {c : CB Ty V} {v : V}
    (hx : s.hs x = some ⟨some p, a⟩) (hp : s.heap p = some ⟨tr.res a, some c⟩) (hv : c.u = some v) (hy : s.hs y = some ⟨none, a'⟩) :
    Polymorphic.step tr (returningP tr (plainP P) x y (n + 1)) (.destroy x) s = .ub .deadObject ∧
      Polymorphic.step tr (returningP tr (plainP P) x y (n + 1)) (.assignCopy x y) s = .ub .deadObject ∧
      Polymorphic14.step tr (returningP tr (plainP P) x y (n + 1)) (.destroy x) s = .ub .deadObject ∧
      Polymorphic14.step tr (returningP tr (plainP P) x y (n + 1)) (.assignCopy x y) s = .ub .deadObject := by
  have hr := resetP_of_ub (tr := tr) hx hp (returningP_dtor (P := P) hne hx hp hv hy n)
  have h1 : Polymorphic.step tr (returningP tr (plainP P) x y (n + 1)) (.destroy x) s = .ub .deadObject := by
    simp [-bind_pure_comp, Polymorphic.step, Polymorphic.dtor, M.noexceptIf, M.bind_eq, hr]
  have h2 : Polymorphic.step tr (returningP tr (plainP P) x y (n + 1)) (.assignCopy x y) s = .ub .deadObject := by
    have : Polymorphic.assignCopy tr (returningP tr (plainP P) x y (n + 1)) x y s = .ub .deadObject := by
      rw [assignCopyP_of_valueless hne hy]
      unfold M.andThen
      rw [hr]
    simp [-bind_pure_comp, Polymorphic.step, M.bind_eq, this]
  exact ⟨h1, h2, h1, h2⟩

end

/-- Types that do not look at owners are among those of the theorems. -/
example {L A R V X : Type} [DecidableEq L] [DecidableEq R] (T : TSpec V X) :
    QuietT (plain T : TOps (St L A R (Obj V)) A X) ∧ looking T.assignable T.copyAssignable (fun _ => plain T : Owners L A → TOps (St L A R (Obj V)) A X) = plain T :=
  ⟨plain_quiet T, rfl⟩

example {L A R Ty V X : Type} [DecidableEq L] [DecidableEq R] [DecidableEq Ty] (P : PSpec Ty V X) :
    QuietP (plainP P : POps (St L A R (PBody Ty V)) A Ty X) ∧ lookingP P.base (fun _ => plainP P : Owners L A → POps (St L A R (PBody Ty V)) A Ty X) = plainP P :=
  ⟨plainP_quiet P, rfl⟩

namespace LookingDemo
open Demo

/-- A type of numbers that knows the owner at 1: its copy and move constructors and its destructor record the object that owner has (999: none). -/
def noting (h : Owners Nat Nat) : TOps (St Nat Nat Nat (Obj Nat)) Nat Nat :=
  let note : M (St Nat Nat Nat (Obj Nat)) Unit := emit (.assign (((h 1).bind (·.p)).getD 999) .args)
  { plain T with
    copyCtor := fun a d q => do note; (plain T).copyCtor a d q
    moveCtor := fun a d q => do note; (plain T).moveCtor a d q
    dtor := fun a p => do note; (plain T).dtor a p }

/-- The same for derived types. -/
def notingP (h : Owners Nat Nat) : POps (St Nat Nat Nat (PBody Nat Nat)) Nat Nat Nat :=
  let note : M (St Nat Nat Nat (PBody Nat Nat)) Unit := emit (.assign (((h 1).bind (·.p)).getD 999) .args)
  { plainP PDemo.P with
    copyCtor := fun ty a d q => do note; (plainP PDemo.P).copyCtor ty a d q
    moveCtor := fun ty a d q => do note; (plainP PDemo.P).moveCtor ty a d q
    dtor := fun ty a p => do note; (plainP PDemo.P).dtor ty a p }

theorem noting_quiet (h : Owners Nat Nat) : QuietT (noting h) where
  make := (plain_quiet T).make
  copyCtor a d q := Quiet.ofKeep fun _ => Keep.bind Keep.emit fun _ => Keep.ofQuiet ((plain_quiet T).copyCtor a d q)
  moveCtor a d q := Quiet.ofKeep fun _ => Keep.bind Keep.emit fun _ => Keep.ofQuiet ((plain_quiet T).moveCtor a d q)

theorem notingP_quiet (h : Owners Nat Nat) : QuietP (notingP h) where
  make := (plainP_quiet PDemo.P).make
  copyCtor ty a d q := Quiet.ofKeep fun _ => Keep.bind Keep.emit fun _ => Keep.ofQuiet ((plainP_quiet PDemo.P).copyCtor ty a d q)
  moveCtor ty a d q := Quiet.ofKeep fun _ => Keep.bind Keep.emit fun _ => Keep.ofQuiet ((plainP_quiet PDemo.P).moveCtor ty a d q)

/-- What a call does to the storage. -/
def does {B α : Type} (s : St Nat Nat Nat B) (m : M (St Nat Nat Nat B) α) : List (Ev Nat) :=
  match m s with
  | .ok _ s' => s'.trace.drop s.trace.length
  | _ => []

/-- Move assignment with equal allocators: the destructor of the old object (100) sees the new one (101) in owner 1. -/
example : (∀ h, QuietT (noting h)) ∧ does s0 (Indirect.step (alloc false false false) (looking true true noting) (.assignMove 1 2)) =
    [.assign 101 .args, .destroy 100, .dealloc 5 100] := ⟨noting_quiet, by decide⟩

/-- With different allocators the move constructor and the destructor see the old one. -/
example : does (s0.enter (fine 300)) (Indirect.step (alloc false false false) (looking true true noting) (.assignMove 1 3)) =
    [.alloc 5 300, .assign 100 .args, .construct 300 (.moveOf 102), .assign 100 .args, .destroy 100, .dealloc 5 100] := by decide

/-- As they do in copy assignment, and in the destructor of the owner. -/
example : does (s0.enter (fine 300)) (Indirect14.step (alloc false false false) (looking true true noting) (.assignCopy 1 3)) =
    [.alloc 5 300, .assign 100 .args, .construct 300 (.copyOf 102), .assign 100 .args, .destroy 100, .dealloc 5 100] ∧
    does s0 (Indirect.step (alloc false false false) (looking true true noting) (.destroy 1)) = [.assign 100 .args, .destroy 100, .dealloc 5 100] := by decide

/-- Derived types. -/
example : (∀ h, QuietP (notingP h)) ∧
    does PDemo.s0 (Polymorphic.step (alloc false false false) (lookingP 0 notingP) (.assignMove 1 2)) = [.assign 101 .args, .destroy 100, .dealloc 5 100] ∧
    does (PDemo.s0.enter (fine 300)) (Polymorphic14.step (alloc false false false) (lookingP 0 notingP) (.assignCopy 1 3)) =
      [.alloc 5 300, .assign 100 .args, .construct 300 (.copyOf 102), .assign 100 .args, .destroy 100, .dealloc 5 100] := ⟨notingP_quiet, by decide, by decide⟩

/-- The destructor of the object of owner 1 assigns the valueless owner 4 to owner 1. -/
example : (1 : Nat) ≠ 4 ∧ s0.hs 1 = some ⟨some 100, 5⟩ ∧ s0.heap 100 = some ⟨5, some 7⟩ ∧ s0.hs 4 = some ⟨none, 6⟩ := by decide

example : PDemo.s0.hs 1 = some ⟨some 100, 5⟩ ∧ PDemo.s0.heap 100 = some ⟨5, some ⟨1, some 100, some 1007⟩⟩ ∧ PDemo.s0.hs 4 = some ⟨none, 6⟩ := by decide

end LookingDemo
end Verif.Props
