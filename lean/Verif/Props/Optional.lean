import Verif.PDemo
import Verif.Props.Containers14
import Verif.Proofs.Optional

/-!
# C79: optionals of `indirect` or `polymorphic`

`H`: the type of the contained objects, `sw` its function `swap`; `ostate abs s`: the optionals and variables of a state as
values; `Optional.Reach … s`: a program can get into state `s`.  `Spec.Behaves` and `Spec.Swaps` are what the theorems use
of the contained type; C47 and `C79_swaps_*` show that all four class templates have it.
-/

set_option autoImplicit false
set_option linter.unusedSectionVars false

namespace Verif.Props
open Verif Spec

section
variable {L A R V X Ty : Type} [DecidableEq L] [DecidableEq R] [DecidableEq Ty] {tr : ATraits A R}

/-- `swap` of the four class templates exchanges the values, and the allocators if they propagate; it does not throw. -/
theorem C79_swaps_indirect (S : tr.Sound) (Rf : tr.Reflexive) (T : TSpec V X) :
    Swaps tr Indirect.abs (Composite.IOk tr) (Optional.swapIndirect (L := L) tr T) := Optional.indirect_swaps S Rf T

theorem C79_swaps_indirect14 (S : tr.Sound) (Rf : tr.Reflexive) (T : TSpec V X) :
    Swaps tr Indirect.abs (Composite.IOk tr) (Optional.swapIndirect14 (L := L) tr T) := Optional.indirect14_swaps S Rf T

theorem C79_swaps_polymorphic (S : tr.Sound) (Rf : tr.Reflexive) (P : PSpec Ty V X) :
    Swaps tr Polymorphic.abs (Composite.POk tr) (Optional.swapPolymorphic (L := L) tr P) := Optional.polymorphic_swaps S Rf P

theorem C79_swaps_polymorphic14 (E : tr.Equality) (S : tr.Sound) (Rf : tr.Reflexive) (P : PSpec Ty V X) :
    Swaps tr Polymorphic.abs (Composite.POk tr) (Optional.swapPolymorphic14 (L := L) tr P) :=
  Optional.polymorphic14_swaps E S Rf P

end

open Optional

section
variable {C S A R W X I F : Type} [DecidableEq C]
variable {H : Holder (Optional.Cell C) S W I F} {sw : Optional.Cell C → Optional.Cell C → Env → M S Unit} {abs : S → Boxes (Optional.Cell C) A W}
variable {Ok : S → Prop} {init : S} {tr : ATraits A R} {T : TSpec W X} {s : OS C S} {x y : C} {a b : Box A W}
variable {o p : Option (Box A W)}

/-- No legal operation in a reachable state is undefined behaviour. -/
theorem C79_no_undefined_behaviour (B : Behaves tr T abs Ok H) (K : Swaps tr abs Ok sw) (h0 : Ok init)
    (hd : ∀ l, abs init l = none) (h : Reach tr H sw abs init s) (q : OOp C I F) (es : Nat → Env)
    (hl : OLegal tr (ostate abs s) q) :
    (∃ s', call H sw q es s = .ok () s') ∨ (∃ e s', call H sw q es s = .threw e s') ∨
      call H sw q es s = .terminated := by
  have := call_inv B K (h.inv B K h0 hd) q es hl
  cases hc : call H sw q es s with
  | ok u s' => exact .inl ⟨s', rfl⟩
  | threw e s' => exact .inr (.inl ⟨e, s', rfl⟩)
  | terminated => exact .inr (.inr rfl)
  | ub u => rw [hc] at this; exact this.elim
  | diverged => rw [hc] at this; exact this.elim

/-- `optional()`: an empty optional, and nothing else changes. -/
theorem C79_default (B : Behaves tr T abs Ok H) (K : Swaps tr abs Ok sw) (h0 : Ok init) (hd : ∀ l, abs init l = none)
    (h : Reach tr H sw abs init s) (es : Nat → Env) (hx : (ostate abs s).opts x = none) :
    Ends (call H sw (.none x) es s) (fun s' => ostate abs s' = (ostate abs s).setOpt x (some none))
      (fun _ => False) False :=
  (none_ends B (h.inv B K h0 hd) hx es).mono (fun _ h => h.2) (fun _ h => h) (fun h => h)

/-- Construction in place: the optional contains an object with a value, and nothing else changes; or an exception, and
nothing changes. -/
theorem C79_in_place (B : Behaves tr T abs Ok H) (K : Swaps tr abs Ok sw) (h0 : Ok init) (hd : ∀ l, abs init l = none)
    (h : Reach tr H sw abs init s) (i : I) (es : Nat → Env) (hx : (ostate abs s).opts x = none) :
    Ends (call H sw (.inPlace x i) es s)
      (fun s' => ∃ c v, ostate abs s' = (ostate abs s).setOpt x (some (some ⟨c, some v⟩)))
      (fun s' => ostate abs s' = ostate abs s) False :=
  (inPlace_ends B (h.inv B K h0 hd) hx i es).mono (fun _ ⟨c, v, h⟩ => ⟨c, v, h.2⟩) (fun _ h => h.2) (fun h => h)

/-- Construction from a variable: a copy, or an exception and nothing changes; or what the variable was, which is left
valueless, and never an exception. -/
theorem C79_from_value (B : Behaves tr T abs Ok H) (K : Swaps tr abs Ok sw) (h0 : Ok init) (hd : ∀ l, abs init l = none)
    (h : Reach tr H sw abs init s) (es : Nat → Env) (hx : (ostate abs s).opts x = none)
    (hy : (ostate abs s).vars y = some b) :
    Ends (call H sw (.fromCopy x y) es s)
      (fun s' => ∃ b', CopyOf tr T b b' ∧ ostate abs s' = (ostate abs s).setOpt x (some (some b')))
      (fun s' => ostate abs s' = ostate abs s) False ∧
    Ends (call H sw (.fromMove x y) es s)
      (fun s' => ostate abs s' = ((ostate abs s).setVar y (some (leftBehind b))).setOpt x (some (some b)))
      (fun _ => False) False :=
  ⟨(fromCopy_ends B (h.inv B K h0 hd) hx hy es).mono (fun _ ⟨b', h1, h2⟩ => ⟨b', h1, h2.2⟩) (fun _ h => h.2) (fun h => h),
   (fromMove_ends B (h.inv B K h0 hd) hx hy es).mono (fun _ h => h.2) (fun _ h => h) (fun h => h)⟩

/-- Copy construction: the new optional is empty if `y` is, and otherwise contains a copy of what `y` contains, with its own
copy of the owned object; nothing else changes, `y` neither.  Or an exception, and nothing changes. -/
theorem C79_copy (B : Behaves tr T abs Ok H) (K : Swaps tr abs Ok sw) (h0 : Ok init) (hd : ∀ l, abs init l = none)
    (h : Reach tr H sw abs init s) (es : Nat → Env) (hx : (ostate abs s).opts x = none)
    (hy : (ostate abs s).opts y = some o) :
    Ends (call H sw (.copy x y) es s)
      (fun s' => ∃ o', OptCopy tr T o o' ∧ ostate abs s' = (ostate abs s).setOpt x (some o'))
      (fun s' => ostate abs s' = ostate abs s) False :=
  (copy_ends B (h.inv B K h0 hd) hx hy es).mono (fun _ ⟨o', h1, h2⟩ => ⟨o', h1, h2.2⟩) (fun _ h => h.2) (fun h => h)

/-- Move construction: the new optional is what `y` was.  `y` is empty only if it was empty: otherwise it still contains an
object, which is valueless.  It never throws. -/
theorem C79_move (B : Behaves tr T abs Ok H) (K : Swaps tr abs Ok sw) (h0 : Ok init) (hd : ∀ l, abs init l = none)
    (h : Reach tr H sw abs init s) (es : Nat → Env) (hx : (ostate abs s).opts x = none)
    (hy : (ostate abs s).opts y = some o) :
    Ends (call H sw (.move x y) es s)
      (fun s' => ostate abs s' = ((ostate abs s).setOpt y (some (o.map leftBehind))).setOpt x (some o))
      (fun _ => False) False :=
  (move_ends B (h.inv B K h0 hd) hx hy es).mono (fun _ h => h.2) (fun _ h => h) (fun h => h)

/-- Destruction: the optional is gone, and nothing else changes. -/
theorem C79_destroy (B : Behaves tr T abs Ok H) (K : Swaps tr abs Ok sw) (h0 : Ok init) (hd : ∀ l, abs init l = none)
    (h : Reach tr H sw abs init s) (es : Nat → Env) (hx : (ostate abs s).opts x = some o) :
    Ends (call H sw (.destroy x) es s) (fun s' => ostate abs s' = (ostate abs s).setOpt x none) (fun _ => False) False :=
  (destroy_ends B (h.inv B K h0 hd) hx es).mono (fun _ h => h.2) (fun _ h => h) (fun h => h)

/-- `reset`: the optional is empty, and nothing else changes. -/
theorem C79_reset (B : Behaves tr T abs Ok H) (K : Swaps tr abs Ok sw) (h0 : Ok init) (hd : ∀ l, abs init l = none)
    (h : Reach tr H sw abs init s) (es : Nat → Env) (hx : (ostate abs s).opts x = some o) :
    Ends (call H sw (.reset x) es s) (fun s' => ostate abs s' = (ostate abs s).setOpt x (some none))
      (fun _ => False) False :=
  (reset_ends B (h.inv B K h0 hd) hx (es 0)).mono (fun _ h => h.2) (fun _ h => h) (fun h => h)

/-- `emplace`: the optional contains an object with a value; or an exception, and the optional is empty.  Nothing else
changes. -/
theorem C79_emplace (B : Behaves tr T abs Ok H) (K : Swaps tr abs Ok sw) (h0 : Ok init) (hd : ∀ l, abs init l = none)
    (h : Reach tr H sw abs init s) (i : I) (es : Nat → Env) (hx : (ostate abs s).opts x = some o) :
    Ends (call H sw (.emplace x i) es s)
      (fun s' => ∃ c v, ostate abs s' = (ostate abs s).setOpt x (some (some ⟨c, some v⟩)))
      (fun s' => ostate abs s' = (ostate abs s).setOpt x (some none)) False :=
  (emplace_ends B (h.inv B K h0 hd) hx i es).mono (fun _ ⟨c, v, h⟩ => ⟨c, v, h.2⟩) (fun _ h => h.2) (fun h => h)

/-- Copy assignment between different optionals: `x` becomes a copy of `y`, and nothing else changes, `y` neither.  After an
exception `x` contains an object exactly if it did before, and nothing else changes. -/
theorem C79_assign_copy (B : Behaves tr T abs Ok H) (K : Swaps tr abs Ok sw) (h0 : Ok init) (hd : ∀ l, abs init l = none)
    (h : Reach tr H sw abs init s) (es : Nat → Env) (hne : x ≠ y) (hx : (ostate abs s).opts x = some o)
    (hy : (ostate abs s).opts y = some p) :
    Ends (call H sw (.assignCopy x y) es s)
      (fun s' => ∃ o', OptAssignCopy tr T o p o' ∧ ostate abs s' = (ostate abs s).setOpt x (some o'))
      (fun s' => ∃ o', OptAssignCopyThrew o o' ∧ ostate abs s' = (ostate abs s).setOpt x (some o')) False :=
  (assignCopy_ends B (h.inv B K h0 hd) hne hx hy es).mono (fun _ ⟨o', h1, h2⟩ => ⟨o', h1, h2.2⟩)
    (fun _ ⟨o', h1, h2⟩ => ⟨o', h1, h2.2⟩) (fun h => h)

/-- Move assignment between different optionals: `x` becomes what `y` was.  It throws only if both contain objects, with
unequal allocators, and then leaves `x` as it was.  `std::terminate` is called only if these allocators propagate or claim
to be always equal. -/
theorem C79_assign_move (B : Behaves tr T abs Ok H) (K : Swaps tr abs Ok sw) (h0 : Ok init) (hd : ∀ l, abs init l = none)
    (h : Reach tr H sw abs init s) (es : Nat → Env) (hne : x ≠ y) (hx : (ostate abs s).opts x = some o)
    (hy : (ostate abs s).opts y = some p) :
    Ends (call H sw (.assignMove x y) es s)
      (fun s' => ∃ o' p', OptAssignMove tr T o p o' p' ∧
        ostate abs s' = ((ostate abs s).setOpt y (some p')).setOpt x (some o'))
      (fun s' => ∃ p', OptAssignMoveThrew tr o p p' ∧ ostate abs s' = (ostate abs s).setOpt y (some p'))
      (OptUnequal tr o p ∧ (tr.pocma || tr.alwaysEqual) = true) :=
  (assignMove_ends B (h.inv B K h0 hd) hne hx hy es).mono (fun _ ⟨o', p', h1, h2⟩ => ⟨o', p', h1, h2.2⟩)
    (fun _ ⟨p', h1, h2⟩ => ⟨p', h1, h2.2⟩) (fun h => h)

/-- Self-assignment changes nothing and does not throw. -/
theorem C79_assign_self (B : Behaves tr T abs Ok H) (K : Swaps tr abs Ok sw) (h0 : Ok init) (hd : ∀ l, abs init l = none)
    (h : Reach tr H sw abs init s) (es : Nat → Env) (hx : (ostate abs s).opts x = some o) :
    Ends (call H sw (.assignCopy x x) es s) (fun s' => ostate abs s' = ostate abs s) (fun _ => False) False ∧
    Ends (call H sw (.assignMove x x) es s) (fun s' => ostate abs s' = ostate abs s) (fun _ => False) False :=
  have := assignSelf_ends B (sw := sw) (h.inv B K h0 hd) hx es
  ⟨this.1.mono (fun _ h => h.2) (fun _ h => h) (fun h => h), this.2.mono (fun _ h => h.2) (fun _ h => h) (fun h => h)⟩

/-- Assignment from a variable of the contained type is like assignment from an optional that contains it. -/
theorem C79_assign_value (B : Behaves tr T abs Ok H) (K : Swaps tr abs Ok sw) (h0 : Ok init) (hd : ∀ l, abs init l = none)
    (h : Reach tr H sw abs init s) (es : Nat → Env) (hx : (ostate abs s).opts x = some o)
    (hy : (ostate abs s).vars y = some b) :
    Ends (call H sw (.setCopy x y) es s)
      (fun s' => ∃ o', OptAssignCopy tr T o (some b) o' ∧ ostate abs s' = (ostate abs s).setOpt x (some o'))
      (fun s' => ∃ o', OptAssignCopyThrew o o' ∧ ostate abs s' = (ostate abs s).setOpt x (some o')) False ∧
    Ends (call H sw (.setMove x y) es s)
      (fun s' => ∃ o' b', OptAssignMove tr T o (some b) o' (some b') ∧
        ostate abs s' = ((ostate abs s).setVar y (some b')).setOpt x (some o'))
      (fun s' => ∃ b', OptAssignMoveThrew tr o (some b) (some b') ∧ ostate abs s' = (ostate abs s).setVar y (some b'))
      (OptUnequal tr o (some b) ∧ (tr.pocma || tr.alwaysEqual) = true) :=
  ⟨(setCopy_ends B (h.inv B K h0 hd) hx hy es).mono (fun _ ⟨o', h1, h2⟩ => ⟨o', h1, h2.2⟩)
    (fun _ ⟨o', h1, h2⟩ => ⟨o', h1, h2.2⟩) (fun h => h),
   (setMove_ends B (h.inv B K h0 hd) hx hy es).mono (fun _ ⟨o', b', h1, h2⟩ => ⟨o', b', h1, h2.2⟩)
    (fun _ ⟨b', h1, h2⟩ => ⟨b', h1, h2.2⟩) (fun h => h)⟩

/-- `swap` of different optionals exchanges what they contain, also if one or both are empty, and never throws.  Allocators
are exchanged with the objects, unless both contain objects and allocators do not propagate on swap. -/
theorem C79_swap (B : Behaves tr T abs Ok H) (K : Swaps tr abs Ok sw) (h0 : Ok init) (hd : ∀ l, abs init l = none)
    (h : Reach tr H sw abs init s) (es : Nat → Env) (hne : x ≠ y) (hx : (ostate abs s).opts x = some o)
    (hy : (ostate abs s).opts y = some p) (hs : ∀ a b, o = some a → p = some b → MaySwap tr a b) :
    Ends (call H sw (.swap x y) es s)
      (fun s' => ostate abs s' =
        ((ostate abs s).setOpt y (some (OptSwap tr o p).2)).setOpt x (some (OptSwap tr o p).1))
      (fun _ => False) False :=
  (swap_ends B K (h.inv B K h0 hd) hne hx hy hs es).mono (fun _ h => h.2) (fun _ h => h) (fun h => h)

/-- `swap` of an optional with itself changes nothing, and never throws. -/
theorem C79_swap_self (B : Behaves tr T abs Ok H) (K : Swaps tr abs Ok sw) (h0 : Ok init) (hd : ∀ l, abs init l = none)
    (h : Reach tr H sw abs init s) (es : Nat → Env) (hx : (ostate abs s).opts x = some o) :
    Ends (call H sw (.swap x x) es s) (fun s' => ostate abs s' = ostate abs s) (fun _ => False) False :=
  (swapSelf_ends B K (h.inv B K h0 hd) hx es).mono (fun _ h => h.2) (fun _ h => h) (fun h => h)

/-- A variable constructed from `x.value()` is a copy of what `x` contains; one constructed from `std::move(x).value()` is
what `x` contained, which is left valueless, and this does not throw. -/
theorem C79_value (B : Behaves tr T abs Ok H) (K : Swaps tr abs Ok sw) (h0 : Ok init) (hd : ∀ l, abs init l = none)
    (h : Reach tr H sw abs init s) (es : Nat → Env) (hy : (ostate abs s).vars y = none)
    (hx : (ostate abs s).opts x = some (some b)) :
    Ends (call H sw (.takeCopy y x) es s)
      (fun s' => ∃ b', CopyOf tr T b b' ∧ ostate abs s' = (ostate abs s).setVar y (some b'))
      (fun s' => ostate abs s' = ostate abs s) False ∧
    Ends (call H sw (.takeMove y x) es s)
      (fun s' => ostate abs s' = ((ostate abs s).setOpt x (some (some (leftBehind b)))).setVar y (some b))
      (fun _ => False) False :=
  ⟨(takeCopy_ends B (h.inv B K h0 hd) hy hx es).mono (fun _ ⟨_, b', h1, h2, h3⟩ => by cases h1; exact ⟨b', h2, h3.2⟩)
    (fun _ h => h.2) (fun h => h),
   (takeMove_ends B (h.inv B K h0 hd) hy hx es).mono (fun _ ⟨_, h1, h3⟩ => by cases h1; exact h3.2)
    (fun _ h => by cases h.1) (fun h => h)⟩

/-- `value()` of an empty optional throws `std::bad_optional_access`, and changes nothing. -/
theorem C79_bad_optional_access (B : Behaves tr T abs Ok H) (K : Swaps tr abs Ok sw) (h0 : Ok init)
    (hd : ∀ l, abs init l = none) (h : Reach tr H sw abs init s) (es : Nat → Env)
    (hx : (ostate abs s).opts x = some none) :
    call H sw (.takeCopy y x) es s = .threw badOptionalAccess s ∧
    call H sw (.takeMove y x) es s = .threw badOptionalAccess s := by
  have hf := (rep_empty (h.inv B K h0 hd).rep hx).1
  constructor <;> (simp only [call]; rw [alive_eq hf]; rfl)

/-- Copies are independent: changing what is owned by what one optional contains changes no other optional or variable. -/
theorem C79_independent (B : Behaves tr T abs Ok H) (K : Swaps tr abs Ok sw) (h0 : Ok init) (hd : ∀ l, abs init l = none)
    (h : Reach tr H sw abs init s) (es : Nat → Env) (f : F) {c : A} {v : W}
    (hx : (ostate abs s).opts x = some (some ⟨c, some v⟩)) :
    Ends (call H sw (.modify x f) es s)
      (fun s' => ostate abs s' = (ostate abs s).setOpt x (some (some ⟨c, some (H.app f v)⟩))) (fun _ => False) False :=
  (modify_ends B (h.inv B K h0 hd) hx f es).mono (fun _ h => h.2) (fun _ h => h) (fun h => h)

/-- Variables: construction and destruction. -/
theorem C79_variables (B : Behaves tr T abs Ok H) (K : Swaps tr abs Ok sw) (h0 : Ok init) (hd : ∀ l, abs init l = none)
    (h : Reach tr H sw abs init s) (es : Nat → Env) (i : I) :
    ((ostate abs s).vars y = none → Ends (call H sw (.make y i) es s)
      (fun s' => ∃ c v, ostate abs s' = (ostate abs s).setVar y (some ⟨c, some v⟩))
      (fun s' => ostate abs s' = ostate abs s) False) ∧
    ((ostate abs s).vars y = some b → Ends (call H sw (.destroyVar y) es s)
      (fun s' => ostate abs s' = (ostate abs s).setVar y none) (fun _ => False) False) :=
  ⟨fun hy => (make_ends B (h.inv B K h0 hd) hy i es).mono (fun _ ⟨c, v, h⟩ => ⟨c, v, h.2⟩) (fun _ h => h.2) (fun h => h),
   fun hy => (destroyVar_ends B (h.inv B K h0 hd) hy es).mono (fun _ h => h.2) (fun _ h => h) (fun h => h)⟩

end

/-! ## Storage -/

section
variable {C A R V X Ty : Type} [DecidableEq C] [DecidableEq R] [DecidableEq Ty] {tr : ATraits A R}

theorem _root_.Verif.Optional.iok0 : Composite.IOk tr (St.init : St (Optional.Cell C) A R (Obj V)) := ⟨Inv.init, rfl⟩

theorem _root_.Verif.Optional.pok0 : Composite.POk tr (St.init : St (Optional.Cell C) A R (PBody Ty V)) :=
  ⟨Polymorphic.good_init, Inv.init, rfl⟩

theorem _root_.Verif.Optional.no_objects {S W : Type} {abs : S → Boxes (Optional.Cell C) A W} {Ok : S → Prop} {s : OS C S}
    (I : Optional.Inv abs Ok s) (hd : ∀ x, (ostate abs s).opts x = none ∧ (ostate abs s).vars x = none) (l : Optional.Cell C) :
    abs s.1 l = none := by
  cases l with
  | inside x => exact (rep_dead I.rep (hd x).1).2
  | var y => exact (hd y).2

theorem _root_.Verif.Optional.owner {S W : Type} {abs : S → Boxes (Optional.Cell C) A W} {Ok : S → Prop} {s : OS C S}
    (I : Optional.Inv abs Ok s) {Q : Optional.Cell C → Prop} (hQ : ∀ l, Q l → (abs s.1 l).isSome = true) :
    (∃ l, Q l) ↔ (∃ x, s.2 x = some true ∧ Q (.inside x)) ∨ ∃ y, Q (.var y) := by
  constructor
  · rintro ⟨l, h⟩
    cases l with
    | inside x => exact .inl ⟨x, (I.rep x).1 (hQ _ h), h⟩
    | var y => exact .inr ⟨y, h⟩
  · rintro (⟨x, -, h⟩ | ⟨y, h⟩)
    · exact ⟨_, h⟩
    · exact ⟨_, h⟩

/-- `std::optional<indirect<T, A>>`: storage is allocated exactly if an optional that `has_value()` contains an indirect that
owns it, or a variable does.  In particular empty optionals own none. -/
theorem C79_indirect_storage (S : tr.Sound) (Rf : tr.Reflexive) (T : TSpec V X) {s : OS C (St (Optional.Cell C) A R (Obj V))}
    (h : Reach tr (Holder.indirect tr T) (swapIndirect tr T) Indirect.abs St.init s) (p : Addr) :
    (∃ c, s.1.heap p = some c) ↔
      (∃ x, s.2 x = some true ∧ addr s.1 (.inside x) = some p) ∨ ∃ y, addr s.1 (.var y) = some p := by
  have I := h.inv (Composite.indirect_behaves S Rf T) (indirect_swaps S Rf T) iok0 (fun _ => rfl)
  rw [Composite.iok_owned I.ok]
  refine owner I fun l h => ?_
  obtain ⟨b, hb, -⟩ := Indirect.addr_some h
  simp [Indirect.abs, absWith, hb]

/-- Once all optionals and variables are destroyed, all storage was returned, and all owned objects were destroyed, each
exactly once, whatever was thrown before. -/
theorem C79_indirect_no_leak (S : tr.Sound) (Rf : tr.Reflexive) (T : TSpec V X) {s : OS C (St (Optional.Cell C) A R (Obj V))}
    (h : Reach tr (Holder.indirect tr T) (swapIndirect tr T) Indirect.abs St.init s)
    (hd : ∀ x, (ostate Indirect.abs s).opts x = none ∧ (ostate Indirect.abs s).vars x = none) (p : Addr) :
    s.1.heap p = none ∧ Spec.allocsAt p s.1.trace = Spec.deallocsAt p s.1.trace ∧
      Spec.constructsAt p s.1.trace = Spec.destroysAt p s.1.trace :=
  have I := h.inv (Composite.indirect_behaves S Rf T) (indirect_swaps S Rf T) iok0 (fun _ => rfl)
  Composite.iok_no_leak I.ok (no_objects I hd) p

/-- The same for indirect_cxx14.h. -/
theorem C79_indirect14_storage (S : tr.Sound) (Rf : tr.Reflexive) (T : TSpec V X) {s : OS C (St (Optional.Cell C) A R (Obj V))}
    (h : Reach tr (Holder.indirect14 tr T) (swapIndirect14 tr T) Indirect.abs St.init s) (p : Addr) :
    (∃ c, s.1.heap p = some c) ↔
      (∃ x, s.2 x = some true ∧ addr s.1 (.inside x) = some p) ∨ ∃ y, addr s.1 (.var y) = some p := by
  have I := h.inv (C47_indirect14_members S Rf T) (indirect14_swaps S Rf T) iok0 (fun _ => rfl)
  rw [Composite.iok_owned I.ok]
  refine owner I fun l h => ?_
  obtain ⟨b, hb, -⟩ := Indirect.addr_some h
  simp [Indirect.abs, absWith, hb]

theorem C79_indirect14_no_leak (S : tr.Sound) (Rf : tr.Reflexive) (T : TSpec V X) {s : OS C (St (Optional.Cell C) A R (Obj V))}
    (h : Reach tr (Holder.indirect14 tr T) (swapIndirect14 tr T) Indirect.abs St.init s)
    (hd : ∀ x, (ostate Indirect.abs s).opts x = none ∧ (ostate Indirect.abs s).vars x = none) (p : Addr) :
    s.1.heap p = none ∧ Spec.allocsAt p s.1.trace = Spec.deallocsAt p s.1.trace ∧
      Spec.constructsAt p s.1.trace = Spec.destroysAt p s.1.trace :=
  have I := h.inv (C47_indirect14_members S Rf T) (indirect14_swaps S Rf T) iok0 (fun _ => rfl)
  Composite.iok_no_leak I.ok (no_objects I hd) p

/-- `std::optional<polymorphic<T, A>>`: storage is allocated exactly if an optional that `has_value()` contains a polymorphic
that owns it, or a variable does. -/
theorem C79_polymorphic_storage (S : tr.Sound) (Rf : tr.Reflexive) (P : PSpec Ty V X)
    {s : OS C (St (Optional.Cell C) A R (PBody Ty V))}
    (h : Reach tr (Holder.polymorphic tr P) (swapPolymorphic tr P) Polymorphic.abs St.init s) (p : Addr) :
    (∃ c, s.1.heap p = some c) ↔
      (∃ x, s.2 x = some true ∧ addr s.1 (.inside x) = some p) ∨ ∃ y, addr s.1 (.var y) = some p := by
  have I := h.inv (Composite.polymorphic_behaves S Rf P) (polymorphic_swaps S Rf P)
    pok0 (fun _ => rfl)
  rw [Containers14.pok_owned I.ok]
  refine owner I fun l h => ?_
  obtain ⟨b, hb, -⟩ := Indirect.addr_some h
  simp [Polymorphic.abs, absWith, hb]

theorem C79_polymorphic_no_leak (S : tr.Sound) (Rf : tr.Reflexive) (P : PSpec Ty V X)
    {s : OS C (St (Optional.Cell C) A R (PBody Ty V))}
    (h : Reach tr (Holder.polymorphic tr P) (swapPolymorphic tr P) Polymorphic.abs St.init s)
    (hd : ∀ x, (ostate Polymorphic.abs s).opts x = none ∧ (ostate Polymorphic.abs s).vars x = none) (p : Addr) :
    s.1.heap p = none ∧ Spec.allocsAt p s.1.trace = Spec.deallocsAt p s.1.trace ∧
      Spec.constructsAt p s.1.trace = Spec.destroysAt p s.1.trace :=
  have I := h.inv (Composite.polymorphic_behaves S Rf P) (polymorphic_swaps S Rf P)
    pok0 (fun _ => rfl)
  Containers14.pok_no_leak I.ok (no_objects I hd) p

/-- The same for polymorphic_cxx14.h. -/
theorem C79_polymorphic14_storage (E : tr.Equality) (S : tr.Sound) (Rf : tr.Reflexive) (P : PSpec Ty V X)
    {s : OS C (St (Optional.Cell C) A R (PBody Ty V))}
    (h : Reach tr (Holder.polymorphic14 tr P) (swapPolymorphic14 tr P) Polymorphic.abs St.init s) (p : Addr) :
    (∃ c, s.1.heap p = some c) ↔
      (∃ x, s.2 x = some true ∧ addr s.1 (.inside x) = some p) ∨ ∃ y, addr s.1 (.var y) = some p := by
  have I := h.inv (C47_polymorphic14_members E S Rf P) (polymorphic14_swaps E S Rf P)
    pok0 (fun _ => rfl)
  rw [Containers14.pok_owned I.ok]
  refine owner I fun l h => ?_
  obtain ⟨b, hb, -⟩ := Indirect.addr_some h
  simp [Polymorphic.abs, absWith, hb]

theorem C79_polymorphic14_no_leak (E : tr.Equality) (S : tr.Sound) (Rf : tr.Reflexive) (P : PSpec Ty V X)
    {s : OS C (St (Optional.Cell C) A R (PBody Ty V))}
    (h : Reach tr (Holder.polymorphic14 tr P) (swapPolymorphic14 tr P) Polymorphic.abs St.init s)
    (hd : ∀ x, (ostate Polymorphic.abs s).opts x = none ∧ (ostate Polymorphic.abs s).vars x = none) (p : Addr) :
    s.1.heap p = none ∧ Spec.allocsAt p s.1.trace = Spec.deallocsAt p s.1.trace ∧
      Spec.constructsAt p s.1.trace = Spec.destroysAt p s.1.trace :=
  have I := h.inv (C47_polymorphic14_members E S Rf P) (polymorphic14_swaps E S Rf P)
    pok0 (fun _ => rfl)
  Containers14.pok_no_leak I.ok (no_objects I hd) p

end

/-! ## Examples -/

namespace OptionalDemo
open Demo

section
variable {C S A R W I F : Type} [DecidableEq C] [DecidableEq A]

def mayB (tr : ATraits A R) : Option (Option (Box A W)) → Option (Option (Box A W)) → Bool
  | some (some a), some (some b) => tr.pocs || tr.eq a.alloc b.alloc
  | some _, some _ => true
  | _, _ => false

def legal (tr : ATraits A R) (σ : OState C A W) : OOp C I F → Bool
  | .make y _ => (σ.vars y).isNone
  | .destroyVar y => (σ.vars y).isSome
  | .none x => (σ.opts x).isNone
  | .inPlace x _ => (σ.opts x).isNone
  | .fromCopy x y => (σ.opts x).isNone && (σ.vars y).isSome
  | .fromMove x y => (σ.opts x).isNone && (σ.vars y).isSome
  | .copy x y => (σ.opts x).isNone && (σ.opts y).isSome
  | .move x y => (σ.opts x).isNone && (σ.opts y).isSome
  | .destroy x => (σ.opts x).isSome
  | .reset x => (σ.opts x).isSome
  | .emplace x _ => (σ.opts x).isSome
  | .assignCopy x y => (σ.opts x).isSome && (σ.opts y).isSome
  | .assignMove x y => (σ.opts x).isSome && (σ.opts y).isSome
  | .setCopy x y => (σ.opts x).isSome && (σ.vars y).isSome
  | .setMove x y => (σ.opts x).isSome && (σ.vars y).isSome
  | .swap x y => mayB tr (σ.opts x) (σ.opts y)
  | .takeCopy y x => (σ.vars y).isNone && (σ.opts x).isSome
  | .takeMove y x => (σ.vars y).isNone && (σ.opts x).isSome
  | .modify _ _ => false

theorem legal_iff {tr : ATraits A R} {σ : OState C A W} {o : OOp C I F} (h : legal tr σ o = true) : OLegal tr σ o := by
  cases o <;> simp only [legal, Bool.and_eq_true, Option.isNone_iff_eq_none, Option.isSome_iff_exists] at h <;>
    try exact h
  · rename_i x y
    show ∃ o p, σ.opts x = some o ∧ σ.opts y = some p ∧ _
    cases hx : σ.opts x with
    | none => simp [hx, mayB] at h
    | some o =>
      cases hy : σ.opts y with
      | none => cases o <;> simp [hx, hy, mayB] at h
      | some p =>
        refine ⟨o, p, rfl, rfl, ?_⟩
        rintro a b rfl rfl
        simpa [hx, hy, mayB, MaySwap] using h
  · cases h

/-- Run a history; operations that are not legal are left out. -/
def after (tr : ATraits A R) (H : Holder (Optional.Cell C) S W I F) (sw : Optional.Cell C → Optional.Cell C → Env → M S Unit)
    (abs : S → Boxes (Optional.Cell C) A W) : List (OOp C I F × (Nat → Env)) → OS C S → OS C S
  | [], s => s
  | (o, es) :: cs, s => after tr H sw abs cs (if legal tr (ostate abs s) o then
      match call H sw o es s with
      | .ok _ s' => s'
      | .threw _ s' => s'
      | _ => s
    else s)

theorem reach {tr : ATraits A R} {H : Holder (Optional.Cell C) S W I F} {sw : Optional.Cell C → Optional.Cell C → Env → M S Unit}
    {abs : S → Boxes (Optional.Cell C) A W} {init : S} {s : OS C S} (cs : List (OOp C I F × (Nat → Env)))
    (h : Reach tr H sw abs init s) : Reach tr H sw abs init (after tr H sw abs cs s) := by
  induction cs generalizing s with
  | nil => exact h
  | cons c cs ih =>
    obtain ⟨o, es⟩ := c
    refine ih ?_
    by_cases hl : legal tr (ostate abs s) o = true
    · simp only [hl, if_true]
      have := legal_iff hl
      cases hc : call H sw o es s with
      | ok u s' => exact h.ret o es this hc
      | threw e s' => exact h.threw o es e this hc
      | terminated => exact h
      | ub u => exact h
      | diverged => exact h
    · simpa [hl] using h

end

open VariantDemo (good failing)

def tr : ATraits Nat Nat := alloc false false false

/-- Optional 0 contains 7; 1 is a copy; 2 is moved from 0; 3 is empty and swapped with 2; variable 0 is made and assigned to 2,
which throws; 1 loses its object in `emplace`. -/
def history : List (OOp (Fin 4) (Option Nat × TArgs Nat) (Nat → Nat) × (Nat → Env)) := [
  (.inPlace 0 (some 5, .pack [7]), good 100), (.copy 1 0, good 110), (.move 2 0, good 120), (.none 3, good 0),
  (.swap 3 2, good 130), (.make 0 (some 5, .pack [9]), good 140), (.setCopy 2 0, failing 150),
  (.emplace 1 (none, .none), failing 160)]

def more : List (OOp (Fin 4) (Option Nat × TArgs Nat) (Nat → Nat) × (Nat → Env)) := [
  (.setMove 2 0, good 170), (.swap 2 3, good 180), (.takeMove 1 3, good 190), (.takeCopy 2 1, good 200),
  (.assignCopy 1 2, good 210), (.assignMove 0 1, good 220)]

def ends : List (OOp (Fin 4) (Option Nat × TArgs Nat) (Nat → Nat) × (Nat → Env)) := [
  (.destroy 0, good 0), (.destroy 1, good 0), (.destroy 2, good 0), (.destroy 3, good 0), (.destroyVar 0, good 0),
  (.destroyVar 1, good 0)]

abbrev run (cs : List (OOp (Fin 4) (Option Nat × TArgs Nat) (Nat → Nat) × (Nat → Env))) :
    OS (Fin 4) (St (Optional.Cell (Fin 4)) Nat Nat (Obj Nat)) :=
  after tr (Holder.indirect tr Demo.T) (swapIndirect tr Demo.T) Indirect.abs cs (St.init, fun _ => none)

abbrev run14 (cs : List (OOp (Fin 4) (Option Nat × TArgs Nat) (Nat → Nat) × (Nat → Env))) :
    OS (Fin 4) (St (Optional.Cell (Fin 4)) Nat Nat (Obj Nat)) :=
  after tr (Holder.indirect14 tr Demo.T) (swapIndirect14 tr Demo.T) Indirect.abs cs (St.init, fun _ => none)

example : tr.Sound ∧ tr.Reflexive ∧
    Behaves tr Demo.T Indirect.abs (Composite.IOk tr) (Holder.indirect (L := Optional.Cell (Fin 4)) tr Demo.T) ∧
    Composite.IOk tr (St.init : St (Optional.Cell (Fin 4)) Nat Nat (Obj Nat)) ∧
    Reach tr (Holder.indirect tr Demo.T) (swapIndirect tr Demo.T) Indirect.abs St.init (run history) ∧
    List.map (ostate Indirect.abs (run history)).opts [0, 1, 2, 3] =
      [some (some ⟨5, none⟩), some none, some none, some (some ⟨5, some 7⟩)] ∧
    List.map (ostate Indirect.abs (run history)).vars [0, 1] = [some ⟨5, some 9⟩, none] :=
  ⟨alloc_sound _ _ _, alloc_refl _ _ _, Composite.indirect_behaves (alloc_sound _ _ _) (alloc_refl _ _ _) Demo.T,
    ⟨Inv.init, rfl⟩, reach _ .init, by decide +kernel, by decide +kernel⟩

/-- Both contain objects when they are swapped; and at the end everything is destroyed. -/
example : Reach tr (Holder.indirect tr Demo.T) (swapIndirect tr Demo.T) Indirect.abs St.init (run (history ++ more)) ∧
    List.map (ostate Indirect.abs (run (history ++ more))).opts [0, 1, 2, 3] =
      [some (some ⟨5, some 7⟩), some (some ⟨5, none⟩), some (some ⟨5, some 7⟩), some (some ⟨5, none⟩)] ∧
    List.map (ostate Indirect.abs (run (history ++ more))).vars [0, 1, 2] = [some ⟨5, none⟩, some ⟨5, some 9⟩, none] ∧
    (∀ x, (ostate Indirect.abs (run (history ++ more ++ ends))).opts x = none ∧
      (ostate Indirect.abs (run (history ++ more ++ ends))).vars x = none) :=
  ⟨reach _ .init, by decide +kernel, by decide +kernel, by decide +kernel⟩

/-- With indirect_cxx14.h. -/
example : Reach tr (Holder.indirect14 tr Demo.T) (swapIndirect14 tr Demo.T) Indirect.abs St.init (run14 (history ++ more)) ∧
    List.map (ostate Indirect.abs (run14 (history ++ more))).opts [0, 1, 2, 3] =
      [some (some ⟨5, some 7⟩), some (some ⟨5, none⟩), some (some ⟨5, some 7⟩), some (some ⟨5, none⟩)] ∧
    (∀ x, (ostate Indirect.abs (run14 (history ++ more ++ ends))).opts x = none ∧
      (ostate Indirect.abs (run14 (history ++ more ++ ends))).vars x = none) :=
  ⟨reach _ .init, by decide +kernel, by decide +kernel⟩

/-- `polymorphic`, whose allocators propagate on swap: optionals 0 and 1 contain objects of different dynamic types, with
unequal allocators, and are swapped; 2 is a copy of 0; 1 is moved into 3 and from there into variable 0. -/
def ptr : ATraits Nat Nat := alloc false false true

abbrev POps := List (OOp (Fin 4) (Option Nat × Option Nat × TArgs Nat) (Nat → Nat → Nat) × (Nat → Env))

def phistory : POps := [
  (.inPlace 0 (some 5, some 1, .pack [7]), good 100), (.inPlace 1 (some 6, some 2, .pack [8]), good 110),
  (.swap 0 1, good 120), (.copy 2 0, good 130), (.move 3 1, good 140), (.takeMove 0 3, good 150),
  (.emplace 1 (some 5, some 1, .none), failing 160)]

def pends : POps := [
  (.destroy 0, good 0), (.destroy 1, good 0), (.destroy 2, good 0), (.destroy 3, good 0), (.destroyVar 0, good 0)]

abbrev runP (cs : POps) : OS (Fin 4) (St (Optional.Cell (Fin 4)) Nat Nat (PBody Nat Nat)) :=
  after ptr (Holder.polymorphic ptr PDemo.P) (swapPolymorphic ptr PDemo.P) Polymorphic.abs cs (St.init, fun _ => none)

abbrev runP14 (cs : POps) : OS (Fin 4) (St (Optional.Cell (Fin 4)) Nat Nat (PBody Nat Nat)) :=
  after ptr (Holder.polymorphic14 ptr PDemo.P) (swapPolymorphic14 ptr PDemo.P) Polymorphic.abs cs (St.init, fun _ => none)

example : ptr.Sound ∧ ptr.Reflexive ∧
    Reach ptr (Holder.polymorphic ptr PDemo.P) (swapPolymorphic ptr PDemo.P) Polymorphic.abs St.init (runP phistory) ∧
    List.map (ostate Polymorphic.abs (runP phistory)).opts [0, 1, 2, 3] =
      [some (some ⟨6, some (2, 2008)⟩), some none, some (some ⟨6, some (2, 2008)⟩), some (some ⟨5, none⟩)] ∧
    (ostate Polymorphic.abs (runP phistory)).vars 0 = some ⟨5, some (1, 1007)⟩ ∧
    (∀ x, (ostate Polymorphic.abs (runP (phistory ++ pends))).opts x = none ∧
      (ostate Polymorphic.abs (runP (phistory ++ pends))).vars x = none) :=
  ⟨alloc_sound _ _ _, alloc_refl _ _ _, reach _ .init, by decide +kernel, by decide +kernel, by decide +kernel⟩

/-- With polymorphic_cxx14.h. -/
example : ptr.Equality ∧
    Reach ptr (Holder.polymorphic14 ptr PDemo.P) (swapPolymorphic14 ptr PDemo.P) Polymorphic.abs St.init (runP14 phistory) ∧
    List.map (ostate Polymorphic.abs (runP14 phistory)).opts [0, 1, 2, 3] =
      [some (some ⟨6, some (2, 2008)⟩), some none, some (some ⟨6, some (2, 2008)⟩), some (some ⟨5, none⟩)] ∧
    (∀ x, (ostate Polymorphic.abs (runP14 (phistory ++ pends))).opts x = none ∧
      (ostate Polymorphic.abs (runP14 (phistory ++ pends))).vars x = none) :=
  ⟨Containers14Demo.eq_alloc .., reach _ .init, by decide +kernel, by decide +kernel⟩

end OptionalDemo
end Verif.Props
