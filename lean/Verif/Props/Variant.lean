import Verif.PDemo
import Verif.Proofs.Variant

/-!
# C63: variants with `indirect` or `polymorphic` alternatives

`H`: the types of the indirect alternatives, `P` the type of the first alternative; `variants abs s`: the variants of a
state as values; `Variant.Reach … Allowed s`: a program that uses only operations in `Allowed` can get into state `s`.
`Spec.Behaves` is what the theorems use of the alternatives; C47 shows that `indirect` of both headers and `polymorphic`
have it.  `Plain.Honest`: functions of the first alternative that are noexcept do not throw.
-/

set_option autoImplicit false
set_option linter.unusedSectionVars false

namespace Verif.Props
open Verif Spec Variant

section
variable {C S A R W X I F N Y : Type} [DecidableEq C]
variable {H : Composite.Members C S W I F} {P : Plain N Y} {abs : S → Comp C A W} {Ok : S → Prop} {init : S}
variable {tr : ATraits A R} {T : Nat → TSpec W X} {s : VS C S N} {x y t : C} {a b : Alt N A W}
variable {Allowed : VOp C I F N Y → Prop}

/-- No legal operation in a reachable state is undefined behaviour. -/
theorem C63_no_undefined_behaviour (B : ∀ k, Behaves tr (T k) abs Ok (H k)) (hP : Plain.Honest P) (h0 : Ok init)
    (hd : ∀ l, abs init l = none) (h : Reach H P abs init Allowed s) (o : VOp C I F N Y) (es : Nat → Env)
    (hl : VLegal (variants abs s) o) :
    (∃ s', call H P o es s = .ok () s') ∨ (∃ e s', call H P o es s = .threw e s') ∨ call H P o es s = .terminated := by
  have := call_inv B hP (h.inv B hP h0 hd) o es hl
  cases hc : call H P o es s with
  | ok u s' => exact .inl ⟨s', rfl⟩
  | threw e s' => exact .inr (.inl ⟨e, s', rfl⟩)
  | terminated => exact .inr (.inr rfl)
  | ub u => rw [hc] at this; exact this.elim
  | diverged => rw [hc] at this; exact this.elim

/-- Construction in place: the variant holds that alternative, and nothing else changes; or an exception, and nothing
changes. -/
theorem C63_make (B : ∀ k, Behaves tr (T k) abs Ok (H k)) (hP : Plain.Honest P) (h0 : Ok init)
    (hd : ∀ l, abs init l = none) (h : Reach H P abs init Allowed s) (k : Nat) (i : I) (es : Nat → Env)
    (hx : variants abs s x = none) :
    Ends (call H P (.makeHeld x k i) es s)
      (fun s' => ∃ c v, variants abs s' = vset (variants abs s) x (some (.held k ⟨c, some v⟩)))
      (fun s' => variants abs s' = variants abs s) False :=
  (make_held_ends B (h.inv B hP h0 hd) hx k i es).mono (fun _ h => h.2) (fun _ h => h.2) (fun h => h)

/-- Copy construction: the new variant is a copy of `y`, an indirect with its own copy of the owned object, and nothing
else changes, `y` neither; or an exception, and nothing changes. -/
theorem C63_copy (B : ∀ k, Behaves tr (T k) abs Ok (H k)) (hP : Plain.Honest P) (h0 : Ok init)
    (hd : ∀ l, abs init l = none) (h : Reach H P abs init Allowed s) (es : Nat → Env)
    (hx : variants abs s x = none) (hy : variants abs s y = some b) :
    Ends (call H P (.copy x y) es s)
      (fun s' => ∃ b', AltCopy tr T P b b' ∧ variants abs s' = vset (variants abs s) x (some b'))
      (fun s' => variants abs s' = variants abs s) False :=
  (copy_ends B hP (h.inv B hP h0 hd) hx hy es).mono (fun _ h => h.2) (fun _ h => h.2) (fun h => h)

/-- Move construction: the new variant is what `y` was.  It does not throw if `y` holds an indirect. -/
theorem C63_move (B : ∀ k, Behaves tr (T k) abs Ok (H k)) (hP : Plain.Honest P) (h0 : Ok init)
    (hd : ∀ l, abs init l = none) (h : Reach H P abs init Allowed s) (es : Nat → Env)
    (hx : variants abs s x = none) (hy : variants abs s y = some b) :
    Ends (call H P (.move x y) es s)
      (fun s' => ∃ a' b', AltMove P b a' b' ∧ variants abs s' = vset (vset (variants abs s) y (some b')) x (some a'))
      (fun s' => ∃ b', AltMoveThrew P b b' ∧ variants abs s' = vset (variants abs s) y (some b')) False :=
  (move_ends B hP (h.inv B hP h0 hd) hx hy es).mono (fun _ h => h.2) (fun _ h => h.2) (fun h => h)

/-- Copy assignment between different variants: `x` becomes a copy of `y`, by assignment if both hold the same
alternative, otherwise by construction; nothing else changes, `y` neither.  After an exception: if both hold the same
alternative, `x` is what its assignment leaves; otherwise `x` is as before if the type that `y` holds is nothrow move
constructible, and valueless if not; and nothing else changes. -/
theorem C63_assign_copy (B : ∀ k, Behaves tr (T k) abs Ok (H k)) (hP : Plain.Honest P) (h0 : Ok init)
    (hd : ∀ l, abs init l = none) (h : Reach H P abs init Allowed s) (es : Nat → Env) (hne : x ≠ y)
    (hx : variants abs s x = some a) (hy : variants abs s y = some b) (ht : variants abs s t = none) :
    Ends (call H P (.assignCopy x y t) es s)
      (fun s' => ∃ a', ((SameAlt a b → AltAssignCopy tr T P a b a') ∧ (¬ SameAlt a b → CopiedOver tr T P b a')) ∧
        variants abs s' = vset (variants abs s) x (some a'))
      (fun s' => ∃ a', ((SameAlt a b → AltAssignCopyThrew P a b a') ∧
          (¬ SameAlt a b → a' = if NothrowMove P H b then a else .valueless)) ∧
        variants abs s' = vset (variants abs s) x (some a')) False :=
  (assignCopy_ends B hP (h.inv B hP h0 hd) hne hx hy ht es).mono (fun _ h => h.2) (fun _ h => h.2) (fun h => h)

/-- Move assignment between different variants.  If they hold different alternatives and `y` holds an indirect, it does
not throw.  `std::terminate` is called only if both hold the same indirect alternative, with unequal allocators that
propagate or claim to be always equal. -/
theorem C63_assign_move (B : ∀ k, Behaves tr (T k) abs Ok (H k)) (hP : Plain.Honest P) (h0 : Ok init)
    (hd : ∀ l, abs init l = none) (h : Reach H P abs init Allowed s) (es : Nat → Env) (hne : x ≠ y)
    (hx : variants abs s x = some a) (hy : variants abs s y = some b) :
    Ends (call H P (.assignMove x y) es s)
      (fun s' => ∃ a' b', ((SameAlt a b → AltAssignMove tr T P a b a' b') ∧ (¬ SameAlt a b → AltMove P b a' b')) ∧
        variants abs s' = vset (vset (variants abs s) y (some b')) x (some a'))
      (fun s' => ∃ a' b', ((SameAlt a b → AltAssignMoveThrew tr P a b a' b') ∧
          (¬ SameAlt a b → AltMoveThrew P b b' ∧ a' = .valueless)) ∧
        variants abs s' = vset (vset (variants abs s) y (some b')) x (some a'))
      (UnequalAllocators tr a b ∧ (tr.pocma || tr.alwaysEqual) = true) :=
  (assignMove_ends B hP (h.inv B hP h0 hd) hne hx hy es).mono (fun _ h => h.2) (fun _ h => h.2) (fun h => h)

/-- Self-assignment of a variant that holds an indirect, or nothing, changes nothing and does not throw. -/
theorem C63_assign_self (B : ∀ k, Behaves tr (T k) abs Ok (H k)) (hP : Plain.Honest P) (h0 : Ok init)
    (hd : ∀ l, abs init l = none) (h : Reach H P abs init Allowed s) (es : Nat → Env)
    (hx : variants abs s x = some a) (hn : ∀ v, a ≠ .plain v) :
    Ends (call H P (.assignCopy x x t) es s) (fun s' => variants abs s' = variants abs s) (fun _ => False) False ∧
    Ends (call H P (.assignMove x x) es s) (fun s' => variants abs s' = variants abs s) (fun _ => False) False := by
  have := assignSelf_ends (P := P) B (t := t) (h.inv B hP h0 hd) hx es
  refine ⟨this.1.mono ?_ ?_ (fun h => h), this.2.mono ?_ ?_ (fun h => h)⟩ <;> rintro s' ⟨-, a', hv, ha⟩ <;>
    cases a <;> first | exact absurd rfl (hn _) | exact ha | (subst ha; rw [hv, vset_id _ hx])

/-- `emplace`: the variant holds that alternative, and nothing else changes; or an exception, the variant is valueless,
and nothing else changes. -/
theorem C63_emplace (B : ∀ k, Behaves tr (T k) abs Ok (H k)) (hP : Plain.Honest P) (h0 : Ok init)
    (hd : ∀ l, abs init l = none) (h : Reach H P abs init Allowed s) (k : Nat) (i : I) (es : Nat → Env)
    (hx : variants abs s x = some a) :
    Ends (call H P (.emplaceHeld x k i) es s)
      (fun s' => ∃ c v, variants abs s' = vset (variants abs s) x (some (.held k ⟨c, some v⟩)))
      (fun s' => variants abs s' = vset (variants abs s) x (some .valueless)) False :=
  (emplace_held_ends B (h.inv B hP h0 hd) hx k i es).mono (fun _ h => h.2) (fun _ h => h.2) (fun h => h)

/-- Destruction: the variant is gone, and nothing else changes. -/
theorem C63_destroy (B : ∀ k, Behaves tr (T k) abs Ok (H k)) (hP : Plain.Honest P) (h0 : Ok init)
    (hd : ∀ l, abs init l = none) (h : Reach H P abs init Allowed s) (es : Nat → Env) (hx : variants abs s x = some a) :
    Ends (call H P (.destroy x) es s) (fun s' => variants abs s' = vset (variants abs s) x none) (fun _ => False) False :=
  (destroy_ends B (h.inv B hP h0 hd) hx (es 0)).mono (fun _ h => h.2) (fun _ h => h) (fun h => h)

/-- Copies are independent: changing what one variant owns changes no other variant. -/
theorem C63_independent (B : ∀ k, Behaves tr (T k) abs Ok (H k)) (hP : Plain.Honest P) (h0 : Ok init)
    (hd : ∀ l, abs init l = none) (h : Reach H P abs init Allowed s) (es : Nat → Env) (f : F) {k : Nat} {c : A} {v : W}
    (hx : variants abs s x = some (.held k ⟨c, some v⟩)) :
    Ends (call H P (.modifyHeld x f) es s)
      (fun s' => variants abs s' = vset (variants abs s) x (some (.held k ⟨c, some ((H k).app f v)⟩)))
      (fun _ => False) False :=
  (modify_held_ends B (h.inv B hP h0 hd) hx f es).mono (fun _ h => h.2) (fun _ h => h) (fun h => h)

/-- If the types of all alternatives are nothrow move constructible, no variant is ever valueless by exception, in
programs that do not call `emplace`, whatever throws.
Partial: [indirect.ctor] says that the move constructor of `indirect` is noexcept, so that this should hold for indirect
alternatives in general.  The headers declare it noexcept only if the allocators are always equal. -/
theorem C63_never_valueless_partial (B : ∀ k, Behaves tr (T k) abs Ok (H k)) (hP : Plain.Honest P) (h0 : Ok init)
    (hd : ∀ l, abs init l = none) (hn : P.nothrowMove = true) (hH : ∀ k, (H k).nothrowMove = true)
    (h : Reach H P abs init (fun o => ¬ IsEmplace o) s) (x : C) : variants abs s x ≠ some .valueless := by
  have : NoneValueless (variants abs s) := by
    induction h with
    | init => intro x; simp [variants]
    | ret o es h ha hl hc ih =>
      have := call_none_valueless B hP hn hH (h.inv B hP h0 hd) ih o ha es hl
      rw [hc] at this; exact this
    | threw o es e h ha hl hc ih =>
      have := call_none_valueless B hP hn hH (h.inv B hP h0 hd) ih o ha es hl
      rw [hc] at this; exact this
  exact this x

end

/-! ## `indirect` and `polymorphic` -/

section
variable {C A R V X Ty N Y : Type} [DecidableEq C] [DecidableEq R] [DecidableEq Ty] {tr : ATraits A R} {P : Plain N Y}

/-- `std::variant<N, indirect<T0, A>, indirect<T1, A>, …>` with always equal allocators, such as `std::allocator`. -/
theorem C63_indirect_never_valueless_partial (S : tr.Sound) (Rf : tr.Reflexive) (he : tr.alwaysEqual = true)
    (T : Nat → TSpec V X) (hP : Plain.Honest P) (hn : P.nothrowMove = true)
    {s : VS C (St (C × Nat) A R (Obj V)) N}
    (h : Reach (fun k => Holder.indirect tr (T k)) P Indirect.abs St.init (fun o => ¬ IsEmplace o) s) (x : C) :
    variants Indirect.abs s x ≠ some .valueless :=
  C63_never_valueless_partial (fun k => Composite.indirect_behaves S Rf (T k)) hP Composite.iok_init (fun _ => rfl) hn
    (fun _ => he) h x

/-- `std::variant<N, polymorphic<T0, A>, polymorphic<T1, A>, …>` with always equal allocators. -/
theorem C63_polymorphic_never_valueless_partial (S : tr.Sound) (Rf : tr.Reflexive) (he : tr.alwaysEqual = true)
    (Q : Nat → PSpec Ty V X) (hP : Plain.Honest P) (hn : P.nothrowMove = true)
    {s : VS C (St (C × Nat) A R (PBody Ty V)) N}
    (h : Reach (fun k => Holder.polymorphic tr (Q k)) P Polymorphic.abs St.init (fun o => ¬ IsEmplace o) s) (x : C) :
    variants Polymorphic.abs s x ≠ some .valueless :=
  C63_never_valueless_partial (fun k => Composite.polymorphic_behaves S Rf (Q k)) hP Composite.pok_init (fun _ => rfl) hn
    (fun _ => he) h x

/-- With `indirect` alternatives: storage is allocated exactly if a variant holds an indirect that owns it. -/
theorem C63_indirect_storage (S : tr.Sound) (Rf : tr.Reflexive) (T : Nat → TSpec V X) (hP : Plain.Honest P)
    {s : VS C (St (C × Nat) A R (Obj V)) N} {Allowed : VOp C (Option A × TArgs X) (V → V) N Y → Prop}
    (h : Reach (fun k => Holder.indirect tr (T k)) P Indirect.abs St.init Allowed s) (p : Addr) :
    (∃ c, s.1.heap p = some c) ↔ ∃ x k, s.2 x = .held k ∧ addr s.1 (x, k) = some p := by
  have I := h.inv (fun k => Composite.indirect_behaves S Rf (T k)) hP Composite.iok_init (fun _ => rfl)
  rw [Composite.iok_owned I.ok]
  refine ⟨fun ⟨l, h⟩ => ⟨l.1, l.2, (I.sub _ _).1 ?_, h⟩, fun ⟨x, k, _, h⟩ => ⟨_, h⟩⟩
  obtain ⟨b, hb, -⟩ := Indirect.addr_some h
  simp [Indirect.abs, absWith, hb]

/-- With `indirect` alternatives: once all variants are destroyed, all storage was returned, and all owned objects were
destroyed, each exactly once, whatever was thrown before. -/
theorem C63_indirect_no_leak (S : tr.Sound) (Rf : tr.Reflexive) (T : Nat → TSpec V X) (hP : Plain.Honest P)
    {s : VS C (St (C × Nat) A R (Obj V)) N} {Allowed : VOp C (Option A × TArgs X) (V → V) N Y → Prop}
    (h : Reach (fun k => Holder.indirect tr (T k)) P Indirect.abs St.init Allowed s)
    (hd : ∀ x, variants Indirect.abs s x = none) (p : Addr) :
    s.1.heap p = none ∧ Spec.allocsAt p s.1.trace = Spec.deallocsAt p s.1.trace ∧
      Spec.constructsAt p s.1.trace = Spec.destroysAt p s.1.trace := by
  have I := h.inv (fun k => Composite.indirect_behaves S Rf (T k)) hP Composite.iok_init (fun _ => rfl)
  exact Composite.iok_no_leak I.ok (fun l => free_none I (free_of I (.inl (hd l.1))) l.2) p

/-- With `polymorphic` alternatives: storage is allocated exactly if a variant holds a polymorphic that owns it. -/
theorem C63_polymorphic_storage (S : tr.Sound) (Rf : tr.Reflexive) (Q : Nat → PSpec Ty V X) (hP : Plain.Honest P)
    {s : VS C (St (C × Nat) A R (PBody Ty V)) N}
    {Allowed : VOp C (Option A × Option Ty × TArgs X) (Ty → V → V) N Y → Prop}
    (h : Reach (fun k => Holder.polymorphic tr (Q k)) P Polymorphic.abs St.init Allowed s) (p : Addr) :
    (∃ c, s.1.heap p = some c) ↔ ∃ x k, s.2 x = .held k ∧ addr s.1 (x, k) = some p := by
  have I := h.inv (fun k => Composite.polymorphic_behaves S Rf (Q k)) hP Composite.pok_init (fun _ => rfl)
  have := Composite.iok_owned I.ok.2 p
  rw [show (∃ x k, s.2 x = .held k ∧ addr s.1 (x, k) = some p) ↔ ∃ l, addr (Polymorphic.view s.1) l = some p from
    ⟨fun ⟨x, k, _, h⟩ => ⟨_, h⟩, fun ⟨l, (h : addr s.1 l = some p)⟩ => ⟨l.1, l.2, (I.sub _ _).1 (by
      obtain ⟨b, hb, -⟩ := Indirect.addr_some h
      simp [Polymorphic.abs, absWith, hb]), h⟩⟩, ← this]
  simp only [Polymorphic.view]
  cases s.1.heap p <;> simp

/-- With `polymorphic` alternatives: once all variants are destroyed, everything was returned and destroyed exactly
once. -/
theorem C63_polymorphic_no_leak (S : tr.Sound) (Rf : tr.Reflexive) (Q : Nat → PSpec Ty V X) (hP : Plain.Honest P)
    {s : VS C (St (C × Nat) A R (PBody Ty V)) N}
    {Allowed : VOp C (Option A × Option Ty × TArgs X) (Ty → V → V) N Y → Prop}
    (h : Reach (fun k => Holder.polymorphic tr (Q k)) P Polymorphic.abs St.init Allowed s)
    (hd : ∀ x, variants Polymorphic.abs s x = none) (p : Addr) :
    s.1.heap p = none ∧ Spec.allocsAt p s.1.trace = Spec.deallocsAt p s.1.trace ∧
      Spec.constructsAt p s.1.trace = Spec.destroysAt p s.1.trace := by
  have I := h.inv (fun k => Composite.polymorphic_behaves S Rf (Q k)) hP Composite.pok_init (fun _ => rfl)
  have := Composite.iok_no_leak I.ok.2
    (fun l => by rw [Polymorphic.abs_view]; exact free_none I (free_of I (.inl (hd l.1))) l.2) p
  refine ⟨?_, this.2⟩
  simpa [Polymorphic.view] using this.1

end

/-! ## Examples -/

namespace VariantDemo
open Demo

section
variable {C S A W I F N Y : Type} [DecidableEq C]

def legal (σ : Variants C N A W) : VOp C I F N Y → Bool
  | .makePlain x _ => (σ x).isNone
  | .makeHeld x _ _ => (σ x).isNone
  | .copy x y => (σ x).isNone && (σ y).isSome
  | .move x y => (σ x).isNone && (σ y).isSome
  | .destroy x => (σ x).isSome
  | .assignCopy x y t => (σ x).isSome && (σ y).isSome && (σ t).isNone
  | .assignMove x y => (σ x).isSome && (σ y).isSome
  | .emplacePlain x _ => (σ x).isSome
  | .emplaceHeld x _ _ => (σ x).isSome
  | _ => false

theorem legal_iff {σ : Variants C N A W} {o : VOp C I F N Y} (h : legal σ o = true) : VLegal σ o := by
  cases o <;> simp only [legal, Bool.and_eq_true, Option.isNone_iff_eq_none, Option.isSome_iff_exists] at h <;>
    try exact h
  · exact ⟨h.1.1, h.1.2, h.2⟩
  all_goals cases h

/-- Run a history; operations that are not legal are left out. -/
def after (H : Composite.Members C S W I F) (P : Plain N Y) (abs : S → Comp C A W) :
    List (VOp C I F N Y × (Nat → Env)) → VS C S N → VS C S N
  | [], s => s
  | (o, es) :: cs, s => after H P abs cs (if legal (variants abs s) o then
      match call H P o es s with
      | .ok _ s' => s'
      | .threw _ s' => s'
      | _ => s
    else s)

theorem reach {H : Composite.Members C S W I F} {P : Plain N Y} {abs : S → Comp C A W} {init : S} {s : VS C S N}
    {Allowed : VOp C I F N Y → Prop} (cs : List (VOp C I F N Y × (Nat → Env))) (ha : ∀ c ∈ cs, Allowed c.1)
    (h : Reach H P abs init Allowed s) : Reach H P abs init Allowed (after H P abs cs s) := by
  induction cs generalizing s with
  | nil => exact h
  | cons c cs ih =>
    obtain ⟨o, es⟩ := c
    refine ih (fun c hc => ha c (by simp [hc])) ?_
    have hao := ha (o, es) (by simp)
    by_cases hl : legal (variants abs s) o = true
    · simp only [hl, if_true]
      have := legal_iff hl
      cases hc : call H P o es s with
      | ok u s' => exact h.ret o es hao this hc
      | threw e s' => exact h.threw o es e hao this hc
      | terminated => exact h
      | ub u => exact h
      | diverged => exact h
    · simpa [hl] using h

end

/-- `Number`, with noexcept copy and move. -/
def number : Plain Nat Nat where
  ops := { make := fun _ _ => .ok 0, copy := fun v _ => .ok v, move := fun v _ => (.ok v, 0),
           copyAssign := fun _ v _ => (none, v), moveAssign := fun _ v _ => (none, v, 0),
           assignArg := fun _ x _ => (none, x), assignable := true, copyAssignable := true }
  nothrowCopy := true
  nothrowMove := true

theorem number_honest : Plain.Honest number := ⟨fun _ v _ => ⟨v, rfl⟩, fun _ v _ => ⟨v, rfl⟩⟩

/-- The functions of the alternatives run in `fine` environments with addresses from `p`. -/
def good (p : Nat) (k : Nat) : Env := fine (p + k)
/-- The first function throws. -/
def failing (p : Nat) (k : Nat) : Env := if k = 0 then bad p else fine (p + k)

abbrev Ops := List (VOp (Fin 4) (Option Nat × TArgs Nat) (Nat → Nat) Nat Nat × (Nat → Env))

/-- Variant 0 holds a number, variant 1 an indirect; assigning 1 to 0 throws. -/
def history : Ops := [
  (.makePlain 0 .none, good 0), (.makeHeld 1 0 (some 5, .pack [7]), good 100), (.copy 2 1, good 110),
  (.assignCopy 0 1 3, failing 120)]

/-- Allocators that are not always equal. -/
def tr : ATraits Nat Nat := alloc false false false

def H : Composite.Members (Fin 4) (St (Fin 4 × Nat) Nat Nat (Obj Nat)) Nat (Option Nat × TArgs Nat) (Nat → Nat) :=
  fun _ => Holder.indirect tr Demo.T

abbrev run (cs : Ops) : VS (Fin 4) (St (Fin 4 × Nat) Nat Nat (Obj Nat)) Nat :=
  after H number Indirect.abs cs (St.init, fun _ => .dead)

theorem history_reach : Reach H number Indirect.abs St.init (fun o => ¬ IsEmplace o) (run history) := by
  refine reach _ ?_ .init
  intro c hc
  simp only [history, List.mem_cons, List.not_mem_nil, or_false] at hc
  rcases hc with rfl | rfl | rfl | rfl <;> exact id

theorem H_behaves (k : Nat) : Behaves tr Demo.T Indirect.abs (Composite.IOk tr) (H k) :=
  Composite.indirect_behaves (alloc_sound _ _ _) (alloc_refl _ _ _) Demo.T

end VariantDemo

open VariantDemo in
/-- `C63_never_valueless_partial` needs its hypothesis on the alternatives: with allocators that are not always equal
(such as `std::pmr::polymorphic_allocator`), a program without `emplace` can have a valueless variant, although
constructing an indirect by moving one never throws. -/
theorem C63_assignment_can_leave_valueless :
    ∃ (C S A R W X I F N Y : Type) (_ : DecidableEq C) (H : Composite.Members C S W I F) (P : Plain N Y)
      (abs : S → Comp C A W) (Ok : S → Prop) (init : S) (tr : ATraits A R) (T : TSpec W X) (s : VS C S N) (x : C),
      (∀ k, Behaves tr T abs Ok (H k)) ∧ Plain.Honest P ∧ Ok init ∧ (∀ l, abs init l = none) ∧ P.nothrowMove = true ∧
      Reach H P abs init (fun o => ¬ IsEmplace o) s ∧ variants abs s x = some .valueless :=
  ⟨_, _, _, _, _, _, _, _, _, _, inferInstance, VariantDemo.H, number, Indirect.abs, Composite.IOk VariantDemo.tr,
    St.init, VariantDemo.tr, Demo.T, run history, 0, H_behaves, number_honest, Composite.iok_init, fun _ => rfl, rfl,
    history_reach, by decide +kernel⟩

namespace VariantDemo
open Demo

/-- All alternatives alive: 0 valueless, 1 and 2 own 7 with allocator 5. -/
example : Plain.Honest number ∧ (∀ k, Behaves tr Demo.T Indirect.abs (Composite.IOk tr) (H k)) ∧
    Composite.IOk tr (St.init : St (Fin 4 × Nat) Nat Nat (Obj Nat)) ∧
    Reach H number Indirect.abs St.init (fun o => ¬ IsEmplace o) (run history) ∧
    (List.map (variants Indirect.abs (run history)) [0, 1, 2, 3] =
      [some .valueless, some (.held 0 ⟨5, some 7⟩), some (.held 0 ⟨5, some 7⟩), none]) :=
  ⟨number_honest, H_behaves, Composite.iok_init, history_reach, by decide +kernel⟩

/-- Different alternatives: 0 a number, 1 and 2 indirects of different types; 1 is assigned to 0, 0 is moved to 2 (both
throw or not), and everything is destroyed. -/
def history2 : Ops := [
  (.makePlain 0 .none, good 0), (.makeHeld 1 0 (some 5, .pack [7]), good 100),
  (.makeHeld 2 1 (some 6, .pack [8]), good 110), (.assignCopy 0 1 3, good 120), (.assignMove 2 0, good 130),
  (.assignCopy 1 2 3, failing 140), (.emplaceHeld 2 1 (none, .none), failing 150), (.move 3 1, good 160)]

/-- 0 and 1 were moved from, 2 lost its value in `emplace`, 3 has what the failed assignment had left in 1; and then
everything is destroyed. -/
example : Reach H number Indirect.abs St.init (fun _ => True) (run history2) ∧
    (List.map (variants Indirect.abs (run history2)) [0, 1, 2, 3] =
      [some (.held 0 ⟨5, none⟩), some (.held 0 ⟨5, none⟩), some .valueless, some (.held 0 ⟨5, some 98⟩)]) ∧
    Reach H number Indirect.abs St.init (fun _ => True)
      (run (history2 ++ [(.destroy 0, good 0), (.destroy 1, good 0), (.destroy 2, good 0), (.destroy 3, good 0)])) ∧
    (∀ x, variants Indirect.abs (run (history2 ++
      [(.destroy 0, good 0), (.destroy 1, good 0), (.destroy 2, good 0), (.destroy 3, good 0)])) x = none) :=
  ⟨reach _ (fun _ _ => trivial) .init, by decide +kernel, reach _ (fun _ _ => trivial) .init, by decide +kernel⟩

/-- With `std::allocator`: the copy assignment of `history` throws, and leaves variant 0 as it was. -/
def HS : Composite.Members (Fin 4) (St (Fin 4 × Nat) Unit Unit (Obj Nat)) Nat (Option Unit × TArgs Nat) (Nat → Nat) :=
  fun _ => Holder.indirect std Demo.T

def shistory : List (VOp (Fin 4) (Option Unit × TArgs Nat) (Nat → Nat) Nat Nat × (Nat → Env)) := [
  (.makePlain 0 .none, good 0), (.makeHeld 1 0 (none, .pack [7]), good 100), (.copy 2 1, good 110),
  (.assignCopy 0 1 3, failing 120)]

example : std.Sound ∧ std.Reflexive ∧ std.alwaysEqual = true ∧ number.nothrowMove = true ∧
    Reach HS number Indirect.abs St.init (fun o => ¬ IsEmplace o)
      (after HS number Indirect.abs shistory (St.init, fun _ => .dead)) ∧
    (List.map (variants Indirect.abs (after HS number Indirect.abs shistory (St.init, fun _ => .dead))) [0, 1, 2, 3] =
      [some (.plain 0), some (.held 0 ⟨(), some 7⟩), some (.held 0 ⟨(), some 7⟩), none]) := by
  refine ⟨std_sound, ⟨by simp [std]⟩, rfl, rfl, reach _ ?_ .init, by decide +kernel⟩
  intro c hc
  simp only [shistory, List.mem_cons, List.not_mem_nil, or_false] at hc
  rcases hc with rfl | rfl | rfl | rfl <;> exact id

/-- `polymorphic` alternatives: 0 has dynamic type 1 and is copied into a variant with a number, 1, which then is moved to
2, that of another alternative. -/
def HP : Composite.Members (Fin 4) (St (Fin 4 × Nat) Nat Nat (PBody Nat Nat)) (Nat × Nat)
    (Option Nat × Option Nat × TArgs Nat) (Nat → Nat → Nat) := fun _ => Holder.polymorphic tr PDemo.P

def phistory : List (VOp (Fin 4) (Option Nat × Option Nat × TArgs Nat) (Nat → Nat → Nat) Nat Nat × (Nat → Env)) := [
  (.makeHeld 0 1 (some 5, some 1, .pack [7]), good 100), (.makePlain 1 .none, good 0),
  (.makeHeld 2 0 (some 6, some 2, .pack [8]), good 110), (.assignCopy 1 0 3, good 120), (.assignMove 2 1, good 130),
  (.emplaceHeld 0 1 (some 5, some 1, .none), failing 140)]

def sp : VS (Fin 4) (St (Fin 4 × Nat) Nat Nat (PBody Nat Nat)) Nat :=
  after HP number Polymorphic.abs phistory (St.init, fun _ => .dead)

example : tr.Sound ∧ tr.Reflexive ∧ Reach HP number Polymorphic.abs St.init (fun _ => True) sp ∧
    (List.map (variants Polymorphic.abs sp) [0, 1, 2, 3] =
      [some .valueless, some (.held 1 ⟨5, none⟩), some (.held 1 ⟨5, some (1, 1007)⟩), none]) ∧
    (∀ x, variants Polymorphic.abs (after HP number Polymorphic.abs
      [(.destroy 0, good 0), (.destroy 1, good 0), (.destroy 2, good 0)] sp) x = none) :=
  ⟨alloc_sound _ _ _, alloc_refl _ _ _, reach _ (fun _ _ => trivial) .init, by decide +kernel, by decide +kernel⟩

end VariantDemo
end Verif.Props
