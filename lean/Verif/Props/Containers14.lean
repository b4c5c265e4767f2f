import Verif.Props.Composite
import Verif.Props.Variant
import Verif.Props.Vector
import Verif.Proofs.Containers14

/-!
# C47, C63, C64 with the C++14 headers

Classes with members, variants and vectors of `indirect` of indirect_cxx14.h and `polymorphic` of polymorphic_cxx14.h.
The theorems of Props/Composite.lean, Props/Variant.lean and Props/Vector.lean about member, alternative and element types
with `Spec.Behaves` or `Spec.Follows` hold for them, by the first theorems below; the others are about storage.
`tr.Equality`: `==` of allocators is reflexive and `is_always_equal` is true to its name.
-/

set_option autoImplicit false
set_option linter.unusedSectionVars false

namespace Verif.Props
open Verif Spec

/-! ## The types -/

section
variable {L A R V X Ty : Type} [DecidableEq L] [DecidableEq R] [DecidableEq Ty] {tr : ATraits A R}

/-- polymorphic_cxx14.h: a member type as C47 and C63 need it, for every owned type and all allocators. -/
theorem C47_polymorphic14_members (E : tr.Equality) (S : tr.Sound) (Rf : tr.Reflexive) (P : PSpec Ty V X) :
    Behaves tr P.owned Polymorphic.abs (Composite.POk tr) (Holder.polymorphic14 (L := L) tr P) :=
  Containers14.polymorphic14_behaves E S Rf P

theorem C64_elements_polymorphic14 (E : tr.Equality) (S : tr.Sound) (Rf : tr.Reflexive) (P : PSpec Ty V X) :
    Follows (Rules.plain tr P.owned) Polymorphic.abs (Composite.POk tr) (Holder.polymorphic14 (L := L) tr P) :=
  Vector.follows_plain (C47_polymorphic14_members E S Rf P)

theorem C64_elements_indirect14_scoped (S : tr.Sound) (Rf : tr.Reflexive) (T : TSpec V X) (α : A) :
    Follows (Rules.scoped α tr T.cxx14) Indirect.abs (Composite.IOk tr) (Holder.indirect14In (L := L) α tr T) := by
  rw [Containers14.indirect14In_holder]; exact Vector.follows_indirectIn S Rf T.cxx14 α

end

/-! ## Classes with members -/

section
variable {C A R V X Ty : Type} [DecidableEq C] [DecidableEq R] [DecidableEq Ty] {tr : ATraits A R} {K : Nat}

/-- With `indirect` members: storage is allocated exactly if a member of some object owns it. -/
theorem C47_indirect14_storage (S : tr.Sound) (Rf : tr.Reflexive) (T : Nat → TSpec V X) {s : St (C × Nat) A R (Obj V)}
    (h : Composite.Reach (fun k => Holder.indirect14 tr (T k)) K Indirect.abs St.init s) (p : Addr) :
    (∃ c, s.heap p = some c) ↔ ∃ x k, addr s (x, k) = some p := by
  rw [Composite.iok_owned (h.ok (fun k => C47_indirect14_members S Rf (T k)) Composite.iok_init (fun _ => rfl)).1]
  exact ⟨fun ⟨l, h⟩ => ⟨l.1, l.2, h⟩, fun ⟨x, k, h⟩ => ⟨_, h⟩⟩

/-- With `indirect` members: once all objects are destroyed, all storage was returned, and all owned objects were
destroyed, each exactly once, whatever was thrown before. -/
theorem C47_indirect14_no_leak (S : tr.Sound) (Rf : tr.Reflexive) (T : Nat → TSpec V X) {s : St (C × Nat) A R (Obj V)}
    (h : Composite.Reach (fun k => Holder.indirect14 tr (T k)) K Indirect.abs St.init s)
    (hd : ∀ x, CDead (Indirect.abs s) x) (p : Addr) :
    s.heap p = none ∧ Spec.allocsAt p s.trace = Spec.deallocsAt p s.trace ∧
      Spec.constructsAt p s.trace = Spec.destroysAt p s.trace :=
  Composite.iok_no_leak (h.ok (fun k => C47_indirect14_members S Rf (T k)) Composite.iok_init (fun _ => rfl)).1
    (fun l => hd l.1 l.2) p

/-- With `polymorphic` members: storage is allocated exactly if a member of some object owns it. -/
theorem C47_polymorphic14_storage (E : tr.Equality) (S : tr.Sound) (Rf : tr.Reflexive) (P : Nat → PSpec Ty V X)
    {s : St (C × Nat) A R (PBody Ty V)}
    (h : Composite.Reach (fun k => Holder.polymorphic14 tr (P k)) K Polymorphic.abs St.init s) (p : Addr) :
    (∃ c, s.heap p = some c) ↔ ∃ x k, addr s (x, k) = some p := by
  rw [Containers14.pok_owned (h.ok (fun k => C47_polymorphic14_members E S Rf (P k)) Composite.pok_init (fun _ => rfl)).1]
  exact ⟨fun ⟨l, h⟩ => ⟨l.1, l.2, h⟩, fun ⟨x, k, h⟩ => ⟨_, h⟩⟩

/-- With `polymorphic` members: once all objects are destroyed, everything was returned and destroyed exactly once. -/
theorem C47_polymorphic14_no_leak (E : tr.Equality) (S : tr.Sound) (Rf : tr.Reflexive) (P : Nat → PSpec Ty V X)
    {s : St (C × Nat) A R (PBody Ty V)}
    (h : Composite.Reach (fun k => Holder.polymorphic14 tr (P k)) K Polymorphic.abs St.init s)
    (hd : ∀ x, CDead (Polymorphic.abs s) x) (p : Addr) :
    s.heap p = none ∧ Spec.allocsAt p s.trace = Spec.deallocsAt p s.trace ∧
      Spec.constructsAt p s.trace = Spec.destroysAt p s.trace :=
  Containers14.pok_no_leak (h.ok (fun k => C47_polymorphic14_members E S Rf (P k)) Composite.pok_init (fun _ => rfl)).1
    (fun l => hd l.1 l.2) p

end

/-! ## Variants -/

section
open Variant
variable {C A R V X Ty N Y : Type} [DecidableEq C] [DecidableEq R] [DecidableEq Ty] {tr : ATraits A R} {P : Plain N Y}

/-- `std::variant<N, indirect<T0, A>, …>` with always equal allocators, such as `std::allocator`, never becomes valueless,
unless by `emplace`. -/
theorem C63_indirect14_never_valueless_partial (S : tr.Sound) (Rf : tr.Reflexive) (he : tr.alwaysEqual = true)
    (T : Nat → TSpec V X) (hP : Plain.Honest P) (hn : P.nothrowMove = true) {s : VS C (St (C × Nat) A R (Obj V)) N}
    (h : Reach (fun k => Holder.indirect14 tr (T k)) P Indirect.abs St.init (fun o => ¬ IsEmplace o) s) (x : C) :
    variants Indirect.abs s x ≠ some .valueless :=
  C63_never_valueless_partial (fun k => C47_indirect14_members S Rf (T k)) hP Composite.iok_init (fun _ => rfl) hn
    (fun _ => he) h x

/-- `std::variant<N, polymorphic<T0, A>, …>` never becomes valueless, unless by `emplace`, with any allocators: the move
constructor of the C++14 `polymorphic` is noexcept without a condition. -/
theorem C63_polymorphic14_never_valueless (E : tr.Equality) (S : tr.Sound) (Rf : tr.Reflexive)
    (Q : Nat → PSpec Ty V X) (hP : Plain.Honest P) (hn : P.nothrowMove = true) {s : VS C (St (C × Nat) A R (PBody Ty V)) N}
    (h : Reach (fun k => Holder.polymorphic14 tr (Q k)) P Polymorphic.abs St.init (fun o => ¬ IsEmplace o) s) (x : C) :
    variants Polymorphic.abs s x ≠ some .valueless :=
  C63_never_valueless_partial (fun k => C47_polymorphic14_members E S Rf (Q k)) hP Composite.pok_init (fun _ => rfl) hn
    (fun _ => rfl) h x

/-- Storage is allocated exactly if a variant holds an `indirect` that owns it. -/
theorem C63_indirect14_storage (S : tr.Sound) (Rf : tr.Reflexive) (T : Nat → TSpec V X) (hP : Plain.Honest P)
    {s : VS C (St (C × Nat) A R (Obj V)) N} {Allowed : VOp C (Option A × TArgs X) (V → V) N Y → Prop}
    (h : Reach (fun k => Holder.indirect14 tr (T k)) P Indirect.abs St.init Allowed s) (p : Addr) :
    (∃ c, s.1.heap p = some c) ↔ ∃ x k, s.2 x = .held k ∧ addr s.1 (x, k) = some p := by
  have I := h.inv (fun k => C47_indirect14_members S Rf (T k)) hP Composite.iok_init (fun _ => rfl)
  rw [Composite.iok_owned I.ok]
  refine ⟨fun ⟨l, h⟩ => ⟨l.1, l.2, (I.sub _ _).1 ?_, h⟩, fun ⟨x, k, _, h⟩ => ⟨_, h⟩⟩
  obtain ⟨b, hb, -⟩ := Indirect.addr_some h
  simp [Indirect.abs, absWith, hb]

/-- Once all variants are destroyed, everything was returned and destroyed exactly once, whatever was thrown before. -/
theorem C63_indirect14_no_leak (S : tr.Sound) (Rf : tr.Reflexive) (T : Nat → TSpec V X) (hP : Plain.Honest P)
    {s : VS C (St (C × Nat) A R (Obj V)) N} {Allowed : VOp C (Option A × TArgs X) (V → V) N Y → Prop}
    (h : Reach (fun k => Holder.indirect14 tr (T k)) P Indirect.abs St.init Allowed s)
    (hd : ∀ x, variants Indirect.abs s x = none) (p : Addr) :
    s.1.heap p = none ∧ Spec.allocsAt p s.1.trace = Spec.deallocsAt p s.1.trace ∧
      Spec.constructsAt p s.1.trace = Spec.destroysAt p s.1.trace := by
  have I := h.inv (fun k => C47_indirect14_members S Rf (T k)) hP Composite.iok_init (fun _ => rfl)
  exact Composite.iok_no_leak I.ok (fun l => free_none I (free_of I (.inl (hd l.1))) l.2) p

/-- Storage is allocated exactly if a variant holds a `polymorphic` that owns it. -/
theorem C63_polymorphic14_storage (E : tr.Equality) (S : tr.Sound) (Rf : tr.Reflexive) (Q : Nat → PSpec Ty V X)
    (hP : Plain.Honest P) {s : VS C (St (C × Nat) A R (PBody Ty V)) N}
    {Allowed : VOp C (Option A × Option Ty × TArgs X) (Ty → V → V) N Y → Prop}
    (h : Reach (fun k => Holder.polymorphic14 tr (Q k)) P Polymorphic.abs St.init Allowed s) (p : Addr) :
    (∃ c, s.1.heap p = some c) ↔ ∃ x k, s.2 x = .held k ∧ addr s.1 (x, k) = some p := by
  have I := h.inv (fun k => C47_polymorphic14_members E S Rf (Q k)) hP Composite.pok_init (fun _ => rfl)
  rw [Containers14.pok_owned I.ok]
  refine ⟨fun ⟨l, h⟩ => ⟨l.1, l.2, (I.sub _ _).1 ?_, h⟩, fun ⟨x, k, _, h⟩ => ⟨_, h⟩⟩
  obtain ⟨b, hb, -⟩ := Indirect.addr_some h
  simp [Polymorphic.abs, absWith, hb]

/-- Once all variants are destroyed, everything was returned and destroyed exactly once. -/
theorem C63_polymorphic14_no_leak (E : tr.Equality) (S : tr.Sound) (Rf : tr.Reflexive) (Q : Nat → PSpec Ty V X)
    (hP : Plain.Honest P) {s : VS C (St (C × Nat) A R (PBody Ty V)) N}
    {Allowed : VOp C (Option A × Option Ty × TArgs X) (Ty → V → V) N Y → Prop}
    (h : Reach (fun k => Holder.polymorphic14 tr (Q k)) P Polymorphic.abs St.init Allowed s)
    (hd : ∀ x, variants Polymorphic.abs s x = none) (p : Addr) :
    s.1.heap p = none ∧ Spec.allocsAt p s.1.trace = Spec.deallocsAt p s.1.trace ∧
      Spec.constructsAt p s.1.trace = Spec.destroysAt p s.1.trace := by
  have I := h.inv (fun k => C47_polymorphic14_members E S Rf (Q k)) hP Composite.pok_init (fun _ => rfl)
  exact Containers14.pok_no_leak I.ok (fun l => free_none I (free_of I (.inl (hd l.1))) l.2) p

end

/-! ## Vectors -/

section
open Vector
variable {C A R V X Ty : Type} [DecidableEq C] [DecidableEq R] [DecidableEq Ty] {tr : ATraits A R}

/-- A program with vectors and variables of `indirect<T, A>` of indirect_cxx14.h. -/
abbrev IReach14 (tr : ATraits A R) (T : TSpec V X) : VecS C (St (Vector.Cell C) A R (Obj V)) → Prop :=
  Vector.Reach (Holder.indirect14 tr T) (fun y j e => (Holder.indirect14 tr T).make (.var y) j e) Indirect.abs St.init

/-- A program with vectors and variables of `polymorphic<T, A>` of polymorphic_cxx14.h. -/
abbrev PReach14 (tr : ATraits A R) (P : PSpec Ty V X) : VecS C (St (Vector.Cell C) A R (PBody Ty V)) → Prop :=
  Vector.Reach (Holder.polymorphic14 tr P) (fun y j e => (Holder.polymorphic14 tr P).make (.var y) j e) Polymorphic.abs
    St.init

theorem iinv14 {T : TSpec V X} (S : tr.Sound) (Rf : tr.Reflexive) {s : VecS C (St (Vector.Cell C) A R (Obj V))}
    (h : IReach14 tr T s) : Vector.Inv Indirect.abs (Composite.IOk tr) s :=
  h.inv (C64_elements_indirect14 S Rf T) (makes_of (C47_indirect14_members S Rf T)) iok_start fun _ => rfl

theorem pinv14 {P : PSpec Ty V X} (E : tr.Equality) (S : tr.Sound) (Rf : tr.Reflexive)
    {s : VecS C (St (Vector.Cell C) A R (PBody Ty V))} (h : PReach14 tr P s) :
    Vector.Inv Polymorphic.abs (Composite.POk tr) s :=
  h.inv (C64_elements_polymorphic14 E S Rf P) (makes_of (C47_polymorphic14_members E S Rf P)) pok_start fun _ => rfl

/-- Nothing leaks: when all vectors and variables are gone, every block that was ever allocated has been deallocated, and
every `T` that was ever constructed has been destroyed. -/
theorem C64_indirect14_no_leak (S : tr.Sound) (Rf : tr.Reflexive) {T : TSpec V X}
    {s : VecS C (St (Vector.Cell C) A R (Obj V))} (h : IReach14 tr T s) (hl : ∀ x, (vstate Indirect.abs s).lists x = none)
    (hv : ∀ y, (vstate Indirect.abs s).vars y = none) (p : Addr) :
    s.1.heap p = none ∧ Spec.allocsAt p s.1.trace = Spec.deallocsAt p s.1.trace ∧
      Spec.constructsAt p s.1.trace = Spec.destroysAt p s.1.trace :=
  Composite.iok_no_leak (iinv14 S Rf h).ok (all_dead (iinv14 S Rf h) hl hv) p

theorem C64_polymorphic14_no_leak (E : tr.Equality) (S : tr.Sound) (Rf : tr.Reflexive) {P : PSpec Ty V X}
    {s : VecS C (St (Vector.Cell C) A R (PBody Ty V))} (h : PReach14 tr P s)
    (hl : ∀ x, (vstate Polymorphic.abs s).lists x = none) (hv : ∀ y, (vstate Polymorphic.abs s).vars y = none) (p : Addr) :
    s.1.heap p = none ∧ Spec.allocsAt p s.1.trace = Spec.deallocsAt p s.1.trace ∧
      Spec.constructsAt p s.1.trace = Spec.destroysAt p s.1.trace :=
  Containers14.pok_no_leak (pinv14 E S Rf h).ok (all_dead (pinv14 E S Rf h) hl hv) p

/-- A vector of the C++14 `polymorphic` grows without touching what its elements own, whatever the allocators: elements own
the very objects that they owned before, at the same addresses. -/
theorem C64_polymorphic14_growth_keeps_objects (E : tr.Equality) (S : tr.Sound) (Rf : tr.Reflexive) {P : PSpec Ty V X}
    {s : VecS C (St (Vector.Cell C) A R (PBody Ty V))} {x : C} {N : Buf} {bs : List (Box A ((Ty × V) × Addr))}
    {mk : C → Option A × Option Ty × TArgs X → Env → M (St (Vector.Cell C) A R (PBody Ty V)) Unit}
    (h : PReach14 tr P s) (hN : FreshBuf s N) (hx : (vstate (placed Polymorphic.abs addr) s).lists x = some bs)
    (a : Arg C (Option A × Option Ty × TArgs X))
    (hl : VecLegal (F := Ty → V → V) (J := Option A × Option Ty × TArgs X) (vstate (placed Polymorphic.abs addr) s) (.push x a))
    (hself : ∀ i, a ≠ .move (.at x i)) (es : Nat → Nat → Env) :
    Ends (call (Holder.polymorphic14 tr P) mk (.push x a) N es s)
      (fun s' => ∃ b, (vstate (placed Polymorphic.abs addr) s').lists x = some (bs ++ [b]))
      (fun s' => (vstate (placed Polymorphic.abs addr) s').lists x = some bs) False :=
  push_keeps (Holder.polymorphic14 tr P)
    (follows_placed (C47_polymorphic14_members E S Rf P) (Containers14.polymorphic14_located E S Rf P)) (fun h => h.1)
    (pinv14 E S Rf h).placed rfl hN hx a hl hself es

theorem C64_polymorphic14_reserve_keeps_objects (E : tr.Equality) (S : tr.Sound) (Rf : tr.Reflexive) {P : PSpec Ty V X}
    {s : VecS C (St (Vector.Cell C) A R (PBody Ty V))} {x : C} {N : Buf} {bs : List (Box A ((Ty × V) × Addr))}
    {mk : C → Option A × Option Ty × TArgs X → Env → M (St (Vector.Cell C) A R (PBody Ty V)) Unit}
    (h : PReach14 tr P s) (hN : FreshBuf s N) (hx : (vstate (placed Polymorphic.abs addr) s).lists x = some bs) (n : Nat)
    (es : Nat → Nat → Env) :
    Ends (call (Holder.polymorphic14 tr P) mk (.reserve x n) N es s)
      (fun s' => vstate (placed Polymorphic.abs addr) s' = vstate (placed Polymorphic.abs addr) s)
      (fun s' => vstate (placed Polymorphic.abs addr) s' = vstate (placed Polymorphic.abs addr) s) False :=
  reserve_keeps (Holder.polymorphic14 tr P)
    (follows_placed (C47_polymorphic14_members E S Rf P) (Containers14.polymorphic14_located E S Rf P)) (fun h => h.1)
    (pinv14 E S Rf h).placed rfl hN hx n es

/-- For `indirect` of the C++14 header this needs always equal allocators, as for that of the C++20 header. -/
theorem C64_indirect14_growth_keeps_objects (S : tr.Sound) (Rf : tr.Reflexive) (ha : tr.alwaysEqual = true) {T : TSpec V X}
    {s : VecS C (St (Vector.Cell C) A R (Obj V))} {x : C} {N : Buf} {bs : List (Box A (V × Addr))}
    {mk : C → Option A × TArgs X → Env → M (St (Vector.Cell C) A R (Obj V)) Unit}
    (h : IReach14 tr T s) (hN : FreshBuf s N) (hx : (vstate (placed Indirect.abs addr) s).lists x = some bs)
    (a : Arg C (Option A × TArgs X))
    (hl : VecLegal (F := V → V) (J := Option A × TArgs X) (vstate (placed Indirect.abs addr) s) (.push x a))
    (hself : ∀ i, a ≠ .move (.at x i)) (es : Nat → Nat → Env) :
    Ends (call (Holder.indirect14 tr T) mk (.push x a) N es s)
      (fun s' => ∃ b, (vstate (placed Indirect.abs addr) s').lists x = some (bs ++ [b]))
      (fun s' => (vstate (placed Indirect.abs addr) s').lists x = some bs) False :=
  push_keeps (Holder.indirect14 tr T)
    (follows_placed (C47_indirect14_members S Rf T) (Containers14.indirect14_located S Rf T)) (fun h => h.1)
    (iinv14 S Rf h).placed ha hN hx a hl hself es

/-- In a program whose vectors construct their elements with their allocator `α`, every element has allocator `α`. -/
theorem C64_scoped_indirect14_allocator (S : tr.Sound) (Rf : tr.Reflexive) (T : TSpec V X) (α : A)
    {s : VecS C (St (Vector.Cell C) A R (Obj V))}
    (h : Vector.Reach (Holder.indirect14In α tr T) (fun y j e => (Holder.indirect14 tr T).make (.var y) j e) Indirect.abs
      St.init s)
    {x : C} {bs : List (Box A V)} (hx : (vstate Indirect.abs s).lists x = some bs) : ∀ b ∈ bs, b.alloc = α :=
  h.all (C64_elements_indirect14_scoped S Rf T α) (makes_of (C47_indirect14_members S Rf T)) (uniform_scoped α tr T.cxx14)
    iok_start (fun _ => rfl) x bs hx

end

/-! ## Concrete cases -/

namespace Containers14Demo
open Demo

theorem eq_alloc (a b c : Bool) : (alloc a b c).Equality := ⟨by simp [alloc], by simp [alloc]⟩

section
open CompositeDemo Composite

/-- The history of Props/Composite.lean, with members of type `polymorphic` of the C++14 header. -/
abbrev HP14 : Members (Fin 3) (St (Fin 3 × Nat) Nat Nat (PBody Nat Nat)) (Nat × Nat)
    (Option Nat × Option Nat × TArgs Nat) (Nat → Nat → Nat) := fun _ => Holder.polymorphic14 CompositeDemo.tr PDemo.P

theorem hp14_behaves (k : Nat) : Behaves CompositeDemo.tr PDemo.P.owned Polymorphic.abs (POk CompositeDemo.tr) (HP14 k) :=
  C47_polymorphic14_members (eq_alloc ..) demo_sound demo_reflexive PDemo.P

def cp : St (Fin 3 × Nat) Nat Nat (PBody Nat Nat) := after HP14 3 Polymorphic.abs CompositeDemo.phistory St.init

def cp' : St (Fin 3 × Nat) Nat Nat (PBody Nat Nat) :=
  after HP14 3 Polymorphic.abs [(.destroy 0, good 0), (.destroy 1, good 0), (.destroy 2, good 0)] cp

example : Composite.Reach HP14 3 Polymorphic.abs St.init cp ∧
    (List.range 4).map (fun k => Polymorphic.abs cp (2, k)) =
      [some ⟨6, some (0, 7)⟩, some ⟨6, some (1, 1008)⟩, some ⟨6, some (3, 3052)⟩, none] ∧
    Composite.Reach HP14 3 Polymorphic.abs St.init cp' ∧ (cp'.trace.length ≠ 0) ∧
    ∀ x, Polymorphic.abs cp' (x, 0) = none :=
  have h := reach hp14_behaves pok_init (fun _ => rfl) (by decide) CompositeDemo.phistory .init
  ⟨h, by decide +kernel, reach hp14_behaves pok_init (fun _ => rfl) (by decide) _ h, by decide +kernel, by decide +kernel⟩

end

section
open VariantDemo Variant

/-- A variant with number is assigned a variant with a `polymorphic`; a copy of it throws, and no variant is valueless although
the allocators differ. -/
abbrev VP14 : Composite.Members (Fin 4) (St (Fin 4 × Nat) Nat Nat (PBody Nat Nat)) (Nat × Nat)
    (Option Nat × Option Nat × TArgs Nat) (Nat → Nat → Nat) := fun _ => Holder.polymorphic14 VariantDemo.tr PDemo.P

def vhistory : List (VOp (Fin 4) (Option Nat × Option Nat × TArgs Nat) (Nat → Nat → Nat) Nat Nat × (Nat → Env)) := [
  (.makeHeld 0 1 (some 5, some 1, .pack [7]), good 100), (.makePlain 1 .none, good 0),
  (.makeHeld 2 0 (some 6, some 2, .pack [8]), good 110), (.assignCopy 1 0 3, good 120), (.assignMove 2 1, good 130),
  (.assignCopy 0 2 3, failing 140)]

def vp : VS (Fin 4) (St (Fin 4 × Nat) Nat Nat (PBody Nat Nat)) Nat :=
  after VP14 number Polymorphic.abs vhistory (St.init, fun _ => .dead)

example : Plain.Honest number ∧ number.nothrowMove = true ∧
    Variant.Reach VP14 number Polymorphic.abs St.init (fun o => ¬ IsEmplace o) vp ∧
    (List.map (variants Polymorphic.abs vp) [0, 1, 2, 3] =
      [some (.held 1 ⟨5, some (1, 1007)⟩), some (.held 1 ⟨5, none⟩), some (.held 1 ⟨5, some (1, 1007)⟩), none]) ∧
    (∀ x, variants Polymorphic.abs (after VP14 number Polymorphic.abs
      [(.destroy 0, good 0), (.destroy 1, good 0), (.destroy 2, good 0)] vp) x = none) := by
  refine ⟨number_honest, rfl, reach _ ?_ .init, by decide +kernel, by decide +kernel⟩
  intro c hc
  simp only [vhistory, List.mem_cons, List.not_mem_nil, or_false] at hc
  rcases hc with rfl | rfl | rfl | rfl | rfl | rfl <;> exact id

end

section
open VectorDemo Vector

/-- Elements with different allocators; growth keeps their objects where they are. -/
def wops : List (VecOp (Fin 4) (Option Nat × Option Nat × TArgs Nat) (Option Nat × Option Nat × TArgs Nat) (Nat → Nat → Nat) ×
    Buf × (Nat → Nat → Env)) := [
  (.empty 0, buf 0 0, VectorDemo.good 0), (.push 0 (.make (some 5, some 1, .pack [51])), buf 1 0, VectorDemo.good 100),
  (.push 0 (.make (some 6, some 2, .pack [61])), buf 2 0, VectorDemo.good 200)]

abbrev wtr : ATraits Nat Nat := alloc false false false

def wp : VecS (Fin 4) (St (Vector.Cell (Fin 4)) Nat Nat (PBody Nat Nat)) :=
  after (Holder.polymorphic14 wtr PDemo.P) (fun y j e => (Holder.polymorphic14 wtr PDemo.P).make (.var y) j e) Polymorphic.abs wops
    (St.init, fun _ => none)

set_option synthInstance.maxSize 2000 in
set_option synthInstance.maxHeartbeats 200000 in
example : wtr.Sound ∧ wtr.Reflexive ∧ wtr.Equality ∧ PReach14 wtr PDemo.P wp ∧ fresh wp (buf 4 0) = true ∧
    show_ (vstate (placed Polymorphic.abs addr) wp) =
      ([some [⟨5, some ((1, 1051), 100)⟩, ⟨6, some ((2, 2061), 200)⟩], none], [none, none]) ∧
    show_ (vstate (placed Polymorphic.abs addr) (after (Holder.polymorphic14 wtr PDemo.P)
      (fun y j e => (Holder.polymorphic14 wtr PDemo.P).make (.var y) j e) Polymorphic.abs
      [(.push 0 (.make (some 7, some 1, .pack [1])), buf 4 0, VectorDemo.good 300)] wp)) =
      ([some [⟨5, some ((1, 1051), 100)⟩, ⟨6, some ((2, 2061), 200)⟩, ⟨7, some ((1, 1001), 300)⟩], none], [none, none]) :=
  ⟨alloc_sound .., alloc_refl .., eq_alloc .., reach _ .init, by decide +kernel, by decide +kernel, by decide +kernel⟩

/-- `push_back(std::move(variable))` into a vector that passes its allocator 9 on to its elements, where copy assignment
propagates allocators: the new element takes over the object of the variable, which is in the memory of allocator 7. -/
def sops : List (VecOp (Fin 4) (Option Nat × TArgs Nat) (Option Nat × Option Nat × TArgs Nat) (Nat → Nat → Nat) ×
    Buf × (Nat → Nat → Env)) := [
  (.empty 0, buf 0 0, VectorDemo.good 0), (.make 0 (some 7, some 2, .pack [71]), buf 1 0, VectorDemo.good 300),
  (.push 0 (.move (.var 0)), buf 1 0, VectorDemo.good 400)]

abbrev str : ATraits Nat Nat := alloc true false false

def ws : VecS (Fin 4) (St (Vector.Cell (Fin 4)) Nat Nat (PBody Nat Nat)) :=
  after (Holder.polymorphic14In 9 str PDemo.P) (fun y j e => (Holder.polymorphic14 str PDemo.P).make (.var y) j e) Polymorphic.abs
    sops (St.init, fun _ => none)

end
end Containers14Demo

open Containers14Demo in
/-- The C++14 `polymorphic` in vectors that pass their allocator on (`std::scoped_allocator_adaptor`): a legal program has
undefined behaviour, storage is returned to another resource than it came from (finding 3). -/
theorem C64_polymorphic14_scoped_violated : str.Sound ∧ str.Reflexive ∧ str.Equality ∧
    Vector.Reach (Holder.polymorphic14In 9 str PDemo.P) (fun y j e => (Holder.polymorphic14 str PDemo.P).make (.var y) j e)
      Polymorphic.abs St.init ws ∧ VecLegal (vstate Polymorphic.abs ws) (.destroy 0 : Vector.VecOp (Fin 4)
        (Option Nat × TArgs Nat) (Option Nat × Option Nat × TArgs Nat) (Nat → Nat → Nat)) ∧
    Vector.call (Holder.polymorphic14In 9 str PDemo.P) (fun y j e => (Holder.polymorphic14 str PDemo.P).make (.var y) j e)
      (.destroy 0) (VectorDemo.buf 2 0) (VectorDemo.good 500) ws = .ub .wrongArena := by
  refine ⟨Demo.alloc_sound .., Demo.alloc_refl .., eq_alloc .., VectorDemo.reach _ .init, VectorDemo.legal_iff (by decide +kernel), ?_⟩
  have : (match Vector.call (Holder.polymorphic14In 9 str PDemo.P)
      (fun y j e => (Holder.polymorphic14 str PDemo.P).make (.var y) j e)
      (.destroy 0) (VectorDemo.buf 2 0) (VectorDemo.good 500) ws with | .ub u => decide (u = .wrongArena) | _ => false) = true := by
    decide +kernel
  revert this
  cases Vector.call (Holder.polymorphic14In 9 str PDemo.P)
      (fun y j e => (Holder.polymorphic14 str PDemo.P).make (.var y) j e)
      (.destroy 0) (VectorDemo.buf 2 0) (VectorDemo.good 500) ws <;> simp

end Verif.Props
