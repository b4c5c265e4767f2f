import Verif.Proofs.Only
import Verif.Props.PolyOps

/-!
# C56, C57, C62: what a call reads and writes; calls that do not write what the other uses commute

`Spec.Mine (operands o) s e` is the storage owned by the objects the call mentions, and what the allocator can hand out
during the call.  `Spec.changes o` are the objects that a call may change: all but the source of a copy and the object
that an observer is called on.
-/

set_option autoImplicit false
set_option linter.unusedSectionVars false
set_option linter.unusedSimpArgs false

namespace Verif.Props
open Verif

section
variable {L A R V X : Type} [DecidableEq L] [DecidableEq R]
open Indirect
variable {tr : ATraits A R} {T : TSpec V X} {s t s₁ s₁₂ : St L A R (Obj V)} {o o₁ o₂ : Op L A V X} {e e₁ e₂ : Env}

/-- A call reads and writes nothing but the objects it mentions, what they own, and storage that it gets from the
allocator.  Take any other state `t` that agrees with `s` on these, and differs arbitrarily otherwise: the outcome is
the same, these end up the same, the same things are done in the same order, and nothing else changes, neither in `s`
nor in `t`.  No assumption is made about the state or the call. -/
theorem C56_touches_only_operands (tr : ATraits A R) (T : TSpec V X) (s t : St L A R (Obj V)) (o : Op L A V X) (e : Env)
    (hobjects : ∀ z ∈ Spec.operands o, t.hs z = s.hs z)
    (hstorage : ∀ p, Spec.Mine (Spec.operands o) s e p → t.heap p = s.heap p) :
    Spec.SameOutcome (Spec.operands o) (Spec.Mine (Spec.operands o) s e) s t
      (call tr (plain T) o e s) (call tr (plain T) o e t) :=
  Two.sameOutcome (bp := fun _ => none) (fun _ _ _ _ _ h => nomatch h)
    (two_step (fun _ => rfl) tr T fun _ hz => hz) hobjects hstorage

open Demo in
/-- Object 1 is assigned from object 3 (unequal allocators); everything else is missing in the other state. -/
example : (∀ z ∈ Spec.operands (.assignCopy 1 3 : Op Nat Nat Nat Nat),
      (after (alloc false false false) [(.make 1 (some 5) (.from (.arg 7)), fine 100),
        (.make 3 (some 6) (.from (.arg 9)), fine 102)] : St Nat Nat Nat (Obj Nat)).hs z = s0.hs z) ∧
    (after (alloc false false false) [(.make 1 (some 5) (.from (.arg 7)), fine 100),
      (.make 3 (some 6) (.from (.arg 9)), fine 102)] : St Nat Nat Nat (Obj Nat)).heap 100 = s0.heap 100 ∧
    (after (alloc false false false) [(.make 1 (some 5) (.from (.arg 7)), fine 100),
      (.make 3 (some 6) (.from (.arg 9)), fine 102)] : St Nat Nat Nat (Obj Nat)).hs 2 = none ∧
    s0.hs 2 ≠ none := by decide

/-- A call writes nothing but the objects that it may change, what they own, and storage that it gets from the
allocator.  Nothing is written and restored either: no event of the call writes anything else.  No assumption is made
about the state or the call. -/
theorem C62_writes_only (tr : ATraits A R) (T : TSpec V X) (s s' : St L A R (Obj V)) (o : Op L A V X) (e : Env)
    {a : Seen (Out L A V)} (hc : Spec.ended (call tr (plain T) o e s) = some (a, s')) :
    Spec.WritesOnly (Spec.changes o) (Spec.Mine (Spec.changes o) s e) s s' :=
  Only.writesOnly (bp := fun _ => none) (fun _ _ _ _ _ h => nomatch h)
    (only_step (fun _ => rfl) tr T fun _ hz => hz) hc

/-- The storage of an object that `ws` does not contain is not among the storage of `ws`. -/
private theorem not_mine (S : tr.Sound) (h : Reach tr T s) {ws : List L} {z : L} (hz : z ∉ ws)
    (hfresh : ∀ n, s.heap (e.pick n) = none) {p : Addr} (hp : addr s z = some p) : ¬ Spec.Mine ws s e p := by
  rintro (⟨y, hy, hq⟩ | ⟨n, rfl⟩)
  · exact hz (C02_exclusive_ownership S h hp hq ▸ hy)
  · have := (C03_allocated_iff_owned S h _).2 ⟨z, hp⟩
    rw [hfresh n] at this; simp at this

/-- The source of a copy and the object of an observer are only read: their members, and the storage they own, are as
they were, and no event of the call writes to that storage, whether the call returns or throws.  So several threads may
use the same object as long as all of them only copy it and observe it. -/
theorem C62_const_operand (S : tr.Sound) (h : Reach tr T s) {z : L} (hz : z ∉ Spec.changes o)
    (hfresh : ∀ n, s.heap (e.pick n) = none) {a : Seen (Out L A V)}
    (hc : Spec.ended (call tr (plain T) o e s) = some (a, s₁)) :
    s₁.hs z = s.hs z ∧ ∀ p, addr s z = some p →
      s₁.heap p = s.heap p ∧ ∃ w, s₁.trace = s.trace ++ w ∧ ∀ ev ∈ w, ¬ ev.writes p := by
  have W := C62_writes_only tr T s s₁ o e hc
  refine ⟨W.objects z hz, fun p hp => ?_⟩
  have hn := not_mine S h hz hfresh hp
  obtain ⟨w, h1, h2⟩ := W.events
  exact ⟨W.storage p hn, w, h1, fun ev hev hw => hn (h2 ev hev p hw)⟩

open Demo in
/-- Object 3 is copied into object 1, with new storage because the allocators differ; it could also throw. -/
example : 3 ∉ Spec.changes (.assignCopy 1 3 : Op Nat Nat Nat Nat) ∧ addr s0 3 = some 102 ∧ s0.heap 110 = none ∧
    (Spec.ended (call (alloc false false false) (plain Demo.T) (.assignCopy 1 3) (fine 110) s0)).isSome ∧
    (Spec.ended (call (alloc false false false) (plain Demo.T) (.assignCopy 1 3) (bad 110) s0)).isSome := by decide

/-- Two calls that do not change what the other mentions commute: in the other order they return or throw the same, and
leave the same objects and storage.  They may share objects that both only read.  (The allocator gives them different
storage.) -/
theorem C57_calls_commute (S : tr.Sound) (h : Reach tr T s)
    (hops₁ : ∀ z ∈ Spec.operands o₁, z ∉ Spec.changes o₂) (hops₂ : ∀ z ∈ Spec.operands o₂, z ∉ Spec.changes o₁)
    (h₁ : ∀ n, s.heap (e₁.pick n) = none) (h₂ : ∀ n, s.heap (e₂.pick n) = none) (hne : ∀ n m, e₁.pick n ≠ e₂.pick m)
    {a₁ a₂ : Seen (Out L A V)} (hc₁ : Spec.ended (call tr (plain T) o₁ e₁ s) = some (a₁, s₁))
    (hc₂ : Spec.ended (call tr (plain T) o₂ e₂ s₁) = some (a₂, s₁₂)) :
    ∃ s₂ s₂₁, Spec.ended (call tr (plain T) o₂ e₂ s) = some (a₂, s₂) ∧
      Spec.ended (call tr (plain T) o₁ e₁ s₂) = some (a₁, s₂₁) ∧ s₂₁.hs = s₁₂.hs ∧ s₂₁.heap = s₁₂.heap := by
  have hown : ∀ x p, addr s x = some p → s.heap p ≠ none := by
    intro x p hx hn
    have := (C03_allocated_iff_owned S h p).2 ⟨x, hx⟩
    rw [hn] at this; simp at this
  have g : ∀ {o o' : Op L A V X} {e e' : Env}, (∀ z ∈ Spec.operands o', z ∉ Spec.changes o) →
      (∀ n, s.heap (e.pick n) = none) → (∀ n, s.heap (e'.pick n) = none) → (∀ n m, e.pick n ≠ e'.pick m) →
      ∀ a s', Spec.ended (call tr (plain T) o e s) = some (a, s') → (∀ z ∈ Spec.operands o', s'.hs z = s.hs z) ∧
        ∀ p, Spec.Mine (Spec.operands o') s e' p → s'.heap p = s.heap p := by
    intro o o' e e' hops he he' hne a s' hc
    have W := C62_writes_only tr T s s' o e hc
    refine ⟨fun z hz => W.objects z (hops z hz), fun p hp => W.storage p ?_⟩
    rcases hp with ⟨x, hx, hp⟩ | ⟨m, rfl⟩
    · exact not_mine S h (hops x hx) he hp
    · rintro (⟨y, -, hq⟩ | ⟨n, hn⟩)
      · exact hown _ _ hq (he' m)
      · exact hne n m hn
  exact Two.commute (fun t => C56_touches_only_operands tr T s t o₁ e₁)
    (fun t => C56_touches_only_operands tr T s t o₂ e₂) (g hops₂ h₁ h₂ hne)
    (g hops₁ h₂ h₁ fun n m hn => hne m n hn.symm) hc₁ hc₂

open Demo in
/-- An assignment from object 3 and a copy of object 3. -/
example : (∀ z ∈ Spec.operands (.assignCopy 1 3 : Op Nat Nat Nat Nat), z ∉ Spec.changes (.copy 6 3 : Op Nat Nat Nat Nat)) ∧
    (∀ z ∈ Spec.operands (.copy 6 3 : Op Nat Nat Nat Nat), z ∉ Spec.changes (.assignCopy 1 3 : Op Nat Nat Nat Nat)) ∧
    s0.heap 110 = none ∧ s0.heap 111 = none ∧
    (Spec.ended (call (alloc false false false) (plain Demo.T) (.assignCopy 1 3) (fine 110) s0)).isSome ∧
    (Spec.ended (call (alloc false false false) (plain Demo.T) (.copy 6 3) (fine 111)
      (stateAfter s0 (call (alloc false false false) (plain Demo.T) (.assignCopy 1 3) (fine 110) s0)))).isSome := by
  decide

open Demo in
/-- Two calls on different objects. -/
example : (∀ z ∈ Spec.operands (.assignCopy 1 3 : Op Nat Nat Nat Nat), z ∉ Spec.operands (.move 6 2 : Op Nat Nat Nat Nat)) ∧
    s0.heap 110 = none ∧ s0.heap 111 = none ∧
    (Spec.ended (call (alloc false false false) (plain Demo.T) (.assignCopy 1 3) (fine 110) s0)).isSome ∧
    (Spec.ended (call (alloc false false false) (plain Demo.T) (.move 6 2) (fine 111)
      (stateAfter s0 (call (alloc false false false) (plain Demo.T) (.assignCopy 1 3) (fine 110) s0)))).isSome := by
  decide

end

section
variable {L A R Ty V X : Type} [DecidableEq L] [DecidableEq R] [DecidableEq Ty]
open Polymorphic
variable {tr : ATraits A R} {P : PSpec Ty V X} {s t s₁ s₁₂ : St L A R (PBody Ty V)} {o o₁ o₂ : POp L A Ty V X}
  {e e₁ e₂ : Env}

/-- The same for `polymorphic`.  (Here the state `s` has to be reachable: `operator*` follows the pointer in the control
block, which in a reachable state points into the block.) -/
theorem C56_polymorphic_touches_only_operands (S : tr.Sound) (h : Reach tr P s) (t : St L A R (PBody Ty V))
    (o : POp L A Ty V X) (e : Env) (hobjects : ∀ z ∈ Spec.poperands o, t.hs z = s.hs z)
    (hstorage : ∀ p, Spec.Mine (Spec.poperands o) s e p → t.heap p = s.heap p) :
    Spec.SameOutcome (Spec.poperands o) (Spec.Mine (Spec.poperands o) s e) s t
      (call tr (plainP P) o e s) (call tr (plainP P) o e t) := by
  refine Two.sameOutcome (bp := cbPtr) ?_ (two_step rfl tr P fun _ hz => hz) hobjects hstorage
  intro p c r hp hc hr
  obtain ⟨x, hx⟩ := (C32_allocated_iff_owned S h p).1 (by simp [hc])
  obtain ⟨r', ty, v, hv, -⟩ := C31_control_blocks_complete S h hx
  rw [hc] at hv
  obtain rfl := Option.some.inj hv
  simp only [cbPtr, Option.bind_some, Option.some.injEq] at hr
  rw [← hr]; exact hp

/-- The same for `polymorphic`. -/
theorem C62_polymorphic_writes_only (S : tr.Sound) (h : Reach tr P s) (o : POp L A Ty V X) (e : Env)
    {a : Seen (Out L A (Ty × V))} (hc : Spec.ended (call tr (plainP P) o e s) = some (a, s₁)) :
    Spec.WritesOnly (Spec.pchanges o) (Spec.Mine (Spec.pchanges o) s e) s s₁ := by
  refine Only.writesOnly (bp := cbPtr) ?_ (only_step rfl tr P fun _ hz => hz) hc
  intro p c r hp hc hr
  obtain ⟨x, hx⟩ := (C32_allocated_iff_owned S h p).1 (by simp [hc])
  obtain ⟨r', ty, v, hv, -⟩ := C31_control_blocks_complete S h hx
  rw [hc] at hv
  obtain rfl := Option.some.inj hv
  simp only [cbPtr, Option.bind_some, Option.some.injEq] at hr
  rw [← hr]; exact hp

/-- The storage of an object that `ws` does not contain is not among the storage of `ws`. -/
private theorem pnot_mine (S : tr.Sound) (h : Reach tr P s) {ws : List L} {z : L} (hz : z ∉ ws)
    (hfresh : ∀ n, s.heap (e.pick n) = none) {p : Addr} (hp : addr s z = some p) : ¬ Spec.Mine ws s e p := by
  rintro (⟨y, hy, hq⟩ | ⟨n, rfl⟩)
  · exact hz (C32_exclusive_ownership S h hp hq ▸ hy)
  · have := (C32_allocated_iff_owned S h _).2 ⟨z, hp⟩
    rw [hfresh n] at this; simp at this

/-- The same for `polymorphic`: the source of a copy is only read, control block included. -/
theorem C62_polymorphic_const_operand (S : tr.Sound) (h : Reach tr P s) {z : L} (hz : z ∉ Spec.pchanges o)
    (hfresh : ∀ n, s.heap (e.pick n) = none) {a : Seen (Out L A (Ty × V))}
    (hc : Spec.ended (call tr (plainP P) o e s) = some (a, s₁)) :
    s₁.hs z = s.hs z ∧ ∀ p, addr s z = some p →
      s₁.heap p = s.heap p ∧ ∃ w, s₁.trace = s.trace ++ w ∧ ∀ ev ∈ w, ¬ ev.writes p := by
  have W := C62_polymorphic_writes_only S h o e hc
  refine ⟨W.objects z hz, fun p hp => ?_⟩
  have hn := pnot_mine S h hz hfresh hp
  obtain ⟨w, h1, h2⟩ := W.events
  exact ⟨W.storage p hn, w, h1, fun ev hev hw => hn (h2 ev hev p hw)⟩

open Demo in
example : 3 ∉ Spec.pchanges (.assignCopy 1 3 : POp Nat Nat Nat Nat Nat) ∧ addr PDemo.s0 3 = some 102 ∧
    PDemo.s0.heap 110 = none ∧
    (Spec.ended (call (alloc false false false) (plainP PDemo.P) (.assignCopy 1 3) (fine 110) PDemo.s0)).isSome ∧
    (Spec.ended (call (alloc false false false) (plainP PDemo.P) (.assignCopy 1 3) (bad 110) PDemo.s0)).isSome := by
  decide

/-- The same for `polymorphic`. -/
theorem C57_polymorphic_calls_commute (S : tr.Sound) (h : Reach tr P s)
    (hops₁ : ∀ z ∈ Spec.poperands o₁, z ∉ Spec.pchanges o₂) (hops₂ : ∀ z ∈ Spec.poperands o₂, z ∉ Spec.pchanges o₁)
    (h₁ : ∀ n, s.heap (e₁.pick n) = none) (h₂ : ∀ n, s.heap (e₂.pick n) = none) (hne : ∀ n m, e₁.pick n ≠ e₂.pick m)
    {a₁ a₂ : Seen (Out L A (Ty × V))} (hc₁ : Spec.ended (call tr (plainP P) o₁ e₁ s) = some (a₁, s₁))
    (hc₂ : Spec.ended (call tr (plainP P) o₂ e₂ s₁) = some (a₂, s₁₂)) :
    ∃ s₂ s₂₁, Spec.ended (call tr (plainP P) o₂ e₂ s) = some (a₂, s₂) ∧
      Spec.ended (call tr (plainP P) o₁ e₁ s₂) = some (a₁, s₂₁) ∧ s₂₁.hs = s₁₂.hs ∧ s₂₁.heap = s₁₂.heap := by
  have hown : ∀ x p, addr s x = some p → s.heap p ≠ none := by
    intro x p hx hn
    have := (C32_allocated_iff_owned S h p).2 ⟨x, hx⟩
    rw [hn] at this; simp at this
  have g : ∀ {o o' : POp L A Ty V X} {e e' : Env}, (∀ z ∈ Spec.poperands o', z ∉ Spec.pchanges o) →
      (∀ n, s.heap (e.pick n) = none) → (∀ n, s.heap (e'.pick n) = none) → (∀ n m, e.pick n ≠ e'.pick m) →
      ∀ a s', Spec.ended (call tr (plainP P) o e s) = some (a, s') → (∀ z ∈ Spec.poperands o', s'.hs z = s.hs z) ∧
        ∀ p, Spec.Mine (Spec.poperands o') s e' p → s'.heap p = s.heap p := by
    intro o o' e e' hops he he' hne a s' hc
    have W := C62_polymorphic_writes_only S h o e hc
    refine ⟨fun z hz => W.objects z (hops z hz), fun p hp => W.storage p ?_⟩
    rcases hp with ⟨x, hx, hp⟩ | ⟨m, rfl⟩
    · exact pnot_mine S h (hops x hx) he hp
    · rintro (⟨y, -, hq⟩ | ⟨n, hn⟩)
      · exact hown _ _ hq (he' m)
      · exact hne n m hn
  exact Two.commute (fun t => C56_polymorphic_touches_only_operands S h t o₁ e₁)
    (fun t => C56_polymorphic_touches_only_operands S h t o₂ e₂) (g hops₂ h₁ h₂ hne)
    (g hops₁ h₂ h₁ fun n m hn => hne m n hn.symm) hc₁ hc₂

open Demo in
/-- An assignment from object 3 and a copy of object 3. -/
example : (∀ z ∈ Spec.poperands (.assignCopy 1 3 : POp Nat Nat Nat Nat Nat),
      z ∉ Spec.pchanges (.copy 6 3 : POp Nat Nat Nat Nat Nat)) ∧
    (∀ z ∈ Spec.poperands (.copy 6 3 : POp Nat Nat Nat Nat Nat),
      z ∉ Spec.pchanges (.assignCopy 1 3 : POp Nat Nat Nat Nat Nat)) ∧
    (Spec.ended (call (alloc false false false) (plainP PDemo.P) (.assignCopy 1 3) (fine 110) PDemo.s0)).isSome ∧
    (Spec.ended (call (alloc false false false) (plainP PDemo.P) (.copy 6 3) (fine 111) (stateAfter PDemo.s0
      (call (alloc false false false) (plainP PDemo.P) (.assignCopy 1 3) (fine 110) PDemo.s0)))).isSome := by
  decide

open Demo in
/-- Two calls on different objects. -/
example : (∀ z ∈ Spec.poperands (.assignCopy 1 3 : POp Nat Nat Nat Nat Nat),
      z ∉ Spec.poperands (.move 6 2 : POp Nat Nat Nat Nat Nat)) ∧
    PDemo.s0.heap 110 = none ∧ PDemo.s0.heap 111 = none ∧
    (Spec.ended (call (alloc false false false) (plainP PDemo.P) (.assignCopy 1 3) (fine 110) PDemo.s0)).isSome ∧
    (Spec.ended (call (alloc false false false) (plainP PDemo.P) (.move 6 2) (fine 111) (stateAfter PDemo.s0
      (call (alloc false false false) (plainP PDemo.P) (.assignCopy 1 3) (fine 110) PDemo.s0)))).isSome := by
  decide

end
end Verif.Props
