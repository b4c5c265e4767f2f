import Verif.PDemo
import Verif.Proofs.Tracking

/-!
# C48: what the counters of `TrackingAllocator` say

The memory of the counters is separate from the memory of the owned objects.  `Tracking.run m cs` is what the
counters hold after the allocator calls `cs`, when they held `m` before.  `Spec.CallsOf cs s.trace`: the calls are
those of the history that led to state `s`; between the calls that got or returned storage there can be any number of
allocations that were refused (`Spec.refused`), which leave no event in `s.trace`.
-/

set_option autoImplicit false

namespace Verif.Props
open Verif Tracking

section
variable {L Ty V X : Type} [DecidableEq L] [DecidableEq Ty] {w : Nat} {d a : Tracking}

/-- Allocators are equal exactly if they count with the same counters. -/
theorem C48_equal_iff_same_counters (a b : Tracking) :
    (traits d).eq a b = true ↔ a.allocCounter = b.allocCounter ∧ a.deallocCounter = b.deallocCounter := by
  simp [traits, Tracking.eq]

/-- At any time the objects that use given counters and own a value can be listed. -/
theorem C48_engaged_finite {T : TSpec V X} {s : St L Tracking Tracking (Obj V)} (h : Indirect.Reach (traits d) T s)
    (a : Tracking) : ∃ xs, Spec.EngagedWith (Indirect.abs s) a xs :=
  let ⟨xs, hx, _⟩ := engaged_count (sound d) (fun _ => rfl) h a
  ⟨xs, hx⟩

/-- After any history, with counters that were equal at the start: `*alloc_counter - *dealloc_counter`, as `unsigned`,
is the number of engaged objects that use the counters plus the number of allocations that were refused. -/
theorem C48_counters {T : TSpec V X} {s : St L Tracking Tracking (Obj V)} (h : Indirect.Reach (traits d) T s)
    {cs : List Tracking.Call} (hcs : Spec.CallsOf cs s.trace) (ho : Spec.OwnCounters a cs)
    (m : Counters w) (hm : m a.allocCounter = m a.deallocCounter)
    {xs : List L} (hx : Spec.EngagedWith (Indirect.abs s) a xs) :
    run m cs a.allocCounter - run m cs a.deallocCounter = BitVec.ofNat w (xs.length + Spec.refused a cs) := by
  obtain ⟨ys, hy, hl⟩ := engaged_count (sound d) (fun _ => rfl) h a
  have hlen : xs.length = ys.length := nodup_length hx.nodup hy.nodup fun x => by rw [hx.mem, hy.mem]
  obtain ⟨h1, h2⟩ := run_counters ho m
  have e1 := asked_eq a cs
  have e2 := gaveBack_eq a cs
  rw [hcs, asked_storage] at e1
  rw [hcs, gaveBack_storage] at e2
  rw [h1, h2, hm, show asked a cs = (xs.length + Spec.refused a cs) + gaveBack a cs by omega, BitVec.ofNat_add]
  generalize m a.deallocCounter = u
  generalize BitVec.ofNat w (gaveBack a cs) = g
  generalize BitVec.ofNat w (xs.length + Spec.refused a cs) = n
  rw [BitVec.sub_eq_iff_eq_add, ← BitVec.add_assoc, ← BitVec.add_assoc, BitVec.add_comm u n]

/-- C48 for histories in which no allocation is refused.  Missing: other histories, for which it is false, see
`C48_violated`. -/
theorem C48_counters_partial {T : TSpec V X} {s : St L Tracking Tracking (Obj V)} (h : Indirect.Reach (traits d) T s)
    {cs : List Tracking.Call} (hcs : Spec.CallsOf cs s.trace) (ho : Spec.OwnCounters a cs)
    (m : Counters w) (hm : m a.allocCounter = m a.deallocCounter)
    {xs : List L} (hx : Spec.EngagedWith (Indirect.abs s) a xs) (hr : Spec.refused a cs = 0) :
    run m cs a.allocCounter - run m cs a.deallocCounter = BitVec.ofNat w xs.length := by
  rw [C48_counters h hcs ho m hm hx, hr, Nat.add_zero]

/-- When every object has been destroyed, the difference is the number of refused allocations: a test that compares
the counters at the end detects every leak, but also fails if an allocation was refused. -/
theorem C48_all_destroyed {T : TSpec V X} {s : St L Tracking Tracking (Obj V)} (h : Indirect.Reach (traits d) T s)
    {cs : List Tracking.Call} (hcs : Spec.CallsOf cs s.trace) (ho : Spec.OwnCounters a cs)
    (m : Counters w) (hm : m a.allocCounter = m a.deallocCounter) (hdead : ∀ x, Spec.Dead (Indirect.abs s) x) :
    run m cs a.allocCounter - run m cs a.deallocCounter = BitVec.ofNat w (Spec.refused a cs) := by
  have := C48_counters h hcs ho m hm (xs := []) ⟨by simp, fun x => by
    have : Indirect.abs s x = none := hdead x
    simp [this]⟩
  simpa using this

/-- The same as `C48_engaged_finite` for `polymorphic`. -/
theorem C48_engaged_finite_polymorphic {P : PSpec Ty V X} {s : St L Tracking Tracking (PBody Ty V)}
    (h : Polymorphic.Reach (traits d) P s) (a : Tracking) : ∃ xs, Spec.EngagedWith (Polymorphic.abs s) a xs := by
  have := C48_engaged_finite (h.sim (sound d)).2 a
  rwa [Polymorphic.abs_view] at this

/-- The same as `C48_counters` for `polymorphic`. -/
theorem C48_counters_polymorphic {P : PSpec Ty V X} {s : St L Tracking Tracking (PBody Ty V)}
    (h : Polymorphic.Reach (traits d) P s)
    {cs : List Tracking.Call} (hcs : Spec.CallsOf cs s.trace) (ho : Spec.OwnCounters a cs)
    (m : Counters w) (hm : m a.allocCounter = m a.deallocCounter)
    {xs : List L} (hx : Spec.EngagedWith (Polymorphic.abs s) a xs) :
    run m cs a.allocCounter - run m cs a.deallocCounter = BitVec.ofNat w (xs.length + Spec.refused a cs) :=
  C48_counters (h.sim (sound d)).2 hcs ho m hm (by rw [Polymorphic.abs_view]; exact hx)

/-- The same as `C48_counters_partial` for `polymorphic`. -/
theorem C48_counters_polymorphic_partial {P : PSpec Ty V X} {s : St L Tracking Tracking (PBody Ty V)}
    (h : Polymorphic.Reach (traits d) P s)
    {cs : List Tracking.Call} (hcs : Spec.CallsOf cs s.trace) (ho : Spec.OwnCounters a cs)
    (m : Counters w) (hm : m a.allocCounter = m a.deallocCounter)
    {xs : List L} (hx : Spec.EngagedWith (Polymorphic.abs s) a xs) (hr : Spec.refused a cs = 0) :
    run m cs a.allocCounter - run m cs a.deallocCounter = BitVec.ofNat w xs.length := by
  rw [C48_counters_polymorphic h hcs ho m hm hx, hr, Nat.add_zero]

end

/-! ## Concrete cases -/

/-- Two allocators with separate counters. -/
def a₁ : Tracking := ⟨0, 1⟩
@[inherit_doc a₁] def a₂ : Tracking := ⟨2, 3⟩

/-- The state after a history with tracking allocators. -/
def tracked (cs : List (Op (Fin 4) Tracking Nat Nat × Env)) : St (Fin 4) Tracking Tracking (Obj Nat) :=
  match Indirect.run (traits a₁) Demo.T cs St.init with
  | .done _ s => s
  | _ => St.init

theorem tracked_reach {cs : List (Op (Fin 4) Tracking Nat Nat × Env)}
    (hl : Indirect.LegalRun (traits a₁) Demo.T cs St.init) : Indirect.Reach (traits a₁) Demo.T (tracked cs) := by
  unfold tracked
  cases hr : Indirect.run (traits a₁) Demo.T cs St.init with
  | done log s => exact Indirect.Reach.run .init hl hr
  | _ => exact .init

/-- Objects 0, 1 and 3 with counters 0 and 1, of which 1 is moved from, and object 2 with counters 2 and 3. -/
def busy : List (Op (Fin 4) Tracking Nat Nat × Env) := [
  (.make 0 (some a₁) (.inPlace [7]), Demo.fine 100),
  (.copy 1 0, Demo.fine 101),
  (.copyA 2 a₂ 0, Demo.fine 102),
  (.move 3 1, Demo.full),
  (.assignCopy 0 2, Demo.fine 103)]

/-- The counters of `a₁` may wrap around: they start at the largest `unsigned`. -/
example : ∃ cs : List Tracking.Call, Indirect.Reach (traits a₁) Demo.T (tracked busy) ∧
    Spec.CallsOf cs (tracked busy).trace ∧ Spec.OwnCounters a₁ cs ∧
    Spec.EngagedWith (Indirect.abs (tracked busy)) a₁ [0, 3] ∧
    run (fun _ => 4294967295#32) cs 0 = 2#32 ∧ run (fun _ => 4294967295#32) cs 1 = 0#32 ∧ Spec.refused a₁ cs = 0 := by
  refine ⟨Spec.storage (tracked busy).trace, tracked_reach (by decide), by unfold Spec.CallsOf; decide, ⟨by decide, by decide⟩,
    ⟨by decide, ?_⟩, by decide, by decide, by decide⟩
  intro x
  revert x
  have : ∀ x, (x ∈ [(0 : Fin 4), 3]) ↔ (∃ b, Indirect.abs (tracked busy) x = some b ∧ b.alloc = a₁ ∧ b.val.isSome) := by
    decide
  intro x
  rw [this]
  constructor
  · rintro ⟨⟨al, val⟩, h, rfl, hv⟩
    obtain ⟨v, rfl⟩ := Option.isSome_iff_exists.1 hv
    exact ⟨v, h⟩
  · rintro ⟨v, h⟩
    exact ⟨_, h, rfl, rfl⟩

/-- C48 is false: one allocation is refused, no object is alive, and the counters differ. -/
theorem C48_violated : ∃ (s : St (Fin 4) Tracking Tracking (Obj Nat)) (cs : List Tracking.Call),
    Indirect.call (traits a₁) (plain Demo.T) (.make 0 (some a₁) (.inPlace [7])) Demo.full St.init = .threw .badAlloc s ∧
    Indirect.Reach (traits a₁) Demo.T s ∧ Spec.CallsOf cs s.trace ∧ Spec.OwnCounters a₁ cs ∧
    Spec.EngagedWith (Indirect.abs s) a₁ [] ∧
    run (fun _ => 0#32) cs a₁.allocCounter - run (fun _ => 0#32) cs a₁.deallocCounter ≠ 0#32 := by
  refine ⟨_, [.allocate a₁ none], rfl, Indirect.Reach.threw (.make 0 (some a₁) (.inPlace [7])) Demo.full .badAlloc .init (by decide) rfl, ?_, ⟨by decide, by decide⟩,
    ⟨by simp, ?_⟩, by decide⟩
  · rfl
  · intro x
    simp [Indirect.abs, absWith, St.init, St.enter]

end Verif.Props
