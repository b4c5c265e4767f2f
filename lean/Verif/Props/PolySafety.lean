import Verif.PDemo
import Verif.Props.IndirectSafety
import Verif.Props.IndirectGlobal

/-!
# C31, C32, C39, C40, C53: safety and histories of `polymorphic`

`Polymorphic.LegalRun tr P cs St.init`: the history `cs` (calls paired with arbitrary environments) starts from nothing
and every call satisfies its documented precondition (`Spec.PLegal`).  `Polymorphic.Reach tr P s`: `s` is a state that
such a program can be in between two calls.  `Polymorphic.view s` is `s` without the internals of the control blocks.
-/

set_option autoImplicit false
set_option linter.unusedSectionVars false
set_option linter.unusedSimpArgs false

namespace Verif.Props
open Verif Polymorphic

section
variable {L A R Ty V X : Type} [DecidableEq L] [DecidableEq R] [DecidableEq Ty]
variable {tr : ATraits A R} {P : PSpec Ty V X} {s s' : St L A R (PBody Ty V)} {o : POp L A Ty V X} {e : Env}
  {out : Out L A (Ty × V)} {ex : Exn} {x y z : L}

/-! ## C31 -/

/-- Every legal history ends normally or in `std::terminate` (see C39), never in undefined behaviour. -/
theorem C31_history_no_undefined_behaviour (S : tr.Sound) (cs : List (POp L A Ty V X × Env))
    (hl : LegalRun tr P cs St.init) :
    (∃ log s, run tr P cs St.init = .done log s) ∨ (∃ log, run tr P cs St.init = .terminated log) := by
  obtain ⟨h, hl'⟩ := run_sim (P := P) S .init hl
  have := C01_history_no_undefined_behaviour S _ hl'
  rcases this with ⟨log, t, ht⟩ | ⟨log, ht⟩
  · rw [view_init, ht] at h
    cases hr : run tr P cs St.init <;> rw [hr] at h <;> simp [HSim] at h
    exact .inl ⟨_, _, rfl⟩
  · rw [view_init, ht] at h
    cases hr : run tr P cs St.init <;> rw [hr] at h <;> simp [HSim] at h
    exact .inr ⟨_, rfl⟩

/-- The same for one call in a reachable state: it returns, throws, or terminates the program. -/
theorem C31_call_no_undefined_behaviour (S : tr.Sound) (h : Reach tr P s) (o : POp L A Ty V X) (e : Env)
    (hl : Spec.PLegal tr (abs s) o) :
    (∃ out s', call tr (plainP P) o e s = .ok out s') ∨ (∃ x s', call tr (plainP P) o e s = .threw x s') ∨
      call tr (plainP P) o e s = .terminated := by
  have h1 := h.call S hl e
  have h2 := C01_call_no_undefined_behaviour S (h.sim S).2 (toOp o) e (legal_view hl)
  cases hc : call tr (plainP P) o e s with
  | ok out s => exact .inl ⟨out, s, rfl⟩
  | threw x s => exact .inr (.inl ⟨x, s, rfl⟩)
  | terminated => exact .inr (.inr rfl)
  | ub u => rw [hc] at h1; obtain ⟨u', h1⟩ := h1; rw [h1] at h2; simp at h2
  | diverged =>
    rw [hc] at h1
    rw [show Indirect.call tr (plain P.owned) (toOp o) e (view s) = _ from h1] at h2
    simp at h2

/-- The states between the calls of legal histories are exactly the reachable ones. -/
theorem C31_histories_reach {cs : List (POp L A Ty V X × Env)} {log : List (Seen (Out L A (Ty × V)))}
    (hl : LegalRun tr P cs St.init) (hr : run tr P cs St.init = .done log s) : Reach tr P s :=
  Reach.run .init hl hr

/-- In a reachable state the pointer member of every engaged object leads to a control block whose `p_` points to its
own, live object: the one virtual calls, `operator*` and `operator->` work on. -/
theorem C31_control_blocks_complete (S : tr.Sound) (h : Reach tr P s) {p : Addr} (hx : addr s x = some p) :
    ∃ r ty v, s.heap p = some ⟨r, some ⟨ty, some p, some v⟩⟩ ∧ Spec.valueOf (abs s) x = some (ty, v) := by
  cases hk : s.hs x with
  | none => simp [addr, hk] at hx
  | some k =>
    have hp : k.p = some p := by simpa [addr, hk] using hx
    obtain ⟨r, ty, v, hv⟩ := full_of (h.sim S).1 ((h.sim S).2.inv S) x k p hk hp
    exact ⟨r, ty, v, hv, by simp [Spec.valueOf, abs, absWith, hk, hp, hv]⟩

open Demo in
example : (alloc true false false).Sound ∧
    LegalRun (alloc true false false) PDemo.P (PDemo.build ++ [
      (.assignCopy 1 3, bad 200), (.assignCopy 1 3, fine 201), (.assignMove 4 1, full),
      (.copy 6 2, fine 202), (.make 7 none (.from 2 (.lval 6)), fine 203), (.destroy 1, full)]) St.init ∧
    PDemo.ends (alloc true false false) (PDemo.build ++ [
      (.assignCopy 1 3, bad 200), (.assignCopy 1 3, fine 201), (.assignMove 4 1, full),
      (.copy 6 2, fine 202), (.make 7 none (.from 2 (.lval 6)), fine 203), (.destroy 1, full)]) = true :=
  ⟨alloc_sound _ _ _, by decide, by decide⟩

/-! ## C32 -/

/-- Two objects never own the same object. -/
theorem C32_exclusive_ownership (S : tr.Sound) (h : Reach tr P s) {p : Addr}
    (hx : addr s x = some p) (hy : addr s y = some p) : x = y :=
  C02_exclusive_ownership S (h.sim S).2 hx hy

/-- A block is allocated exactly if some object owns it. -/
theorem C32_allocated_iff_owned (S : tr.Sound) (h : Reach tr P s) (p : Addr) :
    (∃ c, s.heap p = some c) ↔ ∃ x, addr s x = some p := by
  have := C03_allocated_iff_owned S (h.sim S).2 p
  rw [show (∃ x, addr s x = some p) ↔ ∃ x, addr (view s) x = some p from Iff.rfl, ← this]
  simp only [view]
  cases s.heap p <;> simp

/-- The whole trace follows the storage and lifetime protocol of `Spec.replay`: in particular no block is freed twice,
and no owned object is destroyed twice, or copied or moved from while it is not alive. -/
theorem C32_trace_follows_protocol (S : tr.Sound) (h : Reach tr P s) : ∃ m, Spec.replay s.trace = some m :=
  C03_trace_follows_protocol (s := view s) (h.sim S).2

/-- A block owned by an object was allocated once more than freed, and the object in it constructed once more than
destroyed. -/
theorem C32_owned_balance (S : tr.Sound) (h : Reach tr P s) {p : Addr} (hx : addr s x = some p) :
    Spec.allocsAt p s.trace = Spec.deallocsAt p s.trace + 1 ∧
      Spec.constructsAt p s.trace = Spec.destroysAt p s.trace + 1 :=
  C03_owned_balance S (h.sim S).2 hx

/-- Every other block was freed as often as allocated, and every object in it destroyed. -/
theorem C32_unowned_balance (S : tr.Sound) (h : Reach tr P s) {p : Addr} (hp : ∀ x, addr s x ≠ some p) :
    Spec.allocsAt p s.trace = Spec.deallocsAt p s.trace ∧
      Spec.constructsAt p s.trace = Spec.destroysAt p s.trace :=
  C03_unowned_balance S (h.sim S).2 hp

/-- Once every `polymorphic` has been destroyed, everything was freed and destroyed. -/
theorem C32_no_leak (S : tr.Sound) (h : Reach tr P s) (hdead : ∀ x, Spec.Dead (abs s) x) (p : Addr) :
    s.heap p = none ∧ Spec.allocsAt p s.trace = Spec.deallocsAt p s.trace ∧
      Spec.constructsAt p s.trace = Spec.destroysAt p s.trace := by
  have := C03_no_leak S (h.sim S).2 (fun x => by rw [abs_view]; exact hdead x) p
  refine ⟨?_, this.2⟩
  simpa [view] using this.1

/-- Every deallocation in the history of a reachable state returns the block to the resource that its most recent
allocation took it from. -/
theorem C32_deallocate_matches_allocate (S : tr.Sound) (h : Reach tr P s) {pre post : List (Ev R)} {r : R} {p : Addr}
    (ht : s.trace = pre ++ .dealloc r p :: post) :
    ∃ t₁ t₂, pre = t₁ ++ .alloc r p :: t₂ ∧ ∀ ev ∈ t₂, ¬ Spec.storageEvent p ev :=
  C04_deallocate_matches_allocate (h.sim S).2 ht

/-- The storage of an engaged object comes from the resource of the allocator that the object has now. -/
theorem C32_storage_of_own_allocator (S : tr.Sound) (h : Reach tr P s) {p : Addr} {b : Spec.Box A (Ty × V)}
    (hb : abs s x = some b) (hx : addr s x = some p) :
    ∃ c, s.heap p = some c ∧ c.arena = tr.res b.alloc := by
  obtain ⟨c, hc, ha⟩ := C04_storage_of_own_allocator S (h.sim S).2 (by rw [abs_view]; exact hb) hx
  simp only [view] at hc
  cases hh : s.heap p with
  | none => rw [hh] at hc; cases hc
  | some c' => rw [hh] at hc; cases hc; exact ⟨c', rfl, ha⟩

open Demo in
example : let cs : PDemo.Hist (Fin 2) := [(.make 0 (some 5) (.inPlace 2 [1]), fine 100), (.copy 1 0, bad 101),
      (.copy 1 0, fine 101), (.destroy 0, full), (.destroy 1, full)]
    let s := PDemo.after (alloc true true true) cs
    Reach (alloc true true true) PDemo.P s ∧ (∀ x, Spec.Dead (abs s) x) ∧ Spec.allocsAt 101 s.trace = 2 :=
  ⟨PDemo.reach (by decide) (by decide), by decide, by decide⟩

open Demo in
example : Reach (alloc true true true) PDemo.P (PDemo.st true true true) ∧
    addr (PDemo.st true true true) 1 = some 100 ∧ addr (PDemo.st true true true) 5 = some 103 ∧
    addr (PDemo.st true true true) 4 = none ∧ abs (PDemo.st true true true) 5 = some ⟨6, some (2, 2003)⟩ :=
  ⟨PDemo.st_reach _ _ _, by decide, by decide, by decide, by decide⟩

/-! ## C40 -/

/-- Every legal history gives exactly the results (returned values and references, exceptions, in order) of the same
history on plain values with a type tag, and ends with the same values and types; it terminates exactly if the other
does. -/
theorem C40_history_is_value_history (S : tr.Sound) (cs : List (POp L A Ty V X × Env)) (hl : LegalRun tr P cs St.init) :
    match run tr P cs St.init with
    | .done log s => Spec.prun tr P (Polymorphic.lucks tr P cs St.init) (fun _ => none) = .done log (abs s)
    | .terminated log => Spec.prun tr P (Polymorphic.lucks tr P cs St.init) (fun _ => none) = .terminated log
    | _ => False := by
  obtain ⟨h, hl'⟩ := run_sim (P := P) S .init hl
  have := C23_history_is_value_history S _ hl'
  rw [view_init] at h
  rw [← view_init, lucks_eq S .init hl, prun_eq, view_init] at this
  cases hr : run tr P cs St.init <;> rw [hr] at h <;> simp only
  · rename_i log s
    cases hi : Indirect.run tr P.owned (toOps cs) St.init <;> rw [hi] at h <;> simp only [HSim] at h
    rw [hi] at this
    obtain ⟨rfl, rfl⟩ := h
    simpa only [abs_view] using this
  · cases hi : Indirect.run tr P.owned (toOps cs) St.init <;> rw [hi] at h <;> simp only [HSim] at h
    rw [hi] at this
    subst h
    exact this
  · cases hi : Indirect.run tr P.owned (toOps cs) St.init <;> rw [hi] at h <;> simp only [HSim] at h
    rw [hi] at this; exact this
  · cases hi : Indirect.run tr P.owned (toOps cs) St.init <;> rw [hi] at h <;> simp only [HSim] at h
    rw [hi] at this; exact this

/-- The same for one call in any reachable state. -/
theorem C40_call_is_value_call (S : tr.Sound) (h : Reach tr P s) (hl : Spec.PLegal tr (abs s) o) (e : Env) :
    match call tr (plainP P) o e s with
    | .ok out s' => Spec.pstep tr P (available s e) (e.choice 0) (abs s) o = .ret out (abs s')
    | .threw x s' => Spec.pstep tr P (available s e) (e.choice 0) (abs s) o = .threw x (abs s')
    | .terminated => Spec.pstep tr P (available s e) (e.choice 0) (abs s) o = .terminated
    | _ => False := by
  have h1 := h.call S hl e
  have h2 := C23_call_is_value_call S (h.sim S).2 (legal_view hl) e
  rw [step_toOp, available_view, abs_view] at h2
  cases hc : call tr (plainP P) o e s with
  | ok out s => rw [hc] at h1; rw [h1.2] at h2; simpa only [abs_view] using h2
  | threw x s => rw [hc] at h1; rw [h1.2] at h2; simpa only [abs_view] using h2
  | terminated =>
    rw [hc] at h1
    rw [show Indirect.call tr (plain P.owned) (toOp o) e (view s) = _ from h1] at h2
    exact h2
  | ub u => rw [hc] at h1; obtain ⟨u', h1⟩ := h1; rw [h1] at h2; exact h2
  | diverged =>
    rw [hc] at h1
    rw [show Indirect.call tr (plain P.owned) (toOp o) e (view s) = _ from h1] at h2
    exact h2

open Demo in
example : LegalRun (alloc false false false) PDemo.P (PDemo.build ++ [(.assignCopy 1 2, fine 110),
    (.modify 1 (fun ty v => v + ty), fine 0), (.assignCopy 2 1, bad 111), (.destroy 2, fine 0)]) St.init := by decide

/-! ## C39 -/

/-- Exactly when a legal call terminates the program: a move assignment between unequal allocators whose `noexcept`
condition holds, and whose allocation fails or whose move construction throws. -/
theorem C39_terminates_iff (S : tr.Sound) (h : Reach tr P s) (hl : Spec.PLegal tr (abs s) o) (e : Env) :
    call tr (plainP P) o e s = .terminated ↔
      ∃ x y k b ty v, o = .assignMove x y ∧ x ≠ y ∧ abs s x = some k ∧ abs s y = some ⟨b, some (ty, v)⟩ ∧
        tr.eq k.alloc b = false ∧ (tr.pocma = true ∨ tr.alwaysEqual = true) ∧
        (available s e = false ∨ ∃ ex, (P.move ty v (e.choice 0)).1 = .error ex) := by
  rw [(h.call S hl e).terminated_iff, C16_terminates_iff S (h.sim S).2 (legal_view hl)]
  simp only [abs_view, available_view]
  have hm : ∀ (ty : Ty) (v : V) (n : Nat), (∃ ex, (P.owned.move (ty, v) n).1 = .error ex) ↔
      ∃ ex, (P.move ty v n).1 = .error ex := by
    intro ty v n
    simp only [PSpec.owned]
    cases (P.move ty v n).1 <;> simp [Except.map]
  constructor
  · rintro ⟨x, y, k, b, ⟨ty, v⟩, ho, h1, h2, h3, h4, h5, h6⟩
    refine ⟨x, y, k, b, ty, v, ?_, h1, h2, h3, h4, h5, ?_⟩
    · cases o <;> simp [toOp] at ho ⊢
      exact ho
    · rwa [hm] at h6
  · rintro ⟨x, y, k, b, ty, v, rfl, h1, h2, h3, h4, h5, h6⟩
    exact ⟨x, y, k, b, (ty, v), rfl, h1, h2, h3, h4, h5, by rwa [hm]⟩

/-- If allocators that do not compare equal do not occur (`is_always_equal`, or a single allocator), or the allocator
neither propagates on move assignment nor claims `is_always_equal`, no legal call terminates the program.
Missing: allocators with `propagate_on_container_move_assignment` that compare unequal, for which the property is
false: see `C39_noexcept_violated`. -/
theorem C39_noexcept_kept_partial (S : tr.Sound) (h : Reach tr P s) (hl : Spec.PLegal tr (abs s) o) (e : Env)
    (ht : (∀ a b, tr.eq a b = true) ∨ (tr.pocma = false ∧ tr.alwaysEqual = false)) :
    call tr (plainP P) o e s ≠ .terminated := by
  intro hc
  obtain ⟨x, y, k, b, ty, v, _, _, _, _, h1, h2, _⟩ := (C39_terminates_iff S h hl e).1 hc
  rcases ht with ht | ⟨ht, ht'⟩
  · rw [ht] at h1; cases h1
  · simp [ht, ht'] at h2

open Demo in
/-- The `noexcept` of move assignment is not kept by an allocator that propagates on move assignment: with unequal
allocators it allocates, and a failed allocation terminates the program. -/
theorem C39_noexcept_violated :
    ∃ (o : POp Nat Nat Nat Nat Nat) (e : Env), Reach (alloc false true false) PDemo.P (PDemo.st false true false) ∧
      Spec.PLegal (alloc false true false) (abs (PDemo.st false true false)) o ∧
      call (alloc false true false) (plainP PDemo.P) o e (PDemo.st false true false) = .terminated := by
  refine ⟨.assignMove 1 3, full, PDemo.st_reach _ _ _, by decide, ?_⟩
  have h : outcome (call (alloc false true false) (plainP PDemo.P) (.assignMove 1 3) full (PDemo.st false true false)) = 2 := by
    decide
  revert h
  cases call (alloc false true false) (plainP PDemo.P) (.assignMove 1 3) full (PDemo.st false true false) <;> simp [outcome]

-- C39_noexcept_kept_partial: both alternatives of its hypothesis are met by real allocators.
example : (Demo.alloc true false true).pocma = false ∧ (Demo.alloc true false true).alwaysEqual = false := ⟨rfl, rfl⟩
example : ∀ a b, Demo.std.eq a b = true := fun _ _ => rfl

/-! ## C53 -/

/-- The exact cost of a call that returns: allocations, deallocations, constructions, destructions. -/
theorem C53_cost (S : tr.Sound) (h : Reach tr P s) (hl : Spec.PLegal tr (abs s) o)
    (hc : call tr (plainP P) o e s = .ok out s') :
    Spec.allocs s'.trace = Spec.allocs s.trace + Spec.pallocCost tr (abs s) o ∧
    Spec.deallocs s'.trace = Spec.deallocs s.trace + Spec.pdeallocCost (abs s) o ∧
    Spec.tops s'.trace = Spec.tops s.trace + Spec.pallocCost tr (abs s) o ∧
    Spec.destroys s'.trace = Spec.destroys s.trace + Spec.pdeallocCost (abs s) o := by
  have := C22_cost S (h.sim S).2 (legal_view hl) (h.call_ok S hl hc)
  rw [allocCost_toOp, deallocCost_toOp, opCost_toOp, abs_view] at this
  exact this

/-- A call that throws gives back what it allocated. -/
theorem C53_cost_of_exception (S : tr.Sound) (h : Reach tr P s) (hl : Spec.PLegal tr (abs s) o)
    (hc : call tr (plainP P) o e s = .threw ex s') :
    ∃ n, n ≤ 1 ∧ Spec.allocs s'.trace = Spec.allocs s.trace + n ∧ Spec.deallocs s'.trace = Spec.deallocs s.trace + n ∧
      Spec.destroys s'.trace = Spec.destroys s.trace :=
  C22_cost_of_exception (s := view s) (s' := view s') S (h.sim S).2 (legal_view hl) (h.call_threw S hl hc)

/-- When a call both builds a new object and releases an old one, the new one is complete before the old one is
touched. -/
theorem C53_new_before_old (S : tr.Sound) (h : Reach tr P s) (hl : Spec.PLegal tr (abs s) o)
    (hc : call tr (plainP P) o e s = .ok out s') (ha : Spec.pallocCost tr (abs s) o = 1)
    (hd : Spec.pdeallocCost (abs s) o = 1) :
    ∃ r p how q r', s'.trace = s.trace ++ [.alloc r p, .construct p how, .destroy q, .dealloc r' q] :=
  C22_new_before_old (s := view s) (s' := view s') S (h.sim S).2 (legal_view hl) (h.call_ok S hl hc)
    (by rw [allocCost_toOp, abs_view]; exact ha) (by rw [deallocCost_toOp, abs_view]; exact hd)

open Demo in
example : Spec.PLegal (alloc false false false) (abs PDemo.s0) (.assignCopy 1 2 : POp Nat Nat Nat Nat Nat) ∧
    Spec.pallocCost (alloc false false false) (abs PDemo.s0) (.assignCopy 1 2 : POp Nat Nat Nat Nat Nat) = 1 ∧
    Spec.pdeallocCost (abs PDemo.s0) (.assignCopy 1 2 : POp Nat Nat Nat Nat Nat) = 1 ∧
    outcome (call (alloc false false false) (plainP PDemo.P) (.assignCopy 1 2) (fine 110) PDemo.s0) = 0 ∧
    outcome (call (alloc false false false) (plainP PDemo.P) (.assignCopy 1 2) (bad 110) PDemo.s0) = 1 := by decide

end
end Verif.Props
