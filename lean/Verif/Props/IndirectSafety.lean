import Verif.Demo
import Verif.Proofs.TraceFacts
import Verif.Proofs.IndirectEffects

/-!
# C01 - C04: safety of `indirect`

`Indirect.LegalRun tr T cs St.init`: the history `cs` (calls paired with arbitrary environments) starts from
nothing and every call satisfies its documented precondition (`Spec.Legal`).
`Indirect.Reach tr T s`: `s` is a state that such a program can be in between two calls.
-/

set_option autoImplicit false
set_option linter.unusedSectionVars false

namespace Verif.Props
open Verif Indirect

section
variable {L A R V X : Type} [DecidableEq L] [DecidableEq R]
variable {tr : ATraits A R} {T : TSpec V X} {s s' : St L A R (Obj V)}

/-! ## C01 -/

/-- Every legal history ends normally or in `std::terminate` (see C16), never in undefined behaviour. -/
theorem C01_history_no_undefined_behaviour (S : tr.Sound) (cs : List (Op L A V X × Env))
    (hl : LegalRun tr T cs St.init) :
    (∃ log s, run tr T cs St.init = .done log s) ∨ (∃ log, run tr T cs St.init = .terminated log) := by
  have I : IInv (L := L) (V := V) tr St.init := Inv.init
  have := run_refines S I hl
  revert this
  generalize Spec.run tr T (lucks tr T cs St.init) (abs St.init) = r'
  cases run tr T cs St.init with
  | done log s => exact fun _ => .inl ⟨log, s, rfl⟩
  | terminated log => exact fun _ => .inr ⟨log, rfl⟩
  | ub u => cases r' <;> simp [RunRefines]
  | diverged => cases r' <;> simp [RunRefines]

/-- The same for one call in a reachable state: it returns, throws, or terminates the program. -/
theorem C01_call_no_undefined_behaviour (S : tr.Sound) (h : Reach tr T s) (o : Op L A V X) (e : Env)
    (hl : Spec.Legal tr (abs s) o) :
    (∃ out s', call tr (plain T) o e s = .ok out s') ∨ (∃ x s', call tr (plain T) o e s = .threw x s') ∨
      call tr (plain T) o e s = .terminated := by
  have := call_refines (e := e) S h hl
  revert this
  generalize Spec.step tr T (available s e) (e.choice 0) (abs s) o = r'
  cases call tr (plain T) o e s with
  | ok out s => exact fun _ => .inl ⟨out, s, rfl⟩
  | threw x s => exact fun _ => .inr (.inl ⟨x, s, rfl⟩)
  | terminated => exact fun _ => .inr (.inr rfl)
  | ub u => cases r' <;> simp [Refines]
  | diverged => cases r' <;> simp [Refines]

/-- The states between the calls of legal histories are exactly the reachable ones. -/
theorem C01_histories_reach {cs : List (Op L A V X × Env)} {log : List (Seen (Out L A V))}
    (hl : LegalRun tr T cs St.init) (hr : run tr T cs St.init = .done log s) : Reach tr T s :=
  Reach.run .init hl hr

example : (Demo.alloc true false false).Sound ∧
    LegalRun (Demo.alloc true false false) Demo.T (Demo.build ++ [
      (.assignCopy 1 3, Demo.bad 200), (.assignCopy 1 3, Demo.fine 201), (.assignMove 4 1, Demo.full),
      (.copy 6 1, Demo.fine 202), (.destroy 1, Demo.full)]) St.init ∧
    Demo.ends (Demo.alloc true false false) (Demo.build ++ [
      (.assignCopy 1 3, Demo.bad 200), (.assignCopy 1 3, Demo.fine 201), (.assignMove 4 1, Demo.full),
      (.copy 6 1, Demo.fine 202), (.destroy 1, Demo.full)]) = true :=
  ⟨Demo.alloc_sound _ _ _, by decide, by decide⟩

/-! ## C02 -/

/-- Two objects never own the same `T`. -/
theorem C02_exclusive_ownership (S : tr.Sound) (h : Reach tr T s) {x y : L} {p : Addr}
    (hx : addr s x = some p) (hy : addr s y = some p) : x = y := by
  have I := h.inv S
  simp only [addr] at hx hy
  cases hhx : s.hs x with
  | none => simp [hhx] at hx
  | some k =>
    cases hhy : s.hs y with
    | none => simp [hhy] at hy
    | some k' => exact I.uniq _ _ _ _ _ hhx hhy (by simpa [hhx] using hx) (by simpa [hhy] using hy)

/-- An object is engaged exactly if it owns a `T`, which is then alive, with that value, in its block. -/
theorem C02_engaged_iff_owns (s : St L A R (Obj V)) (x : L) (v : V) :
    Spec.valueOf (abs s) x = some v ↔ ∃ p r, addr s x = some p ∧ s.heap p = some ⟨r, some v⟩ := by
  constructor
  · intro hv
    obtain ⟨k, p, r, hk, hp, hh⟩ := abs_valueOf hv
    exact ⟨p, r, by simp [addr, hk, hp], hh⟩
  · rintro ⟨p, r, ha, hh⟩
    simp only [addr] at ha
    cases hhx : s.hs x with
    | none => simp [hhx] at ha
    | some k => exact valueOf_abs hhx (by simpa [hhx] using ha) hh

example : Reach (Demo.alloc true true true) Demo.T (Demo.after (Demo.alloc true true true) Demo.build) ∧
    addr (Demo.after (Demo.alloc true true true) Demo.build) 1 = some 100 ∧
    addr (Demo.after (Demo.alloc true true true) Demo.build) 2 = some 101 ∧
    addr (Demo.after (Demo.alloc true true true) Demo.build) 5 = some 103 ∧
    addr (Demo.after (Demo.alloc true true true) Demo.build) 4 = none :=
  ⟨Demo.reach (by decide) (by decide), by decide, by decide, by decide, by decide⟩

/-! ## C03 -/

/-- A block is allocated exactly if some object owns it. -/
theorem C03_allocated_iff_owned (S : tr.Sound) (h : Reach tr T s) (p : Addr) :
    (∃ c, s.heap p = some c) ↔ ∃ x, addr s x = some p := by
  have I := h.inv S
  constructor
  · rintro ⟨c, hc⟩
    obtain ⟨l, k, hk, hp⟩ := I.owned p c hc
    exact ⟨l, by rw [addr_of hk, hp]⟩
  · rintro ⟨x, hx⟩
    obtain ⟨k, hk, hp⟩ := addr_some hx
    obtain ⟨b, hb, _⟩ := I.own _ _ _ hk hp
    exact ⟨_, hb⟩

/-- The whole trace follows the storage and lifetime protocol of `Spec.replay`: in particular no block is
freed twice and no `T` is destroyed twice, assigned, copied or moved from while it is not alive. -/
theorem C03_trace_follows_protocol (h : Reach tr T s) : ∃ m, Spec.replay s.trace = some m :=
  ⟨_, h.traceOk⟩

/-- A block owned by an object was allocated once more than freed, and the `T` in it constructed once more
than destroyed. -/
theorem C03_owned_balance (S : tr.Sound) (h : Reach tr T s) {x : L} {p : Addr} (hx : addr s x = some p) :
    Spec.allocsAt p s.trace = Spec.deallocsAt p s.trace + 1 ∧
      Spec.constructsAt p s.trace = Spec.destroysAt p s.trace + 1 := by
  obtain ⟨k, hk, hp⟩ := addr_some hx
  obtain ⟨v, hv⟩ := (h.inv S).own' hk hp
  have := replay_counts h.traceOk p
  simpa [shape, hv, Spec.liveAt, Body.occupied] using this

/-- Every other block was freed as often as allocated, and every `T` in it destroyed. -/
theorem C03_unowned_balance (S : tr.Sound) (h : Reach tr T s) {p : Addr} (hp : ∀ x, addr s x ≠ some p) :
    Spec.allocsAt p s.trace = Spec.deallocsAt p s.trace ∧
      Spec.constructsAt p s.trace = Spec.destroysAt p s.trace := by
  have hn : s.heap p = none := by
    cases hh : s.heap p with
    | none => rfl
    | some c =>
      obtain ⟨x, hx⟩ := (C03_allocated_iff_owned S h p).1 ⟨c, hh⟩
      exact absurd hx (hp x)
  have := replay_counts h.traceOk p
  simpa [shape, hn, Spec.liveAt] using this

/-- Once every object has been destroyed, everything was freed and destroyed. -/
theorem C03_no_leak (S : tr.Sound) (h : Reach tr T s) (hdead : ∀ x, Spec.Dead (abs s) x) (p : Addr) :
    s.heap p = none ∧ Spec.allocsAt p s.trace = Spec.deallocsAt p s.trace ∧
      Spec.constructsAt p s.trace = Spec.destroysAt p s.trace := by
  have ha : ∀ x, addr s x = none := fun x => by simp [addr, abs_dead (hdead x)]
  refine ⟨?_, C03_unowned_balance S h fun x => by simp [ha x]⟩
  cases hh : s.heap p with
  | none => rfl
  | some c =>
    obtain ⟨x, hx⟩ := (C03_allocated_iff_owned S h p).1 ⟨c, hh⟩
    simp [ha x] at hx

example : let cs : Demo.Hist (Fin 2) := [(.make 0 (some 5) .default, Demo.fine 100), (.copy 1 0, Demo.bad 101),
      (.copy 1 0, Demo.fine 101), (.destroy 0, Demo.full), (.destroy 1, Demo.full)]
    let s := Demo.after (Demo.alloc true true true) cs
    Reach (Demo.alloc true true true) Demo.T s ∧ (∀ x, Spec.Dead (abs s) x) ∧
      Spec.allocsAt 101 s.trace = 2 :=
  ⟨Demo.reach (by decide) (by decide), by decide, by decide⟩

/-! ## C04 -/

/-- Every deallocation in the history of a reachable state returns the block to the resource that its most
recent allocation took it from. -/
theorem C04_deallocate_matches_allocate (h : Reach tr T s) {pre post : List (Ev R)} {r : R} {p : Addr}
    (ht : s.trace = pre ++ .dealloc r p :: post) :
    ∃ t₁ t₂, pre = t₁ ++ .alloc r p :: t₂ ∧ ∀ ev ∈ t₂, ¬ Spec.storageEvent p ev :=
  replay_dealloc h.traceOk ht

/-- The storage of an engaged object comes from the resource of the allocator that the object has now. -/
theorem C04_storage_of_own_allocator (S : tr.Sound) (h : Reach tr T s) {x : L} {p : Addr} {b : Spec.Box A V}
    (hb : abs s x = some b) (hx : addr s x = some p) :
    ∃ c, s.heap p = some c ∧ c.arena = tr.res b.alloc := by
  obtain ⟨k, hk, hp⟩ := addr_some hx
  obtain ⟨v, hv⟩ := (h.inv S).own' hk hp
  obtain ⟨k', hk', ha, _⟩ := abs_some hb
  have : k' = k := by rw [hk] at hk'; simpa using hk'.symm
  subst this
  exact ⟨_, hv, by rw [ha]⟩

example : let cs := Demo.build ++ [(.assignCopy 1 3, Demo.fine 200), (.destroy 1, Demo.full)]
    let s := Demo.after (Demo.alloc true false false) cs
    Reach (Demo.alloc true false false) Demo.T s ∧
      s.trace = s.trace.take 12 ++ [.destroy 200, .dealloc 6 200] :=
  ⟨Demo.reach (by decide) (by decide), by decide⟩

end
end Verif.Props
