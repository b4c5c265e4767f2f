import Verif.Demo
import Verif.Spec.Table
import Verif.Proofs.IndirectEffects
import Verif.Proofs.IndirectFrame
import Verif.Proofs.IndirectDelta
import Verif.Proofs.SpecFacts

/-!
# C06, C16, C18, C19, C22, C23, C54: properties of all calls and all histories of `indirect`
-/

set_option autoImplicit false
set_option linter.unusedSectionVars false
set_option linter.unusedSimpArgs false

namespace Verif.Props
open Verif Indirect Demo

section
variable {L A R V X : Type} [DecidableEq L] [DecidableEq R]
variable {tr : ATraits A R} {T : TSpec V X} {s s' : St L A R (Obj V)} {e : Env} {x y z : L} {a b : A} {d v : V}
  {out : Out L A V} {ex : Exn} {k l : Spec.Box A V} {o : Op L A V X}

/-! ## C23 -/

/-- Every legal history gives exactly the results (returned values and references, exceptions, in order) of the same
history on plain values, and ends with the same values; it terminates exactly if the other does. -/
theorem C23_history_is_value_history (S : tr.Sound) (cs : List (Op L A V X × Env)) (hl : LegalRun tr T cs St.init) :
    match run tr T cs St.init with
    | .done log s => Spec.run tr T (lucks tr T cs St.init) (fun _ => none) = .done log (abs s)
    | .terminated log => Spec.run tr T (lucks tr T cs St.init) (fun _ => none) = .terminated log
    | _ => False := by
  have I : IInv (L := L) (V := V) tr St.init := Inv.init
  have Q := run_refines S I hl
  have ha : (abs (St.init : St L A R (Obj V))) = fun _ => none := by
    funext z; simp [abs, absWith, St.init]
  rw [ha] at Q
  revert Q
  cases run tr T cs St.init <;> cases Spec.run tr T (lucks tr T cs St.init) (fun _ => none) <;>
    simp only [RunRefines, false_implies]
  · rintro ⟨rfl, rfl, _⟩; rfl
  · rintro rfl; rfl

/-- The same for one call in any reachable state. -/
theorem C23_call_is_value_call (S : tr.Sound) (h : Reach tr T s) (hl : Spec.Legal tr (abs s) o) (e : Env) :
    match call tr (plain T) o e s with
    | .ok out s' => Spec.step tr T (available s e) (e.choice 0) (abs s) o = .ret out (abs s')
    | .threw x s' => Spec.step tr T (available s e) (e.choice 0) (abs s) o = .threw x (abs s')
    | .terminated => Spec.step tr T (available s e) (e.choice 0) (abs s) o = .terminated
    | _ => False := by
  cases hc : call tr (plain T) o e s with
  | ok out s' => exact call_ok_spec S h hl hc
  | threw x s' => exact call_threw_spec S h hl hc
  | terminated => exact (call_terminated_spec S h hl).1 hc
  | ub u => have := call_refines (e := e) S h hl; rw [hc] at this; simp [Refines] at this
  | diverged => have := call_refines (e := e) S h hl; rw [hc] at this; simp [Refines] at this

/-! ## C54 -/

/-- What holds of single calls holds of histories. -/
theorem history_rel {Rel : St L A R (Obj V) → St L A R (Obj V) → Prop} {ok : Op L A V X → Prop} (h0 : ∀ s, Rel s s)
    (h1 : ∀ s₁ s₂ s₃, Rel s₁ s₂ → Rel s₂ s₃ → Rel s₁ s₃)
    (h2 : ∀ s s' o e, Reach tr T s → Spec.Legal tr (abs s) o → ok o →
      (∃ out, call tr (plain T) o e s = .ok out s') ∨ (∃ ex, call tr (plain T) o e s = .threw ex s') → Rel s s')
    (h : Reach tr T s) {cs : List (Op L A V X × Env)} {log : List (Seen (Out L A V))} (hl : LegalRun tr T cs s)
    (hz : ∀ c ∈ cs, ok c.1) (hr : run tr T cs s = .done log s') : Rel s s' := by
  induction cs generalizing s log with
  | nil => simp [Indirect.run, runWith] at hr; rw [← hr.2]; exact h0 _
  | cons c cs ih =>
    simp only [Indirect.run, runWith, LegalRun, LegalWith] at hr hl
    obtain ⟨h3, h4⟩ := hl
    have hz1 : ∀ c ∈ cs, ok c.1 := fun c hc => hz c (by simp [hc])
    cases hc : call tr (plain T) c.1 c.2 s with
    | ok out s₁ =>
      simp only [hc] at hr h4
      cases hd : runWith (fun c s => call tr (plain T) c.1 c.2 s) cs s₁ <;> rw [hd] at hr <;>
        simp [Run.cons] at hr
      obtain ⟨_, rfl⟩ := hr
      exact h1 _ _ _ (h2 _ _ _ _ h h3 (hz c (by simp)) (.inl ⟨_, hc⟩)) (ih (.ret _ _ _ h h3 hc) h4 hz1 hd)
    | threw x s₁ =>
      simp only [hc] at hr h4
      cases hd : runWith (fun c s => call tr (plain T) c.1 c.2 s) cs s₁ <;> rw [hd] at hr <;>
        simp [Run.cons] at hr
      obtain ⟨_, rfl⟩ := hr
      exact h1 _ _ _ (h2 _ _ _ _ h h3 (hz c (by simp)) (.inr ⟨_, hc⟩)) (ih (.threw _ _ _ h h3 hc) h4 hz1 hd)
    | terminated => simp [hc] at hr
    | ub u => simp [hc] at hr
    | diverged => simp [hc] at hr

/-- A call that does not create, destroy, assign to, move from or swap `z` leaves its members alone: `*z` stays where it
is, also if the call copies from `z`, modifies `*z` or moves from `*z`, and whether it returns or throws. -/
theorem C54_call_keeps_reference (hz : z ∉ Spec.rebinds o)
    (hc : (∃ out, call tr (plain T) o e s = .ok out s') ∨ (∃ ex, call tr (plain T) o e s = .threw ex s')) :
    s'.hs z = s.hs z := by
  have F := hsAt_call (h := s.hs z) tr T o e s hz rfl
  rcases hc with ⟨_, hc⟩ | ⟨_, hc⟩ <;> rw [hc] at F <;> exact F

/-- A reference to `*z` stays valid for as long as `z` is not assigned to, moved from, swapped or destroyed: whatever
else happens in between, `*z` is at the same address and a `T` is alive there. -/
theorem C54_reference_valid (S : tr.Sound) (h : Reach tr T s) {cs : List (Op L A V X × Env)}
    {log : List (Seen (Out L A V))} (hl : LegalRun tr T cs s) (hz : ∀ c ∈ cs, z ∉ Spec.rebinds c.1)
    (hr : run tr T cs s = .done log s') {p : Addr} (hp : addr s z = some p) :
    addr s' z = some p ∧ ∃ r v, s'.heap p = some ⟨r, some v⟩ ∧ Spec.valueOf (abs s') z = some v := by
  have h1 : s'.hs z = s.hs z := history_rel (Rel := fun s s' => s'.hs z = s.hs z) (ok := fun o => z ∉ Spec.rebinds o)
    (fun _ => rfl) (fun _ _ _ a b => b.trans a) (fun _ _ _ _ _ _ hz hc => C54_call_keeps_reference hz hc) h hl hz hr
  have h2 : addr s' z = some p := by simpa [addr, h1] using hp
  refine ⟨h2, ?_⟩
  obtain ⟨k, hk, hkp⟩ := addr_some h2
  obtain ⟨b, hv, hb⟩ := ((Reach.run h hl hr).inv S).own z k p hk hkp
  obtain ⟨v, rfl⟩ := Option.isSome_iff_exists.1 hb
  exact ⟨_, v, hv, by simp [Spec.valueOf, abs, absWith, hk, hkp, hv]⟩

/-- A call that in addition neither modifies `*z` nor moves from it leaves everything about `z` as it was: allocator,
valueless state, value and address. -/
theorem C54_call_keeps_value (S : tr.Sound) (h : Reach tr T s) (hl : Spec.Legal tr (abs s) o)
    (hz : z ∉ Spec.changes o)
    (hc : (∃ out, call tr (plain T) o e s = .ok out s') ∨ (∃ ex, call tr (plain T) o e s = .threw ex s')) :
    abs s' z = abs s z ∧ addr s' z = addr s z := by
  have F := C54_call_keeps_reference (rebinds_changes hz) hc
  rcases hc with ⟨_, hc⟩ | ⟨_, hc⟩
  · exact ⟨(spec_frame hz).1 _ _ (call_ok_spec S h hl hc), by simp [addr, F]⟩
  · exact ⟨(spec_frame hz).2 _ _ (call_threw_spec S h hl hc), by simp [addr, F]⟩

/-- The same for histories. -/
theorem C54_history_keeps_value (S : tr.Sound) (h : Reach tr T s) {cs : List (Op L A V X × Env)}
    {log : List (Seen (Out L A V))} (hl : LegalRun tr T cs s) (hz : ∀ c ∈ cs, z ∉ Spec.changes c.1)
    (hr : run tr T cs s = .done log s') : abs s' z = abs s z ∧ addr s' z = addr s z :=
  history_rel (Rel := fun s s' => abs s' z = abs s z ∧ addr s' z = addr s z) (ok := fun o => z ∉ Spec.changes o)
    (fun _ => ⟨rfl, rfl⟩) (fun _ _ _ a b => ⟨b.1.trans a.1, b.2.trans a.2⟩)
    (fun _ _ _ _ h hl hz hc => C54_call_keeps_value S h hl hz hc) h hl hz hr

example : let cs : Hist := [(.copy 9 1, fine 110), (.modify 1 (· + 1), fine 0), (.make 8 none (.from (.rval 1)), bad 111),
      (.assignCopy 2 1, fine 112), (.destroy 9, full)]
    LegalRun (alloc true false false) Demo.T cs (st true false false) ∧ (∀ c ∈ cs, 1 ∉ Spec.rebinds c.1) ∧
    addr (st true false false) 1 = some 100 := by decide

example : let cs : Hist := [(.copy 9 1, fine 110), (.deref 1, fine 0), (.assignCopy 2 1, fine 112), (.destroy 9, full)]
    LegalRun (alloc true false false) Demo.T cs (st true false false) ∧ (∀ c ∈ cs, 1 ∉ Spec.changes c.1) := by decide

/-! ## C06 -/

/-- A call changes neither value, valueless state, allocator nor the address of the `T` of an object that it does not
mention, whether it returns or throws. -/
theorem C06_call_independent (S : tr.Sound) (h : Reach tr T s) (hl : Spec.Legal tr (abs s) o)
    (hz : z ∉ Spec.operands o)
    (hc : call tr (plain T) o e s = .ok out s' ∨ call tr (plain T) o e s = .threw ex s') :
    abs s' z = abs s z ∧ addr s' z = addr s z :=
  C54_call_keeps_value S h hl (changes_operands hz) (hc.imp (fun h => ⟨_, h⟩) (fun h => ⟨_, h⟩))

/-- No history changes an object that it does not mention. -/
theorem C06_history_independent (S : tr.Sound) (h : Reach tr T s) {cs : List (Op L A V X × Env)}
    {log : List (Seen (Out L A V))} (hl : LegalRun tr T cs s) (hz : ∀ c ∈ cs, z ∉ Spec.operands c.1)
    (hr : run tr T cs s = .done log s') : abs s' z = abs s z ∧ addr s' z = addr s z :=
  C54_history_keeps_value S h hl (fun c hc => changes_operands (hz c hc)) hr

/-! ## C16 -/

/-- Exactly when a legal call terminates the program: a move assignment between unequal allocators whose `noexcept`
condition holds, and whose allocation fails or whose move construction of `T` throws. -/
theorem C16_terminates_iff (S : tr.Sound) (h : Reach tr T s) (hl : Spec.Legal tr (abs s) o) (e : Env) :
    call tr (plain T) o e s = .terminated ↔
      ∃ x y k b v, o = .assignMove x y ∧ x ≠ y ∧ abs s x = some k ∧ abs s y = some ⟨b, some v⟩ ∧
        tr.eq k.alloc b = false ∧ (tr.pocma = true ∨ tr.alwaysEqual = true) ∧
        (available s e = false ∨ ∃ ex, (T.move v (e.choice 0)).1 = .error ex) := by
  rw [call_terminated_spec S h hl]
  exact spec_terminated

/-- If allocators that do not compare equal do not occur (`is_always_equal`, or a single allocator), or the allocator
neither propagates on move assignment nor claims `is_always_equal`, no legal call terminates the program.
Missing: allocators with `propagate_on_container_move_assignment` that compare unequal, for which the property is
false: see `C16_noexcept_violated`. -/
theorem C16_noexcept_kept_partial (S : tr.Sound) (h : Reach tr T s) (hl : Spec.Legal tr (abs s) o) (e : Env)
    (ht : (∀ a b, tr.eq a b = true) ∨ (tr.pocma = false ∧ tr.alwaysEqual = false)) :
    call tr (plain T) o e s ≠ .terminated := by
  intro hc
  obtain ⟨x, y, k, b, v, _, _, _, _, h1, h2, _⟩ := (C16_terminates_iff S h hl e).1 hc
  rcases ht with ht | ⟨ht, ht'⟩
  · rw [ht] at h1; cases h1
  · simp [ht, ht'] at h2

/-! ## C18 -/

/-- A value constructor makes an engaged object. -/
theorem C18_constructed_engaged (S : tr.Sound) (h : Reach tr T s) {c : Ctor L X} {oa : Option A}
    (hl : Spec.Legal tr (abs s) (.make x oa c)) (hc : call tr (plain T) (.make x oa c) e s = .ok out s') :
    ∃ v, abs s' x = some ⟨oa.getD tr.dflt, some v⟩ := by
  have R := call_ok_spec S h hl hc
  simp only [Spec.step] at R
  revert R
  cases (Spec.buildCtor T (available s e) (e.choice 0) (abs s) c).1 with
  | error x => simp [Spec.store]
  | ok v =>
    simp only [Spec.store, Spec.Result.ret.injEq]
    rintro ⟨_, R⟩
    exact ⟨v, by rw [← R]; simp [Spec.put]⟩

/-- An engaged object that is valueless after a call was the source of a move construction or move assignment, or
was assigned from a valueless object, or was swapped with a valueless object. -/
theorem C18_becomes_valueless (S : tr.Sound) (h : Reach tr T s) (hl : Spec.Legal tr (abs s) o)
    (hc : call tr (plain T) o e s = .ok out s') (hz : Spec.valueOf (abs s) z = some v)
    (hz' : abs s' z = some ⟨a, none⟩) :
    (∃ x, o = .move x z) ∨ (∃ x a, o = .moveA x a z) ∨ (∃ x, o = .assignMove x z) ∨
    (∃ y, (o = .assignCopy z y ∨ o = .assignMove z y ∨ o = .swap z y ∨ o = .swap y z ∨ o = .friendSwap z y ∨
      o = .friendSwap y z) ∧ Spec.valueOf (abs s) y = none) := by
  exact spec_ret_valueless hl (call_ok_spec S h hl hc) hz hz'

/-- No exception makes an object valueless, or engaged. -/
theorem C18_exceptions (S : tr.Sound) (h : Reach tr T s) (hl : Spec.Legal tr (abs s) o)
    (hc : call tr (plain T) o e s = .threw ex s') (z : L) :
    (Spec.valueOf (abs s') z = none ↔ Spec.valueOf (abs s) z = none) ∧ ((abs s' z).isSome = (abs s z).isSome) ∧
      (abs s' z).map (·.alloc) = (abs s z).map (·.alloc) := by
  exact spec_threw z (call_threw_spec S h hl hc)

/-! ## C19 -/

/-- A constructor call that throws creates no object, leaks no storage (what it allocated it has returned, to the
resource it came from, and no `T` was left behind), and changes nothing else; only the `T` that it was to move from is
what `T`'s throwing move constructor left of it. -/
theorem C19_failed_construction (S : tr.Sound) (h : Reach tr T s) (hl : Spec.Legal tr (abs s) o)
    (hn : Spec.newObject o = some x) (hc : call tr (plain T) o e s = .threw ex s') :
    s'.hs = s.hs ∧
    (s'.trace = s.trace ∨ ∃ r p, s'.trace = s.trace ++ [.alloc r p, .dealloc r p]) ∧
    (s'.heap = s.heap ∨ ∃ y q v, Spec.movedFrom o = some y ∧ addr s y = some q ∧ Spec.valueOf (abs s) y = some v ∧
      s'.heap = Spec.leftWith s.heap q (T.move v (e.choice 0)).2) :=
  call_failedNew (h.inv S) hl hn _ _ hc

/-! ## C22 -/

theorem allocs_append (t u : List (Ev R)) : Spec.allocs (t ++ u) = Spec.allocs t + Spec.allocs u := by
  induction t with
  | nil => simp [Spec.allocs]
  | cons e t ih => cases e <;> simp [Spec.allocs, ih, Nat.add_assoc]

theorem deallocs_append (t u : List (Ev R)) : Spec.deallocs (t ++ u) = Spec.deallocs t + Spec.deallocs u := by
  induction t with
  | nil => simp [Spec.deallocs]
  | cons e t ih => cases e <;> simp [Spec.deallocs, ih, Nat.add_assoc]

theorem tops_append (t u : List (Ev R)) : Spec.tops (t ++ u) = Spec.tops t + Spec.tops u := by
  induction t with
  | nil => simp [Spec.tops]
  | cons e t ih => cases e <;> simp [Spec.tops, ih, Nat.add_assoc]

theorem destroys_append (t u : List (Ev R)) : Spec.destroys (t ++ u) = Spec.destroys t + Spec.destroys u := by
  induction t with
  | nil => simp [Spec.destroys]
  | cons e t ih => cases e <;> simp [Spec.destroys, ih, Nat.add_assoc]

/-- The exact cost of a call that returns: allocations, deallocations, constructions and assignments of `T`,
destructions of `T`. -/
theorem C22_cost (S : tr.Sound) (h : Reach tr T s) (hl : Spec.Legal tr (abs s) o)
    (hc : call tr (plain T) o e s = .ok out s') :
    Spec.allocs s'.trace = Spec.allocs s.trace + Spec.allocCost tr T (abs s) o ∧
    Spec.deallocs s'.trace = Spec.deallocs s.trace + Spec.deallocCost tr T (abs s) o ∧
    Spec.tops s'.trace = Spec.tops s.trace + Spec.opCost tr T (abs s) o ∧
    Spec.destroys s'.trace = Spec.destroys s.trace + Spec.deallocCost tr T (abs s) o := by
  obtain ⟨evs, h1, h2, h3, h4, h5, _⟩ := (call_costs S (h.inv S) hl).1 _ _ hc
  rw [h1, allocs_append, deallocs_append, tops_append, destroys_append, h2, h3, h4, h5]
  exact ⟨rfl, rfl, rfl, rfl⟩

/-- No call allocates more than once, and swaps, observers and moves between equal allocators never allocate. -/
theorem C22_at_most_one (σ : Spec.Boxes L A V) (o : Op L A V X) :
    Spec.allocCost tr T σ o ≤ 1 ∧ Spec.deallocCost tr T σ o ≤ 1 ∧ Spec.opCost tr T σ o ≤ 1 := by
  cases o <;> simp only [Spec.allocCost, Spec.deallocCost, Spec.opCost] <;>
    (refine ⟨?_, ?_, ?_⟩) <;> (repeat' split) <;> decide

/-- A call that throws gives back what it allocated. -/
theorem C22_cost_of_exception (S : tr.Sound) (h : Reach tr T s) (hl : Spec.Legal tr (abs s) o)
    (hc : call tr (plain T) o e s = .threw ex s') :
    ∃ n, n ≤ 1 ∧ Spec.allocs s'.trace = Spec.allocs s.trace + n ∧ Spec.deallocs s'.trace = Spec.deallocs s.trace + n ∧
      Spec.destroys s'.trace = Spec.destroys s.trace := by
  rcases ((call_costs S (h.inv S) hl).2 _ _ hc).2 with h1 | ⟨r, p, h1⟩ | ⟨p, how, h1⟩
  · exact ⟨0, by simp [h1]⟩
  · exact ⟨1, by simp [h1, allocs_append, deallocs_append, destroys_append, Spec.allocs, Spec.deallocs, Spec.destroys]⟩
  · exact ⟨0, by simp [h1, allocs_append, deallocs_append, destroys_append, Spec.allocs, Spec.deallocs, Spec.destroys]⟩

/-- When a call both builds a new `T` and releases an old one, the new one is complete before the old one is
touched. -/
theorem C22_new_before_old (S : tr.Sound) (h : Reach tr T s) (hl : Spec.Legal tr (abs s) o)
    (hc : call tr (plain T) o e s = .ok out s') (ha : Spec.allocCost tr T (abs s) o = 1)
    (hd : Spec.deallocCost tr T (abs s) o = 1) :
    ∃ r p how q r', s'.trace = s.trace ++ [.alloc r p, .construct p how, .destroy q, .dealloc r' q] := by
  obtain ⟨evs, h1, _, _, _, _, h6⟩ := (call_costs S (h.inv S) hl).1 _ _ hc
  obtain ⟨r, p, how, q, r', h7⟩ := h6 ha hd
  exact ⟨r, p, how, q, r', by rw [h1, h7]⟩

end

/-! ## Violations and concrete cases -/

/-- The `noexcept` of move assignment is not kept by an allocator that propagates on move assignment: with unequal
allocators it allocates, and a failed allocation terminates the program. -/
theorem C16_noexcept_violated :
    ∃ (o : Op Nat Nat Nat Nat) (e : Env), Spec.Legal (alloc false true false) (abs (st false true false)) o ∧
      call (alloc false true false) (plain T) o e (st false true false) = .terminated := by
  refine ⟨.assignMove 1 3, full, ?_, ?_⟩
  · decide
  · have h : outcome (call (alloc false true false) (plain T) (.assignMove 1 3) full (st false true false)) = 2 := by
      decide
    revert h
    cases call (alloc false true false) (plain T) (.assignMove 1 3) full (st false true false) <;> simp [outcome]

example : ∃ (o : Op Nat Nat Nat Nat) (e : Env), Reach (alloc false true false) T (st false true false) ∧
    Spec.Legal (alloc false true false) (abs (st false true false)) o ∧
    call (alloc false true false) (plain T) o e (st false true false) = .terminated := by
  obtain ⟨o, e, h1, h2⟩ := C16_noexcept_violated
  exact ⟨o, e, st_reach _ _ _, h1, h2⟩

-- C16_noexcept_kept_partial: both alternatives of its hypothesis are met by real allocators.
example : (alloc true false true).pocma = false ∧ (alloc true false true).alwaysEqual = false := ⟨rfl, rfl⟩
example : ∀ a b, std.eq a b = true := fun _ _ => rfl

-- C06: objects 3, 4, 5 are not mentioned by this history.
def hist : Hist := [(.assignCopy 1 2, fine 110), (.modify 1 (· + 1), fine 0), (.assignCopy 2 1, bad 111), (.destroy 2, fine 0)]

example : LegalRun (alloc false false false) T hist s0 ∧ ∀ c ∈ hist, (3 : Nat) ∉ Spec.operands c.1 := by
  constructor <;> decide

-- C23: a legal history of nine calls.
example : LegalRun (alloc false false false) T (build ++ hist) St.init := by decide

-- C18: object 5 becomes valueless (source of a move), object 1 by assignment from the valueless object 4.
example : Spec.Legal (alloc false false false) (abs s0) (.move 6 5 : Op Nat Nat Nat Nat) ∧
    outcome (call (alloc false false false) (plain T) (.move 6 5) (fine 110) s0) = 0 ∧
    Spec.valueOf (abs s0) 5 = some 3 ∧
    abs (stateAfter s0 (call (alloc false false false) (plain T) (.move 6 5) (fine 110) s0)) 5 = some ⟨6, none⟩ := by
  decide
example : Spec.valueOf (abs s0) 1 = some 7 ∧ Spec.valueOf (abs s0) 4 = none ∧
    abs (stateAfter s0 (call (alloc false false false) (plain T) (.assignCopy 1 4) (fine 110) s0)) 1 = some ⟨5, none⟩ := by
  decide
-- C18_exceptions, C22_cost_of_exception: an assignment that throws.
example : Spec.Legal (alloc false false false) (abs s0) (.assignCopy 1 3 : Op Nat Nat Nat Nat) ∧
    outcome (call (alloc false false false) (plain T) (.assignCopy 1 3) (bad 110) s0) = 1 := by decide
-- C18_constructed_engaged
example : Spec.Legal (alloc false false false) (abs s0) (.make 6 none .default : Op Nat Nat Nat Nat) ∧
    outcome (call (alloc false false false) (plain T) (.make 6 none .default) (fine 110) s0) = 0 := by decide

-- C19: constructions that throw, for lack of storage and in the constructor of `T`, which spoils its source.
example : Spec.Legal (alloc false false false) (abs s0) (.moveA 6 7 5 : Op Nat Nat Nat Nat) ∧
    Spec.newObject (.moveA 6 7 5 : Op Nat Nat Nat Nat) = some 6 ∧
    outcome (call (alloc false false false) (plain T) (.moveA 6 7 5) full s0) = 1 ∧
    outcome (call (alloc false false false) (plain T) (.moveA 6 7 5) (bad 110) s0) = 1 ∧
    abs (stateAfter s0 (call (alloc false false false) (plain T) (.moveA 6 7 5) (bad 110) s0)) 5 = some ⟨6, some 99⟩ := by
  decide

-- C22: an assignment between unequal allocators builds and releases; one between equal allocators does neither.
example : Spec.allocCost (alloc false false false) T (abs s0) (.assignCopy 1 3) = 1 ∧
    Spec.deallocCost (alloc false false false) T (abs s0) (.assignCopy 1 3) = 1 ∧
    Spec.allocCost (alloc false false false) T (abs s0) (.assignCopy 1 2) = 0 ∧
    Spec.opCost (alloc false false false) T (abs s0) (.assignCopy 1 2) = 1 ∧
    outcome (call (alloc false false false) (plain T) (.assignCopy 1 3) (fine 110) s0) = 0 := by decide

end Verif.Props
