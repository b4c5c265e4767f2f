import Verif.Proofs.Members
import Verif.Props.Wrapper

/-!
# C96, C97: UniquePtrMember and VariantWrapperMember (exploration/incomplete_types.h)

`UniquePtr.Reach T s`, `Variant.Reach T s`: a program can be in state `s`, whatever was thrown; with
`VariantWrapperMember` the program does not assign between different objects that both hold a wrapper.
`Meets T mem n s o r`: the outcome `r` of step `o` in `s` is what `expected` says (`Verif/Spec/Members.lean`).
-/

set_option autoImplicit false
set_option linter.unusedSectionVars false

namespace Verif.Props
open Members

/-! ## C96: UniquePtrMember -/

section
variable {L V X : Type} [DecidableEq L]
variable {T : TSpec V X} {s s' : St L Unit Unit (Obj V)}

/-- Programs that name only objects that exist end normally, whatever is thrown meanwhile. -/
theorem C96_no_undefined_behaviour (cs : List (UniquePtr.Op L × Env)) (hl : UniquePtr.LegalRun T cs St.init) :
    ∃ log s, UniquePtr.run T cs St.init = .done log s ∧ UniquePtr.Reach T s :=
  UniquePtr.run_good .init hl

/-- Every step returns or throws, with the expected values: default construction makes a `T()`, copies and moves make a
copy of the value of the source, which keeps it, swapping the members exchanges the values, nothing else changes, and an
exception leaves all values as they were. -/
theorem C96_values (h : UniquePtr.Reach T s) (o : UniquePtr.Op L) (e : Env) (hl : UniquePtr.Legal s o) :
    UniquePtr.Meets T (available s e) (e.choice 0) s o (UniquePtr.call (plain T) o e s) :=
  (UniquePtr.call_good h.good.1 h.good.2 e hl).1

/-- Every object has a value. -/
theorem C96_always_a_value (h : UniquePtr.Reach T s) {x : L} (hx : Wrapper.Alive s x) :
    ∃ v, Wrapper.value s x = some v := by
  obtain ⟨v, _, hv⟩ := Wrapper.abs_alive hx h.good.2 h.good.1
  exact ⟨v, hv⟩

/-- Copies are deep: different objects never share a `T`. -/
theorem C96_exclusive_ownership (h : UniquePtr.Reach T s) {x y : L} {p : Addr} (hx : addr s x = some p)
    (hy : addr s y = some p) : x = y :=
  C02_exclusive_ownership Wrapper.newDelete_sound h.indirect hx hy

/-- Once every object has been destroyed, everything was freed and destroyed, once. -/
theorem C96_no_leak (h : UniquePtr.Reach T s) (hd : ∀ x, ¬ Wrapper.Alive s x) (p : Addr) :
    s.heap p = none ∧ Spec.allocsAt p s.trace = Spec.deallocsAt p s.trace ∧
      Spec.constructsAt p s.trace = Spec.destroysAt p s.trace := by
  refine C03_no_leak Wrapper.newDelete_sound h.indirect (fun x => ?_) p
  simp only [Spec.Dead, Indirect.abs, absWith]
  cases hh : s.hs x with
  | none => rfl
  | some k => exact absurd ⟨k, hh⟩ (hd x)

/-- `x == y` is the comparison of the values; what that does, throwing included, is what happens. -/
theorem C96_equal {x y : L} {v w : V} (hx : Wrapper.value s x = some v) (hy : Wrapper.value s y = some w)
    (eqT : V → V → M (St L Unit Unit (Obj V)) Bool) : UniquePtr.equal eqT x y s = eqT v w s :=
  C67_equal hx hy eqT

end

/-! ## C97: VariantWrapperMember -/

section
variable {L V X : Type} [DecidableEq L]
variable {T : TSpec V X} {s s' : Variant.VS L V}

/-- Programs that name only objects that exist, and do not assign between different objects that both hold a wrapper,
end normally, whatever is thrown meanwhile.  Partial: see `C97_assignment_shares`. -/
theorem C97_no_undefined_behaviour_partial (cs : List (Variant.Op L × Env))
    (hl : Variant.LegalRun T cs Variant.start) :
    ∃ log s, Variant.run T cs Variant.start = .done log s ∧ Variant.Reach T s :=
  Variant.run_good .init hl

/-- Every step returns or throws, with the expected values.  Nothing but the target of the step changes.  An exception
leaves all values as they were, except that an object that held no wrapper and was to be assigned one is valueless
afterwards.  Partial: assignments between different objects that both hold a wrapper are excluded. -/
theorem C97_values_partial (h : Variant.Reach T s) (o : Variant.Op L) (e : Env) (hl : Variant.Legal s o)
    (hn : ¬ Variant.Assigns s o) :
    Variant.Meets T (available s.1 e) (e.choice 0) s o (Variant.call (plain T) o e s) :=
  (Variant.call_good h.good e hl hn).1

/-- Every object has a value (which may be to be valueless), and nothing else has one. -/
theorem C97_always_a_value_partial (h : Variant.Reach T s) (x : L) :
    Variant.Alive s x ↔ ∃ u, Variant.value s x = some u := by
  cases hs : s.2 x with
  | held =>
    obtain ⟨v, _, hv⟩ := Variant.value_held h.good hs
    simp [Variant.Alive, hs, hv]
  | _ => simp [Variant.Alive, Variant.value, hs]

/-- Copies are deep: different objects never share a `T`. -/
theorem C97_exclusive_ownership_partial (h : Variant.Reach T s) {x y : L} {p : Addr} (hx : addr s.1 x = some p)
    (hy : addr s.1 y = some p) : x = y := by
  obtain ⟨t, ht, e1, _, _, _⟩ := h.good.1.alike
  simp only [addr, e1] at hx hy
  exact C67_exclusive_ownership_partial ht hx hy

/-- Once every object has been destroyed, everything was freed and destroyed, once. -/
theorem C97_no_leak_partial (h : Variant.Reach T s) (hd : ∀ x, ¬ Variant.Alive s x) (p : Addr) :
    s.1.heap p = none ∧ Spec.allocsAt p s.1.trace = Spec.deallocsAt p s.1.trace ∧
      Spec.constructsAt p s.1.trace = Spec.destroysAt p s.1.trace := by
  obtain ⟨t, ht, e1, e2, e3, _⟩ := h.good.1.alike
  rw [e2, e3]
  refine C67_no_leak_partial ht (fun x hx => ?_) p
  have ha : Wrapper.Alive s.1 x := by simpa only [Wrapper.Alive, e1] using hx
  have hs := (h.good.2 x).2 ((Variant.alive_iff h.good.1 x).1 ha)
  exact hd x (by simp [Variant.Alive, hs])

/-- `x == y` is the comparison of the values. -/
theorem C97_equal {x y : L} {u w : Variant.Val V} (hx : Variant.value s x = some u) (hy : Variant.value s y = some w)
    (eqT : V → V → Bool) : Variant.equal (fun v w => pure (eqT v w)) x y s = .ok (Variant.same eqT u w) s := by
  cases h1 : s.2 x <;> cases h2 : s.2 y <;> simp [Variant.value, h1, h2] at hx hy
  case held.held =>
    obtain ⟨v, hv, rfl⟩ := hx
    obtain ⟨v', hv', rfl⟩ := hy
    have h := C67_equal hv hv' (fun v w => pure (eqT v w))
    simp only [Variant.equal, M.bind_eq, Variant.look, h1, h2, Variant.lift]
    simp only [h, M.pure_eq, Variant.same]
  case valueless.held | int.held =>
    obtain ⟨v, hv, rfl⟩ := hy
    subst hx
    simp [Variant.equal, M.bind_eq, Variant.look, h1, h2, M.pure_eq, Variant.same]
  case held.valueless | held.int =>
    obtain ⟨v, hv, rfl⟩ := hx
    subst hy
    simp [Variant.equal, M.bind_eq, Variant.look, h1, h2, M.pure_eq, Variant.same]
  all_goals
    subst hx hy
    simp [Variant.equal, M.bind_eq, Variant.look, h1, h2, M.pure_eq, Variant.same]

/-- Every assignment between different objects that both hold a wrapper goes wrong: afterwards both have the same `T`,
that of the target has no owner any more, and destroying first one and then the other object, in either order, deletes
the same `T` twice. -/
theorem C97_assignment_shares (h : Variant.Reach T s) {x y : L} (hxy : x ≠ y) (hx : s.2 x = .held) (hy : s.2 y = .held)
    (e : Env) :
    ∃ s' p q, Variant.call (plain T) (.assign x y) e s = .ok () s' ∧ addr s.1 x = some q ∧ addr s.1 y = some p ∧
      addr s'.1 x = some p ∧ addr s'.1 y = some p ∧ s'.1.heap = s.1.heap ∧ (∀ z, addr s'.1 z ≠ some q) ∧
      ∀ a b, (a = x ∧ b = y ∨ a = y ∧ b = x) → ∀ e₁ e₂, ∃ s₁, Variant.call (plain T) (.destroy a) e₁ s' = .ok () s₁ ∧
        ∃ u, Variant.call (plain T) (.destroy b) e₂ s₁ = .ub u := by
  obtain ⟨t, ht, e1, e2, _, he⟩ := h.good.1.alike
  have alive : ∀ {z : L}, s.2 z = .held → Wrapper.Alive t z := by
    intro z hz
    have := (Variant.alive_iff h.good.1 z).2 ((h.good.2 z).1 hz)
    simpa only [Wrapper.Alive, e1] using this
  obtain ⟨t', p, q, h1, h2, h3, h4, h5, h6, h7, h8⟩ := C67_assignment_shares ht (alive hx) (alive hy) hxy e
  have ea : ∀ z, addr s.1 z = addr t z := fun z => by simp only [addr, e1]
  refine ⟨(t', s.2), p, q, ?_, by rw [ea, h2], by rw [ea, h3], h4, h5, by rw [e2]; exact h6, h7, ?_⟩
  · have h1 : Wrapper.step (plain T) (.assign x y) (t.enter e) = .ok () t' := h1
    simp [Variant.call, Variant.step, Variant.assign, M.bind_eq, Variant.look, hx, hy, Variant.lift, he, h1]
  · intro a b hab e₁ e₂
    obtain ⟨t₁, g1, u, g2⟩ := h8 a b hab e₁ e₂
    have ha : s.2 a = .held := by rcases hab with ⟨rfl, rfl⟩ | ⟨rfl, rfl⟩ <;> assumption
    have hb : s.2 b = .held := by rcases hab with ⟨rfl, rfl⟩ | ⟨rfl, rfl⟩ <;> assumption
    have hne : b ≠ a := by
      rcases hab with ⟨rfl, rfl⟩ | ⟨rfl, rfl⟩
      · exact Ne.symm hxy
      · exact hxy
    have g1 : Wrapper.step (plain T) (.destroy a) (t'.enter e₁) = .ok () t₁ := g1
    have g2 : Wrapper.step (plain T) (.destroy b) (t₁.enter e₂) = .ub u := g2
    refine ⟨(t₁, upd s.2 a .dead), ?_, u, ?_⟩
    · simp [Variant.call, Variant.step, Variant.dtor, Variant.reset, M.bind_eq, Variant.look, ha, Variant.lift, g1,
        Variant.set, Wrapper.upd_upd]
    · simp [Variant.call, Variant.step, Variant.dtor, Variant.reset, M.bind_eq, Variant.look, upd_other _ _ hne, hb,
        Variant.lift, g2]

end

/-! ## Concrete programs -/

namespace MembersDemo

instance (s : St Nat Unit Unit (Obj Nat)) (o : UniquePtr.Op Nat) : Decidable (UniquePtr.Legal s o) := by
  cases o <;> unfold UniquePtr.Legal <;> infer_instance

instance (cs : List (UniquePtr.Op Nat × Env)) (s : St Nat Unit Unit (Obj Nat)) :
    Decidable (UniquePtr.LegalRun Demo.T cs s) :=
  decLegalWith (fun (c : UniquePtr.Op Nat × Env) s => UniquePtr.call (plain Demo.T) c.1 c.2 s)
    (fun s c => UniquePtr.Legal s c.1) cs s

instance (s : Variant.VS Nat Nat) (x : Nat) : Decidable (Variant.Alive s x) := by
  unfold Variant.Alive; infer_instance

instance (s : Variant.VS Nat Nat) (o : Variant.Op Nat) : Decidable (Variant.Legal s o) := by
  cases o <;> unfold Variant.Legal <;> infer_instance

instance (s : Variant.VS Nat Nat) (o : Variant.Op Nat) : Decidable (Variant.Assigns s o) := by
  cases o <;> unfold Variant.Assigns <;> infer_instance

instance (cs : List (Variant.Op Nat × Env)) (s : Variant.VS Nat Nat) : Decidable (Variant.LegalRun Demo.T cs s) :=
  decLegalWith (fun (c : Variant.Op Nat × Env) s => Variant.call (plain Demo.T) c.1 c.2 s)
    (fun s c => Variant.Legal s c.1 ∧ ¬ Variant.Assigns s c.1) cs s

/-- Two objects, a copy that failed once, and a swap. -/
def unique : List (UniquePtr.Op Nat × Env) :=
  [(.make 1, Demo.fine 100), (.make 2, Demo.fine 101), (.copy 3 1, Demo.bad 102), (.move 3 1, Demo.fine 102),
    (.swap 1 2, Demo.full), (.destroy 2, Demo.full)]

def ustate : St Nat Unit Unit (Obj Nat) :=
  match UniquePtr.run Demo.T unique St.init with
  | .done _ s => s
  | _ => St.init

theorem ustate_reach : UniquePtr.Reach Demo.T ustate := by
  obtain ⟨log, s, hr, h⟩ := C96_no_undefined_behaviour (T := Demo.T) unique (by decide)
  unfold ustate
  rw [hr]
  exact h

example : UniquePtr.Legal ustate (.swap 1 3) ∧ addr ustate 1 = some 101 ∧ addr ustate 3 = some 102 ∧
    Wrapper.value ustate 1 = some 0 ∧ ¬ Wrapper.Alive ustate 2 := by decide

/-- Two wrappers, an `int`, and an assignment of a wrapper to it that fails. -/
def mixed : List (Variant.Op Nat × Env) :=
  [(.make 1, Demo.fine 100), (.make 2, Demo.fine 101), (.assignInt 2 7, Demo.full), (.copy 3 2, Demo.full),
    (.assign 3 1, Demo.bad 102), (.copy 4 3, Demo.full), (.assign 4 1, Demo.fine 103), (.assign 1 1, Demo.full)]

def vstate : Variant.VS Nat Nat :=
  match Variant.run Demo.T mixed Variant.start with
  | .done _ s => s
  | _ => Variant.start

theorem vstate_reach : Variant.Reach Demo.T vstate := by
  obtain ⟨log, s, hr, h⟩ := C97_no_undefined_behaviour_partial (T := Demo.T) mixed (by decide)
  unfold vstate
  rw [hr]
  exact h

example : Variant.value vstate 1 = some (.wrapped 0) ∧ Variant.value vstate 2 = some (.int 7) ∧
    Variant.value vstate 3 = some .valueless ∧ Variant.value vstate 4 = some (.wrapped 0) ∧
    addr vstate.1 1 = some 100 ∧ addr vstate.1 4 = some 103 ∧ Variant.Legal vstate (.assign 2 1) ∧
    ¬ Variant.Assigns vstate (.assign 2 1) ∧ Variant.Assigns vstate (.assign 1 4) := by decide

end MembersDemo

open MembersDemo in
/-- With an assignment between objects that hold wrappers a program in which every object named exists is undefined. -/
theorem C97_assignment_violated :
    undefinedRun (Variant.run Demo.T (mixed ++ [(.assign 1 4, Demo.full), (.destroy 1, Demo.full), (.destroy 4, Demo.full)])
      Variant.start) = true := by decide

open MembersDemo in
/-- An assignment that throws may change its target: an object that was an `int` is valueless afterwards. -/
theorem C97_strong_guarantee_violated :
    ∃ (x y : Nat) (e : Env) (f : Exn) (s' : Variant.VS Nat Nat),
      Variant.call (plain Demo.T) (.assign x y) e vstate = .threw f s' ∧ Variant.value vstate x = some (.int 7) ∧
        Variant.value s' x = some .valueless := by
  refine ⟨2, 1, Demo.full, ?_⟩
  cases hc : Variant.call (plain Demo.T) (.assign 2 1) Demo.full vstate with
  | threw f s' =>
    have h := C97_values_partial vstate_reach (.assign 2 1) Demo.full (by decide) (by decide)
    rw [hc] at h
    refine ⟨f, s', rfl, by decide, ?_⟩
    have h2 := congrFun (congrArg Prod.snd h) 2
    exact h2.symm.trans (by decide)
  | ok u s' =>
    have h := C97_values_partial vstate_reach (.assign 2 1) Demo.full (by decide) (by decide)
    rw [hc] at h
    have h2 : (Variant.expected Demo.T (available vstate.1 Demo.full) (Demo.full.choice 0) (Variant.value vstate)
        (.assign 2 1)).1 = none := congrArg Prod.fst h
    exact absurd h2 (by decide)
  | _ =>
    have h := C97_values_partial vstate_reach (.assign 2 1) Demo.full (by decide) (by decide)
    rw [hc] at h
    exact h.elim

end Verif.Props
