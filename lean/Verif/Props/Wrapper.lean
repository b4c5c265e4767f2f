import Verif.Proofs.Wrapper
import Verif.Props.IndirectSafety

/-!
# C67: wrapper and constrained_wrapper (exploration/wrapper.h)

`Wrapper.Reach T s`: a program that uses wrappers without assigning one to another can be in state `s`, whatever was
thrown.  `Wrapper.Meets T mem n s o r`: the outcome `r` of step `o` in `s` is what `Wrapper.expected` says.
-/

set_option autoImplicit false
set_option linter.unusedSectionVars false

namespace Verif.Props
open Verif Wrapper

section
variable {L V X : Type} [DecidableEq L]
variable {T : TSpec V X} {s s' : St L Unit Unit (Obj V)}

/-- Programs that name only objects that exist, and do not assign one to another, end normally, whatever is thrown
meanwhile.  Partial: as below. -/
theorem C67_no_undefined_behaviour_partial (cs : List (Wrapper.Op L × Env)) (hl : LegalRun T cs St.init) :
    ∃ log s, run T cs St.init = .done log s ∧ Reach T s :=
  run_good .init hl

/-- Without assignments between different objects every step returns or throws, with the expected values: default
construction makes a `T()`, copies and moves make a copy of the value of the source, which keeps it, nothing else changes,
and an exception leaves all values as they were.  In particular there is no undefined behaviour.
Partial: assignments are excluded; see `C67_assignment_shares`, `C67_assignment_violated`. -/
theorem C67_values_partial (h : Reach T s) (o : Wrapper.Op L) (e : Env) (hl : Legal s o) (hn : ¬ Assigns o) :
    Meets T (available s e) (e.choice 0) s o (call (plain T) o e s) :=
  (call_good h.good.1 h.good.2 e hl hn).1

/-- Every object has a value. -/
theorem C67_always_a_value_partial (h : Reach T s) {x : L} (hx : Alive s x) : ∃ v, value s x = some v := by
  obtain ⟨v, _, hv⟩ := abs_alive hx h.good.2 h.good.1
  exact ⟨v, hv⟩

/-- Copies are deep: different objects never share a `T`. -/
theorem C67_exclusive_ownership_partial (h : Reach T s) {x y : L} {p : Addr} (hx : addr s x = some p)
    (hy : addr s y = some p) : x = y :=
  C02_exclusive_ownership newDelete_sound h.indirect hx hy

/-- Once every object has been destroyed, everything was freed and destroyed, once. -/
theorem C67_no_leak_partial (h : Reach T s) (hd : ∀ x, ¬ Alive s x) (p : Addr) :
    s.heap p = none ∧ Spec.allocsAt p s.trace = Spec.deallocsAt p s.trace ∧
      Spec.constructsAt p s.trace = Spec.destroysAt p s.trace := by
  refine C03_no_leak newDelete_sound h.indirect (fun x => ?_) p
  simp only [Spec.Dead, Indirect.abs, absWith]
  cases hh : s.hs x with
  | none => rfl
  | some k => exact absurd ⟨k, hh⟩ (hd x)

/-- `x == y` is the comparison of the values; what that does, throwing included, is what happens. -/
theorem C67_equal {x y : L} {v w : V} (hx : value s x = some v) (hy : value s y = some w)
    (eqT : V → V → M (St L Unit Unit (Obj V)) Bool) : equal eqT x y s = eqT v w s := by
  have rd : ∀ {z : L} {u : V}, value s z = some u →
      ∃ p, pointee z s = .ok p s ∧ readObj (L := L) (A := Unit) (R := Unit) p s = .ok u s := by
    intro z u hz
    obtain ⟨k, p, r, hk, hp, hh⟩ := Indirect.abs_valueOf hz
    refine ⟨p, ?_, ?_⟩
    · simp [pointee, M.bind_eq, getH, hk, hp]
    · simp [readObj, M.bind_eq, readBody, hh]
  obtain ⟨p, hp, hv⟩ := rd hx
  obtain ⟨q, hq, hw⟩ := rd hy
  simp only [equal, M.bind_eq, hp, hv, hq, hw]

/-- Assigning an object to itself does nothing. -/
theorem C67_self_assignment {x : L} (hx : Alive s x) (e : Env) :
    call (plain T) (.assign x x) e s = .ok () (s.enter e) := by
  obtain ⟨h, hh⟩ := hx
  have : (s.enter e).hs x = some h := hh
  simp only [call, step, assign, M.bind_eq, getH, setP, this, M.pure_eq]
  rw [show (some { h with p := h.p } : Option (Handle Unit)) = (s.enter e).hs x from this.symm, upd_id _ _ _ rfl]

/-- Every assignment between different objects goes wrong: afterwards both have the same `T`, that of the target has no
owner any more (so it is never destroyed), and destroying first one and then the other object, in either order, deletes
the same `T` twice. -/
theorem C67_assignment_shares (h : Reach T s) {x y : L} (hx : Alive s x) (hy : Alive s y) (hxy : x ≠ y) (e : Env) :
    ∃ s' p q, call (plain T) (.assign x y) e s = .ok () s' ∧ addr s x = some q ∧ addr s y = some p ∧
      addr s' x = some p ∧ addr s' y = some p ∧ s'.heap = s.heap ∧ (∀ z, addr s' z ≠ some q) ∧
      ∀ a b, (a = x ∧ b = y ∨ a = y ∧ b = x) → ∀ e₁ e₂, ∃ s₁, call (plain T) (.destroy a) e₁ s' = .ok () s₁ ∧
        ∃ u, call (plain T) (.destroy b) e₂ s₁ = .ub u := by
  obtain ⟨I, F⟩ := h.good
  obtain ⟨hx', hhx⟩ := hx
  obtain ⟨hy', hhy⟩ := hy
  cases hp : hy'.p with
  | none => exact absurd hp (F _ _ hhy)
  | some p =>
  cases hq : hx'.p with
  | none => exact absurd hq (F _ _ hhx)
  | some q =>
  obtain ⟨v, hv⟩ := I.own' hhy hp
  refine ⟨{ s.enter e with hs := upd s.hs x (some { hx' with p := some p }) }, p, q, ?_, ?_, ?_, ?_, ?_, rfl, ?_, ?_⟩
  · simp only [call, step, assign, M.bind_eq, M.pure_eq, St.enter, getH, setP, hhx, hhy, hp]
  · simp [addr, hhx, hq]
  · simp [addr, hhy, hp]
  · simp [addr]
  · simp [addr, upd_other _ _ (Ne.symm hxy), hhy, hp]
  · intro z hz
    by_cases ez : z = x
    · subst ez
      simp [addr] at hz
      subst hz
      exact hxy (I.uniq _ _ _ _ _ hhx hhy hq hp)
    · simp [addr, upd_other _ _ ez] at hz
      cases hk : s.hs z with
      | none => simp [hk] at hz
      | some k =>
        simp [hk] at hz
        exact ez (I.uniq _ _ _ _ _ hk hhx hz hq)
  · have key : ∀ (t : St L Unit Unit (Obj V)) (a b : L) (ka kb : Handle Unit) (e₁ e₂ : Env), a ≠ b → t.hs a = some ka →
        t.hs b = some kb → ka.p = some p → kb.p = some p → t.heap p = some ⟨(), some v⟩ →
        ∃ s₁, call (plain T) (.destroy a) e₁ t = .ok () s₁ ∧ ∃ u, call (plain T) (.destroy b) e₂ s₁ = .ub u := by
      intro t a b ka kb e₁ e₂ hab ha hb hpa hpb hh
      refine ⟨_, destroy_some (s := t.enter e₁) ha hpa hh, _, destroy_dangling (h := kb) (p := p) ?_ hpb ?_⟩
      · simp [St.enter, upd_other _ _ (Ne.symm hab), hb]
      · simp [St.enter]
    intro a b hab e₁ e₂
    rcases hab with ⟨rfl, rfl⟩ | ⟨rfl, rfl⟩
    · exact key _ a b _ _ e₁ e₂ hxy (upd_same _ _ _) ((upd_other _ _ (Ne.symm hxy)).trans hhy) rfl hp hv
    · exact key _ a b _ _ e₁ e₂ (Ne.symm hxy) ((upd_other _ _ (Ne.symm hxy)).trans hhy) (upd_same _ _ _) hp rfl hv

end

/-! ## A concrete program -/

instance {L V : Type} (s : St L Unit Unit (Obj V)) (x : L) : Decidable (Alive s x) :=
  if h : (s.hs x).isSome then isTrue (Option.isSome_iff_exists.1 h)
  else isFalse fun h' => h (Option.isSome_iff_exists.2 h')

instance {L V : Type} [DecidableEq L] (s : St L Unit Unit (Obj V)) (o : Wrapper.Op L) : Decidable (Legal s o) := by
  cases o <;> unfold Legal <;> infer_instance

instance {L : Type} [DecidableEq L] (o : Wrapper.Op L) : Decidable (Assigns o) := by
  cases o <;> unfold Assigns <;> infer_instance

instance {L V X : Type} [DecidableEq L] (T : TSpec V X) (cs : List (Wrapper.Op L × Env)) (s : St L Unit Unit (Obj V)) :
    Decidable (LegalRun T cs s) :=
  decLegalWith (fun (c : Wrapper.Op L × Env) s => call (plain T) c.1 c.2 s) (fun s c => Legal s c.1 ∧ ¬ Assigns c.1) cs s

/-- Two wrappers, and a copy that failed once. -/
def wdemo : List (Wrapper.Op Nat × Env) :=
  [(.make 1, Demo.fine 100), (.make 2, Demo.fine 101), (.copy 3 1, Demo.bad 102), (.move 3 1, Demo.fine 102),
    (.assign 3 3, Demo.full)]

/-- Did the program end in undefined behaviour? -/
def undefinedRun {σ O : Type} : Run σ O → Bool
  | .ub _ => true
  | _ => false

/-- With an assignment a program in which every object named exists is undefined. -/
theorem C67_assignment_violated :
    undefinedRun (run Demo.T (wdemo ++ [(.assign 1 2, Demo.full), (.destroy 1, Demo.full), (.destroy 2, Demo.full)])
      (St.init : St Nat Unit Unit (Obj Nat))) = true := by decide

/-- The state after `wdemo`. -/
def wstate : St Nat Unit Unit (Obj Nat) :=
  match run Demo.T wdemo St.init with
  | .done _ s => s
  | _ => St.init

theorem wlegal : LegalRun Demo.T wdemo (St.init : St Nat Unit Unit (Obj Nat)) := by decide

theorem wstate_reach : Reach Demo.T wstate := by
  obtain ⟨log, s, hr, h⟩ := C67_no_undefined_behaviour_partial wdemo wlegal
  unfold wstate
  rw [hr]
  exact h

example : Legal wstate (.copy 4 3) ∧ ¬ Assigns (.copy 4 3 : Wrapper.Op Nat) ∧ Alive wstate 1 ∧ Alive wstate 2 ∧
    value wstate 3 = some 0 ∧ addr wstate 1 = some 100 ∧ addr wstate 3 = some 102 := by decide

example : ∃ log s, run Demo.T (wdemo ++ [(.destroy 2, Demo.full), (.destroy 1, Demo.full), (.destroy 3, Demo.full)])
    (St.init : St Nat Unit Unit (Obj Nat)) = .done log s ∧ Reach Demo.T s :=
  C67_no_undefined_behaviour_partial _ (by decide)

/-- Two objects are made and destroyed. -/
def wclean : List (Wrapper.Op (Fin 2) × Env) :=
  [(.make 0, Demo.fine 100), (.copy 1 0, Demo.fine 101), (.destroy 0, Demo.full), (.destroy 1, Demo.full)]

/-- No object is left at the end. -/
def noneLeft : Run (St (Fin 2) Unit Unit (Obj Nat)) Unit → Bool
  | .done _ s => decide (∀ x, s.hs x = none)
  | _ => false

example : LegalRun Demo.T wclean (St.init : St (Fin 2) Unit Unit (Obj Nat)) ∧
    noneLeft (run Demo.T wclean St.init) = true := by decide

end Verif.Props
