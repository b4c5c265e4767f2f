import Verif.Demo
import Verif.Proofs.Fancy
import Verif.Props.IndirectGlobal
import Verif.Props.IndirectSafety

/-!
# C88: allocators with pointers that are not plain

indirect.h works with every pointer type that meets the requirements on allocators, also if the representation of a pointer depends on where it is
(`Fancy.Pointers`): every call does what it does with plain pointers, so that the theorems about `indirect` hold.  The other three headers do not compile with
such pointers.
-/

set_option autoImplicit false
set_option linter.unusedSectionVars false
set_option linter.unusedSimpArgs false

namespace Verif.Props
open Verif Fancy

section
variable {L A R V X P P' : Type} [DecidableEq L] [DecidableEq R]
variable {Q : Pointers L P} {Q' : Pointers L P'} {tr : ATraits A R} {T : TSpec V X}

private theorem forget_enter (s : FSt L A R (Obj V) P) (e : Env) : forget Q (s.enter e) = (forget Q s).enter e := rfl

private theorem same_of {α : Type} {r : Res (FSt L A R (Obj V) P) α} {r' : Res (St L A R (Obj V)) α} (h : RSame Q Eq r r') : Same Q r r' := by
  revert h
  cases r <;> cases r' <;> exact id

/-- Every call, in every state, has the same outcome as with plain pointers. -/
theorem C88_same_call (hQ : Q.Sound) (o : Op L A V X) (e : Env) (s : FSt L A R (Obj V) P) :
    Same Q (call Q tr (plain T) o e s) (Indirect.call tr (plain T) o e (forget Q s)) :=
  same_of (hom_step hQ (apart_plain T) o (s.enter e))

private theorem abs_forget (s : FSt L A R (Obj V) P) : Indirect.abs (forget Q s) = values Q s := by
  funext x
  simp only [Indirect.abs, absWith, forget, values]
  cases s.hs x <;> rfl

private theorem sameRun_cons {O : Type} (o : Seen O) {r : Run (FSt L A R (Obj V) P) O} {r' : Run (St L A R (Obj V)) O} (h : SameRun Q r r') :
    SameRun Q (r.cons o) (r'.cons o) := by
  cases r <;> cases r' <;> first | exact h.elim | exact h | skip
  · exact ⟨by rw [h.1], h.2⟩
  · exact congrArg (o :: ·) h

private theorem runs (hQ : Q.Sound) (cs : List (Op L A V X × Env)) (s : FSt L A R (Obj V) P) :
    SameRun Q (run Q tr T cs s) (Indirect.run tr T cs (forget Q s)) ∧
      (LegalRun Q tr T cs s ↔ Indirect.LegalRun tr T cs (forget Q s)) := by
  induction cs generalizing s with
  | nil => exact ⟨⟨rfl, rfl⟩, Iff.rfl⟩
  | cons c cs ih =>
    have h := C88_same_call (tr := tr) (T := T) hQ c.1 c.2 s
    unfold run LegalRun Indirect.run Indirect.LegalRun runWith LegalWith
    rw [abs_forget]
    revert h
    cases call Q tr (plain T) c.1 c.2 s with
    | ok a t =>
      cases Indirect.call tr (plain T) c.1 c.2 (forget Q s) with
      | ok b t' =>
        rintro ⟨rfl, rfl⟩
        have := ih t
        exact ⟨sameRun_cons _ this.1, and_congr_right fun _ => this.2⟩
      | threw _ _ => exact False.elim
      | terminated => exact False.elim
      | ub _ => exact False.elim
      | diverged => exact False.elim
    | threw e t =>
      cases Indirect.call tr (plain T) c.1 c.2 (forget Q s) with
      | threw b t' =>
        rintro ⟨rfl, rfl⟩
        have := ih t
        exact ⟨sameRun_cons _ this.1, and_congr_right fun _ => this.2⟩
      | ok _ _ => exact False.elim
      | terminated => exact False.elim
      | ub _ => exact False.elim
      | diverged => exact False.elim
    | terminated =>
      cases Indirect.call tr (plain T) c.1 c.2 (forget Q s) <;> first | exact False.elim | (intro _; exact ⟨rfl, Iff.rfl⟩)
    | ub u =>
      cases Indirect.call tr (plain T) c.1 c.2 (forget Q s) <;> first | exact False.elim | (rintro rfl; exact ⟨rfl, Iff.rfl⟩)
    | diverged =>
      cases Indirect.call tr (plain T) c.1 c.2 (forget Q s) <;> first | exact False.elim | (intro _; exact ⟨trivial, Iff.rfl⟩)

private theorem forget_init : forget Q (FSt.init : FSt L A R (Obj V) P) = St.init := rfl

/-- Every history of calls shows its client the same, and ends in the same state up to the representation of pointers; and a history is legal
exactly if it is with plain pointers. -/
theorem C88_same_history (hQ : Q.Sound) (cs : List (Op L A V X × Env)) :
    SameRun Q (run Q tr T cs FSt.init) (Indirect.run tr T cs St.init) ∧
      (LegalRun Q tr T cs FSt.init ↔ Indirect.LegalRun tr T cs St.init) :=
  runs hQ cs FSt.init

/-- Clients cannot tell pointer types apart. -/
theorem C88_pointer_type_not_observable (hQ : Q.Sound) (hQ' : Q'.Sound) (cs : List (Op L A V X × Env)) {log : List (Seen (Out L A V))}
    {s : FSt L A R (Obj V) P} (h : run Q tr T cs FSt.init = .done log s) :
    ∃ s', run Q' tr T cs FSt.init = .done log s' ∧ values Q' s' = values Q s := by
  have h1 := (C88_same_history (tr := tr) (T := T) hQ cs).1
  have h2 := (C88_same_history (tr := tr) (T := T) hQ' cs).1
  rw [h] at h1
  revert h1 h2
  cases Indirect.run tr T cs St.init with
  | done l t =>
    rintro ⟨rfl, rfl⟩
    cases run Q' tr T cs FSt.init with
    | done l' t' =>
      rintro ⟨rfl, ht⟩
      exact ⟨t', rfl, by rw [← abs_forget, ht, abs_forget]⟩
    | terminated _ => exact False.elim
    | ub _ => exact False.elim
    | diverged => exact False.elim
  | terminated _ => exact False.elim
  | ub _ => exact False.elim
  | diverged => exact False.elim

/-- C01 with all pointer types: no undefined behaviour in any legal history. -/
theorem C88_no_undefined_behaviour (hQ : Q.Sound) (S : tr.Sound) (cs : List (Op L A V X × Env)) (hl : LegalRun Q tr T cs FSt.init) :
    (∃ log s, run Q tr T cs FSt.init = .done log s) ∨ (∃ log, run Q tr T cs FSt.init = .terminated log) := by
  obtain ⟨h1, h2⟩ := C88_same_history (tr := tr) (T := T) hQ cs
  have := C01_history_no_undefined_behaviour S cs (h2.1 hl)
  revert h1
  rcases this with ⟨log, s, h⟩ | ⟨log, h⟩ <;> rw [h] <;> cases run Q tr T cs FSt.init <;> first | exact False.elim | skip
  · exact fun _ => .inl ⟨_, _, rfl⟩
  · exact fun _ => .inr ⟨_, rfl⟩

/-- C23 with all pointer types: histories are histories of plain optional values. -/
theorem C88_history_is_value_history (hQ : Q.Sound) (S : tr.Sound) (cs : List (Op L A V X × Env)) (hl : LegalRun Q tr T cs FSt.init)
    {log : List (Seen (Out L A V))} {s : FSt L A R (Obj V) P} (h : run Q tr T cs FSt.init = .done log s) :
    Spec.run tr T (lucks tr T cs St.init) (fun _ => none) = .done log (values Q s) := by
  obtain ⟨h1, h2⟩ := C88_same_history (tr := tr) (T := T) hQ cs
  have := C23_history_is_value_history S cs (h2.1 hl)
  rw [h] at h1
  revert this h1
  cases Indirect.run tr T cs St.init with
  | done l t =>
    rintro ⟨rfl, rfl⟩ h3
    rw [← abs_forget]
    exact h3
  | terminated _ => exact False.elim
  | ub _ => exact False.elim
  | diverged => exact False.elim

/-- C02 and C03 with all pointer types: after every legal history a block is allocated exactly if some object's pointer points to it, and then only one
does. -/
theorem C88_allocated_iff_owned (hQ : Q.Sound) (S : tr.Sound) (cs : List (Op L A V X × Env)) (hl : LegalRun Q tr T cs FSt.init)
    {log : List (Seen (Out L A V))} {s : FSt L A R (Obj V) P} (h : run Q tr T cs FSt.init = .done log s) (p : Addr) :
    ((∃ c, s.heap p = some c) ↔ ∃ x h, s.hs x = some h ∧ Q.target (.member x) h.p = some p) ∧
      ∀ x y hx hy, s.hs x = some hx → s.hs y = some hy → Q.target (.member x) hx.p = some p → Q.target (.member y) hy.p = some p → x = y := by
  obtain ⟨h1, h2⟩ := C88_same_history (tr := tr) (T := T) hQ cs
  have hl' := h2.1 hl
  rw [h] at h1
  cases hr : Indirect.run tr T cs St.init with
  | done l t =>
    rw [hr] at h1
    obtain ⟨rfl, rfl⟩ := h1
    have reach := C01_histories_reach hl' hr
    have points : ∀ x h, s.hs x = some h → addr (forget Q s) x = Q.target (.member x) h.p := by
      intro x h hx
      simp [addr, forget, hx]
    refine ⟨?_, ?_⟩
    · rw [show s.heap = (forget Q s).heap from rfl, C03_allocated_iff_owned S reach p]
      constructor
      · rintro ⟨x, hx⟩
        cases hh : s.hs x with
        | none => simp [addr, forget, hh] at hx
        | some h => exact ⟨x, h, hh, by rw [← points x h hh, hx]⟩
      · rintro ⟨x, h, hh, ht⟩
        exact ⟨x, by rw [points x h hh, ht]⟩
    · intro x y hx hy h1 h2 h3 h4
      exact C02_exclusive_ownership S reach (by rw [points x hx h1, h3]) (by rw [points y hy h2, h4])
  | terminated _ => rw [hr] at h1; exact h1.elim
  | ub _ => rw [hr] at h1; exact h1.elim
  | diverged => rw [hr] at h1; exact h1.elim

end

/-! ### Which headers compile with which pointer types -/

/-- indirect.h needs of pointers only what the requirements on allocators promise.  Missing: the other headers, see `C88_violation`. -/
theorem C88_compiles_partial (t : PointerType) (u : Use) : works .indirect20 t u = true := by
  cases u <;> rfl

/-- The others do not even make an object with pointers that do not convert to and from plain ones. -/
theorem C88_violation (h : Header) (hh : h ≠ .indirect20) : ∃ t : PointerType, t.Sensible ∧ works h t .make = false :=
  ⟨⟨false, false, false⟩, nofun, by cases h <;> first | rfl | exact absurd rfl hh⟩

/-- indirect_cxx14.h: exactly the pointers that convert in both directions. -/
theorem C88_cxx14_exactly (t : PointerType) : (∀ u, works .indirect14 t u = true) ↔ t.toRaw = true ∧ t.fromRaw = true := by
  constructor
  · intro h
    simpa [works, needs, makeNeeds, PointerType.provides] using h .make
  · rintro ⟨h1, h2⟩ u
    cases u <;> simp [works, needs, makeNeeds, resetNeeds, PointerType.provides, h1, h2]

/-- indirect_cxx14.h, use by use: swapping and access work with every pointer type, everything that makes or destroys an object converts. -/
theorem C88_cxx14_uses (t : PointerType) (u : Use) :
    works .indirect14 t u = true ↔ u = .swap ∨ u = .access ∨ (t.toRaw = true ∧ t.fromRaw = true) := by
  obtain ⟨a, b, c⟩ := t
  cases u <;> cases a <;> cases b <;> simp [works, needs, makeNeeds, resetNeeds, PointerType.provides]

/-- polymorphic.h and polymorphic_cxx14.h, use by use: all that makes objects needs plain pointers. -/
theorem C88_polymorphic_uses (h : Header) (hh : h = .polymorphic20 ∨ h = .polymorphic14) (t : PointerType) (ht : t.Sensible) (u : Use) :
    works h t u = true ↔ u = .swap ∨ u = .access ∨ u = .destroy ∨ t.raw = true := by
  obtain ⟨a, b, c⟩ := t
  rcases hh with rfl | rfl <;> cases u <;> cases a <;> cases b <;> cases c <;>
    simp_all [works, needs, makeNeeds, resetNeeds, PointerType.provides, PointerType.Sensible]

/-- polymorphic.h and polymorphic_cxx14.h: exactly plain pointers. -/
theorem C88_polymorphic_exactly (h : Header) (hh : h = .polymorphic20 ∨ h = .polymorphic14) (t : PointerType) (ht : t.Sensible) :
    (∀ u, works h t u = true) ↔ t.raw = true := by
  constructor
  · intro hu
    have := hu .make
    rcases hh with rfl | rfl <;> simp [works, needs, makeNeeds, PointerType.provides] at this <;> exact this.2.1
  · intro hr u
    obtain ⟨h1, h2⟩ := ht hr
    rcases hh with rfl | rfl <;> cases u <;> simp [works, needs, makeNeeds, resetNeeds, PointerType.provides, h1, h2, hr]

/-! ### The hypotheses are met -/

section Examples

/-- Pointers into shared memory: the distance from the pointer to its target.  Members are at 1000, 1001, ..., variables at 0, 1, ... -/
private def place {L : Type} (n : L → Nat) : Site L → Int
  | .member l => 1000 + n l
  | .temp k => k

private def offsets {L : Type} (n : L → Nat) : Pointers L (Option Int) where
  point s a := a.map fun (q : Nat) => Int.ofNat q - place n s
  target s p := p.map fun d => (d + place n s).toNat

private theorem offsets_sound {L : Type} (n : L → Nat) : (offsets n).Sound where
  target_point s a := by
    cases a with
    | none => rfl
    | some q =>
      simp only [offsets, Option.map_some]
      rw [Int.sub_add_cancel]; rfl

/-- The representation depends on the place. -/
example : (offsets (L := Nat) id).point (.member 1) (some 7) ≠ (offsets (L := Nat) id).point (.member 2) (some 7) := by decide

example : (offsets (L := Nat) id).Sound ∧ (Demo.alloc true false false).Sound ∧
    LegalRun (offsets id) (Demo.alloc true false false) Demo.T (Demo.build ++ [
      (.assignCopy 1 3, Demo.bad 200), (.assignCopy 1 3, Demo.fine 201), (.assignMove 4 1, Demo.full),
      (.copy 6 1, Demo.fine 202), (.destroy 1, Demo.full)]) FSt.init := by
  refine ⟨offsets_sound _, Demo.alloc_sound _ _ _, (C88_same_history (offsets_sound _) _).2.2 ?_⟩
  decide

end Examples
end Verif.Props
