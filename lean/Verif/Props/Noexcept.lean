import Verif.Spec.Noexcept
import Verif.Props.Passing
import Verif.Props.IndirectGlobal
import Verif.Props.IndirectConstruct
import Verif.Props.PolyOps
import Verif.Props.PolySafety
import Verif.Props.Indirect14
import Verif.Proofs.Polymorphic14

/-!
# C100: what is declared `noexcept`, and that it is true
-/

set_option autoImplicit false
set_option linter.unusedSectionVars false
set_option linter.unusedSimpArgs false

namespace Verif.Props
open Verif Noexcept Spec.Paper

/-! ## What is declared -/

section
variable {A R : Type} (tr : ATraits A R) (eq : Bool) (f : Fn)

/-- indirect.h declares `noexcept` what the paper does, except the move constructor if the allocator is not always equal, and `==`. -/
theorem C100_declared_indirect_partial :
    indirect20 tr f = true ↔ Promised tr eq f ∧ (f = .move → tr.alwaysEqual = true) ∧ f ≠ .equal ∧ f ≠ .equalValue := by
  cases f <;> simp [indirect20, Promised]

/-- indirect_cxx14.h the same. -/
theorem C100_declared_indirect_cxx14_partial :
    indirect14 tr f = true ↔ Promised tr eq f ∧ (f = .move → tr.alwaysEqual = true) ∧ f ≠ .equal ∧ f ≠ .equalValue := by
  cases f <;> simp [indirect14, Promised]

/-- polymorphic.h: except the move constructor if the allocator is not always equal.  (It has no operators: `eq = false`.) -/
theorem C100_declared_polymorphic_partial :
    polymorphic20 tr f = true ↔ Promised tr false f ∧ (f = .move → tr.alwaysEqual = true) := by
  cases f <;> simp [polymorphic20, Promised]

/-- polymorphic_cxx14.h: exactly what the paper does. -/
theorem C100_declared_polymorphic_cxx14 : polymorphic14 tr f = true ↔ Promised tr false f := by
  cases f <;> simp [polymorphic14, Promised]

end

/-- The paper promises it of the move constructors, for an allocator that is not always equal three headers do not declare it; and the
paper promises it of `==`, the headers do not declare it. -/
theorem C100_declared_violated :
    (Promised (Demo.alloc false true true) true .move ∧ indirect20 (Demo.alloc false true true) .move = false ∧
      indirect14 (Demo.alloc false true true) .move = false ∧ polymorphic20 (Demo.alloc false true true) .move = false) ∧
    (Promised (Demo.alloc false true true) true .equal ∧ indirect20 (Demo.alloc false true true) .equal = false ∧
      indirect14 (Demo.alloc false true true) .equal = false) ∧
    (Promised (Demo.alloc false true true) true .equalValue ∧ indirect20 (Demo.alloc false true true) .equalValue = false ∧
      indirect14 (Demo.alloc false true true) .equalValue = false) := by
  refine ⟨⟨.inl (by simp), rfl, rfl, rfl⟩, ⟨?_, rfl, rfl⟩, ?_, rfl, rfl⟩ <;> simp [Promised]

/-! ## What is declared is never broken: no exception gets out, in any state, whatever the owned type does -/

section
open Passing Spec.Passing
variable {L A R V X Ty : Type} [DecidableEq L] [DecidableEq R] [DecidableEq Ty] {tr : ATraits A R}

private theorem calm_if {σ α : Type} {b : Bool} (h : b = true) (m : M σ α) : Throws (fun _ => False) (M.noexceptIf b m) := by
  subst h; exact noexcept_calm m

private theorem pure_calm {σ α : Type} (a : α) : Throws (fun _ => False) (Pure.pure a : M σ α) := fun _ _ _ h => nomatch h

/-- indirect.h: no exception gets out of a function that is declared `noexcept`, in any state, whatever the owned type does. -/
theorem C100_enforced_indirect (T : TOps (St L A R (Obj V)) A X) (o : Op L A V X) {f : Fn} (hf : fn o = some f)
    (hd : indirect20 tr f = true) (s s' : St L A R (Obj V)) (e : Exn) : Indirect.step tr T o s ≠ .threw e s' := by
  cases o <;> cases hf <;> first | (cases hd; done) | exact C93_never_indirect tr T _ (by exact True.intro) s s' e | skip
  case move x y =>
    exact fun h => Throws.bind (calm_if hd _) (fun _ => Throws.bind (Calm.emplace x _) fun _ => pure_calm _) s e s' h
  case moveA x a y =>
    exact fun h => Throws.bind (calm_if hd _) (fun _ => Throws.bind (Calm.emplace x _) fun _ => pure_calm _) s e s' h
  case assignMove x y => exact fun h => Throws.bind (calm_if hd _) (fun _ => pure_calm _) s e s' h

/-- indirect_cxx14.h. -/
theorem C100_enforced_indirect_cxx14 (T : TOps (St L A R (Obj V)) A X) (o : Op L A V X) {f : Fn} (hf : fn o = some f)
    (hd : indirect14 tr f = true) (s s' : St L A R (Obj V)) (e : Exn) : Indirect14.step tr T o s ≠ .threw e s' := by
  cases o <;> cases hf <;> first | (cases hd; done) | exact C93_never_indirect_cxx14 tr T _ (by exact True.intro) s s' e | skip
  case move x y =>
    exact fun h => Throws.bind (calm_if hd _) (fun _ => Throws.bind (Calm.emplace x _) fun _ => pure_calm _) s e s' h
  case moveA x a y =>
    exact fun h => Throws.bind (calm_if hd _) (fun _ => Throws.bind (Calm.emplace x _) fun _ => pure_calm _) s e s' h
  case assignMove x y => exact fun h => Throws.bind (calm_if hd _) (fun _ => pure_calm _) s e s' h

/-- polymorphic.h. -/
theorem C100_enforced_polymorphic (P : POps (St L A R (PBody Ty V)) A Ty X) (o : POp L A Ty V X) {f : Fn} (hf : fnP o = some f)
    (hd : polymorphic20 tr f = true) (s s' : St L A R (PBody Ty V)) (e : Exn) : Polymorphic.step tr P o s ≠ .threw e s' := by
  cases o <;> cases hf <;> first | (cases hd; done) | exact C93_never_polymorphic tr P _ (by exact True.intro) s s' e | skip
  case move x y =>
    exact fun h => Throws.bind (calm_if hd _) (fun _ => Throws.bind (Calm.emplace x _) fun _ => pure_calm _) s e s' h
  case moveA x a y =>
    exact fun h => Throws.bind (calm_if hd _) (fun _ => Throws.bind (Calm.emplace x _) fun _ => pure_calm _) s e s' h
  case assignMove x y => exact fun h => Throws.bind (calm_if hd _) (fun _ => pure_calm _) s e s' h

/-- polymorphic_cxx14.h. -/
theorem C100_enforced_polymorphic_cxx14 (P : POps (St L A R (PBody Ty V)) A Ty X) (o : POp L A Ty V X) {f : Fn} (hf : fnP o = some f)
    (hd : polymorphic14 tr f = true) (s s' : St L A R (PBody Ty V)) (e : Exn) : Polymorphic14.step tr P o s ≠ .threw e s' := by
  cases o <;> cases hf <;> first | (cases hd; done) | exact C93_never_polymorphic_cxx14 tr P _ (by exact True.intro) s s' e | skip
  case move x y =>
    exact fun h => Throws.bind (noexcept_calm _) (fun _ => Throws.bind (Calm.emplace x _) fun _ => pure_calm _) s e s' h
  case moveA x a y =>
    exact fun h => Throws.bind (calm_if hd _) (fun _ => Throws.bind (Calm.emplace x _) fun _ => pure_calm _) s e s' h
  case assignMove x y => exact fun h => Throws.bind (calm_if hd _) (fun _ => pure_calm _) s e s' h

end

/-! ## What the paper promises is kept: the call returns -/

section
open Indirect
variable {L A R V X : Type} [DecidableEq L] [DecidableEq R] {tr : ATraits A R} {T : TSpec V X} {s : St L A R (Obj V)}
  {o : Op L A V X} {f : Fn}

/-- indirect.h: a legal call of a function that the paper declares `noexcept` returns normally, whatever the owned type throws and whether
or not there is storage.  That includes the move constructor that the header does not declare `noexcept`.
Missing: move assignment between unequal allocators that propagate, for which it is false: `C16_noexcept_violated`. -/
theorem C100_kept_indirect_partial (S : tr.Sound) (Rf : tr.Reflexive) (h : Reach tr T s) (hl : Spec.Legal tr (abs s) o)
    (hf : fn o = some f) (hp : Promised tr false f) (hu : ∀ x y k b v, o = .assignMove x y → x ≠ y → abs s x = some k → abs s y = some ⟨b, some v⟩ → tr.eq k.alloc b = true) (e : Env) :
    ∃ out s', call tr (plain T) o e s = .ok out s' := by
  by_cases hm : f = .move
  · subst hm
    cases o <;> cases hf
    obtain ⟨hx, k, hy⟩ := hl
    obtain ⟨s', h1, _⟩ := C08_move_transfers (T := T) Rf hx hy e
    exact ⟨_, s', h1⟩
  rcases C01_call_no_undefined_behaviour S h o e hl with h1 | ⟨x, s', h1⟩ | h1
  · exact h1
  · exact absurd h1 (C100_enforced_indirect (plain T) o hf
      ((C100_declared_indirect_partial tr false f).2 ⟨hp, fun h => absurd h hm, by rintro rfl; simp [Promised] at hp, by
        rintro rfl; simp [Promised] at hp⟩) _ _ _)
  · obtain ⟨x, y, k, b, v, ho, h2, h3, h4, h5, _⟩ := (C16_terminates_iff S h hl e).1 h1
    rw [hu x y k b v ho h2 h3 h4] at h5; cases h5

/-- indirect_cxx14.h. -/
theorem C100_kept_indirect_cxx14_partial (S : tr.Sound) (Rf : tr.Reflexive) (h : Indirect14.Reach tr T s)
    (hl : Spec.Legal tr (abs s) o) (hf : fn o = some f) (hp : Promised tr false f)
    (hu : ∀ x y k b v, o = .assignMove x y → x ≠ y → abs s x = some k → abs s y = some ⟨b, some v⟩ → tr.eq k.alloc b = true) (e : Env) : ∃ out s', Indirect14.call tr (plain T) o e s = .ok out s' := by
  rw [Indirect14.call_eq]
  exact C100_kept_indirect_partial S Rf ((Indirect14.reach_iff tr T s).1 h) hl hf hp hu e

end

section
open Polymorphic
variable {L A R Ty V X : Type} [DecidableEq L] [DecidableEq R] [DecidableEq Ty] {tr : ATraits A R} {P : PSpec Ty V X}
  {s : St L A R (PBody Ty V)} {o : POp L A Ty V X} {f : Fn}

/-- polymorphic.h. Missing: as for `indirect` (`C39_noexcept_violated`). -/
theorem C100_kept_polymorphic_partial (S : tr.Sound) (Rf : tr.Reflexive) (h : Reach tr P s) (hl : Spec.PLegal tr (abs s) o)
    (hf : fnP o = some f) (hp : Promised tr false f) (hu : ∀ x y k b v, o = .assignMove x y → x ≠ y → abs s x = some k → abs s y = some ⟨b, some v⟩ → tr.eq k.alloc b = true) (e : Env) :
    ∃ out s', call tr (plainP P) o e s = .ok out s' := by
  by_cases hm : f = .move
  · subst hm
    cases o <;> cases hf
    obtain ⟨hx, k, hy⟩ := hl
    obtain ⟨s', h1, _⟩ := C36_move_transfers S h Rf hx hy e
    exact ⟨_, s', h1⟩
  rcases C31_call_no_undefined_behaviour S h o e hl with h1 | ⟨x, s', h1⟩ | h1
  · exact h1
  · exact absurd h1 (C100_enforced_polymorphic (plainP P) o hf
      ((C100_declared_polymorphic_partial tr f).2 ⟨hp, fun h => absurd h hm⟩) _ _ _)
  · obtain ⟨x, y, k, b, ty, v, ho, h2, h3, h4, h5, _⟩ := (C39_terminates_iff S h hl e).1 h1
    rw [hu x y k b (ty, v) ho h2 h3 h4] at h5; cases h5

/-- polymorphic_cxx14.h, for allocators with which its allocator-extended moves are safe (C41). -/
theorem C100_kept_polymorphic_cxx14_partial (S : tr.Sound) (E : tr.Equality) (hq : tr.pocca = true → tr.alwaysEqual = true)
    (h : Polymorphic14.Reach tr P s) (hl : Spec.PLegal tr (abs s) o)
    (hf : fnP o = some f) (hp : Promised tr false f) (hu : ∀ x y k b v, o = .assignMove x y → x ≠ y → abs s x = some k → abs s y = some ⟨b, some v⟩ → tr.eq k.alloc b = true) (e : Env) :
    ∃ out s', Polymorphic14.call tr (plainP P) o e s = .ok out s' := by
  have hx : Polymorphic14.fix P.base o = o := by cases o <;> cases hf <;> first | rfl | simp [Promised] at hp
  rw [Polymorphic14.call_eq tr E P o e s (Polymorphic14.safe_of E hq s o), hx]
  exact C100_kept_polymorphic_partial S ⟨E.refl⟩ (Polymorphic14.reach_of E hq h) hl hf hp hu e

end

/-! ## `==` -/

section
open Passing Spec.Passing
variable {L A R V X : Type} [DecidableEq L] [DecidableEq R]

private theorem choose_calm : Calm (choose : M (St L A R (Obj V)) Nat) := fun _ _ _ h => nomatch h

private theorem ask_calm {α : Type} {f : Nat → Except Exn α} (h : ∀ n, ∃ a, f n = .ok a) :
    Calm (ask f : M (St L A R (Obj V)) α) := by
  refine Throws.bind choose_calm fun n => ?_
  obtain ⟨a, ha⟩ := h n
  rw [ha]
  exact pure_calm a

private theorem bif_calm {α : Type} {b : Bool} {m n : M (St L A R (Obj V)) α} (h1 : Calm m) (h2 : Calm n) :
    Calm (if b = true then m else n) := ite_calm h1 h2

private theorem refDeref_calm (x : L) : Calm ((Indirect.ref x : Ref (St L A R (Obj V)) V).deref) :=
  Throws.bind (deref_calm x) fun p => readObj_calm p

/-- indirect.h: `==` throws nothing if `==` of the owned type does not, in any state: it could have been declared as in the paper. -/
theorem C100_equal_indirect (C : TCmp V) (hC : ∀ v w n, ∃ b, C.eq v w n = .ok b) (q : Query L V)
    (hq : (∃ x y, q = .eq x y) ∨ ∃ x w, q = .eqU x w) (s s' : St L A R (Obj V)) (e : Exn) : Indirect.query C q s ≠ .threw e s' := by
  rcases hq with ⟨x, y, rfl⟩ | ⟨x, w, rfl⟩
  · refine fun h => (?_ : Calm _) s e s' h
    refine Throws.bind (Throws.bind (valueless_calm x) fun b => bif_calm (valueless_calm y) ?_) fun _ => pure_calm _
    refine Throws.bind (valueless_calm y) fun b => bif_calm (pure_calm _) ?_
    exact Throws.bind (refDeref_calm x) fun v => Throws.bind (refDeref_calm y) fun w => ask_calm (hC v w)
  · refine fun h => (?_ : Calm _) s e s' h
    refine Throws.bind (Throws.bind (valueless_calm x) fun b => bif_calm (pure_calm _) ?_) fun _ => pure_calm _
    exact Throws.bind (refDeref_calm x) fun v => ask_calm (hC v w)

/-- indirect_cxx14.h. -/
theorem C100_equal_indirect_cxx14 (C : TCmp V) (hC : ∀ v w n, ∃ b, C.eq v w n = .ok b) (q : Query14 L V)
    (hq : (∃ x y, q = .rel .eq x y) ∨ (∃ x w, q = .relIU .eq x w) ∨ ∃ w x, q = .relUI .eq w x) (s s' : St L A R (Obj V)) (e : Exn) :
    Indirect14.query C q s ≠ .threw e s' := by
  have hm : ∀ (x : L) (w : Bool) (f : V → M (St L A R (Obj V)) Bool), (∀ v, Calm (f v)) → Calm (Compare14.mixed w f (Indirect.ref x)) :=
    fun x w f hf => Throws.bind (valueless_calm x) fun b => bif_calm (pure_calm _) (Throws.bind (refDeref_calm x) fun v => hf v)
  rcases hq with ⟨x, y, rfl⟩ | ⟨x, w, rfl⟩ | ⟨w, x, rfl⟩
  · refine fun h => (?_ : Calm _) s e s' h
    refine Throws.bind (Throws.bind (Throws.bind (valueless_calm x) fun b => bif_calm (pure_calm _) (valueless_calm y)) fun b =>
      bif_calm ?_ ?_) fun _ => pure_calm _
    · exact Throws.bind (valueless_calm x) fun b => bif_calm (valueless_calm y) (pure_calm _)
    · exact Throws.bind (refDeref_calm x) fun v => Throws.bind (refDeref_calm y) fun w => ask_calm (hC v w)
  · exact fun h => Throws.bind (hm x false _ fun v => ask_calm (hC v w)) (fun _ => pure_calm _) s e s' h
  · exact fun h => Throws.bind (hm x false _ fun v => ask_calm (hC w v)) (fun _ => pure_calm _) s e s' h

end

/-! ## More could not be promised -/

section
open Indirect Demo

/-- The functions that the paper does not promise, for an allocator that does not propagate and is not always equal, can throw; except
`swap` (C93) and comparisons, about which nothing is said here. -/
theorem C100_not_more (f : Fn) (hf : f ∈ [.make, .copy, .copyA, .moveA, .assignCopy, .assignMove, .assignFrom]) :
    ¬ Promised (alloc false false false) false f ∧ ∃ (o : Op Nat Nat Nat Nat) (e : Env) (ex : Exn) (s' : St Nat Nat Nat (Obj Nat)),
      fn o = some f ∧ Reach (alloc false false false) Demo.T s0 ∧ Spec.Legal (alloc false false false) (abs s0) o ∧
      call (alloc false false false) (plain Demo.T) o e s0 = .threw ex s' := by
  have k : ∀ (o : Op Nat Nat Nat Nat) (e : Env), fn o = some f → Spec.Legal (alloc false false false) (abs s0) o →
      Demo.outcome (call (alloc false false false) (plain Demo.T) o e s0) = 1 →
      ∃ (o : Op Nat Nat Nat Nat) (e : Env) (ex : Exn) (s' : St Nat Nat Nat (Obj Nat)),
      fn o = some f ∧ Reach (alloc false false false) Demo.T s0 ∧ Spec.Legal (alloc false false false) (abs s0) o ∧
      call (alloc false false false) (plain Demo.T) o e s0 = .threw ex s' := by
    intro o e h1 h2 h3
    cases hc : call (alloc false false false) (plain Demo.T) o e s0 with
    | threw ex s' => exact ⟨o, e, ex, s', h1, s0_reach, h2, hc⟩
    | _ => rw [hc] at h3; simp [Demo.outcome] at h3
  simp only [List.mem_cons, List.not_mem_nil, or_false] at hf
  rcases hf with rfl | rfl | rfl | rfl | rfl | rfl | rfl
  · exact ⟨by simp [Promised], k (.make 9 none .default) full rfl (by decide) (by decide)⟩
  · exact ⟨by simp [Promised], k (.copy 9 1) full rfl (by decide) (by decide)⟩
  · exact ⟨by simp [Promised], k (.copyA 9 5 1) full rfl (by decide) (by decide)⟩
  · exact ⟨by simp [Promised, alloc], k (.moveA 9 6 1) (bad 200) rfl (by decide) (by decide)⟩
  · exact ⟨by simp [Promised], k (.assignCopy 1 2) (bad 200) rfl (by decide) (by decide)⟩
  · exact ⟨by simp [Promised, alloc], k (.assignMove 3 1) full rfl (by decide) (by decide)⟩
  · exact ⟨by simp [Promised], k (.assignFrom 1 (.arg 3)) (bad 200) rfl (by decide) (by decide)⟩

/-! ## The hypotheses can be met -/

-- C100_enforced: move assignment with an allocator that propagates is declared; a legal call of it.
example : indirect20 (alloc false true false) .assignMove = true ∧ fn (.assignMove 1 3 : Op Nat Nat Nat Nat) = some .assignMove ∧
    Spec.Legal (alloc false true false) (abs (st false true false)) (.assignMove 1 3 : Op Nat Nat Nat Nat) :=
  ⟨rfl, rfl, by decide⟩

-- C100_kept: a move construction that the paper promises and the header does not, with no storage and a throwing `T`.
example : ∃ out s', call (alloc false false false) (plain Demo.T) (.move 9 1) full s0 = .ok out s' :=
  C100_kept_indirect_partial (alloc_sound _ _ _) (alloc_refl _ _ _) s0_reach (by decide) rfl (.inl (by simp)) (by simp) full

-- C100_kept: move assignment with an allocator that propagates, from an object with an equal allocator and with no storage.
example : ∃ out s', call (alloc false true false) (plain Demo.T) (.assignMove 1 2) full (st false true false) = .ok out s' := by
  refine C100_kept_indirect_partial (alloc_sound _ _ _) (alloc_refl _ _ _) (st_reach _ _ _) (by decide) rfl
    (by simp [Promised, alloc]) ?_ full
  intro x y k b v ho _ hx hy
  cases ho
  have h1 : abs (st false true false) 1 = some ⟨5, some 7⟩ := by decide
  have h2 : abs (st false true false) 2 = some ⟨5, some 8⟩ := by decide
  rw [h1] at hx; rw [h2] at hy; cases hx; cases hy; rfl

example : ∃ out s', Polymorphic.call (alloc false false false) (plainP PDemo.P) (.move 9 1) full (PDemo.st false false false) = .ok out s' :=
  C100_kept_polymorphic_partial (alloc_sound _ _ _) (alloc_refl _ _ _) (PDemo.st_reach _ _ _) (by decide) rfl (.inl (by simp)) (by simp) full

-- C100_kept_polymorphic_cxx14: the allocators exist.
example : (alloc false true true).Equality ∧ ((alloc false true true).pocca = true → (alloc false true true).alwaysEqual = true) :=
  ⟨⟨fun _ => by simp [alloc], fun h => nomatch h⟩, fun h => nomatch h⟩

-- C100_equal: a comparison that does not throw.
example : ∃ C : TCmp Nat, ∀ v w n, ∃ b, C.eq v w n = .ok b :=
  ⟨⟨none, fun v w _ => .ok (v == w), fun v w _ => .ok (v != w), fun _ _ _ => .error .badAlloc, fun _ _ _ => .error .badAlloc,
    fun _ _ _ => .error .badAlloc, fun _ _ _ => .error .badAlloc, fun _ _ => .error .badAlloc, 0⟩, fun _ _ _ => ⟨_, rfl⟩⟩

end

end Verif.Props
