import Verif.Proofs.IndirectReach

/-!
# Concrete instances

Small concrete owned types and allocators, used beside the theorems to show that their hypotheses can be
met, and for the counterexamples.  Nothing here is used by a proof of a general theorem.
-/

set_option autoImplicit false

namespace Verif

section
variable {L A R V X : Type} [DecidableEq L]

instance (σ : Spec.Boxes L A V) (x : L) : Decidable (Spec.Dead σ x) :=
  if h : (σ x).isNone then isTrue (by simpa [Spec.Dead] using h)
  else isFalse (by simpa [Spec.Dead] using h)

instance (σ : Spec.Boxes L A V) (x : L) : Decidable (Spec.Live σ x) :=
  if h : (σ x).isSome then isTrue (Option.isSome_iff_exists.1 h)
  else isFalse (fun h' => h (Option.isSome_iff_exists.2 h'))

instance (σ : Spec.Boxes L A V) (x : L) : Decidable (Spec.Engaged σ x) :=
  if h : (Spec.valueOf σ x).isSome then isTrue (Option.isSome_iff_exists.1 h)
  else isFalse (fun h' => h (Option.isSome_iff_exists.2 h'))

instance (σ : Spec.Boxes L A V) (u : Src L X) : Decidable (Spec.LegalSrc σ u) := by
  cases u <;> unfold Spec.LegalSrc <;> infer_instance

instance (σ : Spec.Boxes L A V) (c : Ctor L X) : Decidable (Spec.LegalCtor σ c) := by
  cases c <;> unfold Spec.LegalCtor <;> infer_instance

instance (tr : ATraits A R) (σ : Spec.Boxes L A V) (x y : L) : Decidable (Spec.LegalSwap tr σ x y) :=
  match hx : σ x, hy : σ y with
  | some bx, some bcy =>
    if h : tr.pocs = true ∨ tr.eq bx.alloc bcy.alloc = true then isTrue ⟨bx, bcy, hx, hy, h⟩
    else isFalse (by rintro ⟨_, _, h1, h2, h3⟩; simp_all)
  | none, _ => isFalse (by rintro ⟨_, _, h1, h2, h3⟩; simp_all)
  | some _, none => isFalse (by rintro ⟨_, _, h1, h2, h3⟩; simp_all)

instance (tr : ATraits A R) (σ : Spec.Boxes L A V) (o : Op L A V X) : Decidable (Spec.Legal tr σ o) := by
  cases o <;> unfold Spec.Legal <;> infer_instance

instance decLegalWith {σ O C : Type} (call : C → σ → Res σ O) (legal : σ → C → Prop)
    [d : ∀ s c, Decidable (legal s c)] : ∀ cs s, Decidable (LegalWith call legal cs s)
  | [], _ => isTrue trivial
  | c :: cs, s =>
    match d s c with
    | isFalse h => isFalse (fun h' => h h'.1)
    | isTrue h =>
      match hc : call c s with
      | .ok _ s' =>
        match decLegalWith call legal cs s' with
        | isTrue h' => isTrue ⟨h, by rw [hc]; exact h'⟩
        | isFalse h' => isFalse (fun k => h' (by have := k.2; rw [hc] at this; exact this))
      | .threw _ s' =>
        match decLegalWith call legal cs s' with
        | isTrue h' => isTrue ⟨h, by rw [hc]; exact h'⟩
        | isFalse h' => isFalse (fun k => h' (by have := k.2; rw [hc] at this; exact this))
      | .terminated => isTrue ⟨h, by rw [hc]; trivial⟩
      | .ub _ => isTrue ⟨h, by rw [hc]; trivial⟩
      | .diverged => isTrue ⟨h, by rw [hc]; trivial⟩

instance [DecidableEq R] (tr : ATraits A R) (T : TSpec V X) (cs : List (Op L A V X × Env)) (s : St L A R (Obj V)) :
    Decidable (Indirect.LegalRun tr T cs s) :=
  decLegalWith (fun (c : Op L A V X × Env) s => Indirect.call tr (plain T) c.1 c.2 s)
    (fun s c => Spec.Legal tr (Indirect.abs s) c.1) cs s

end

namespace Demo

/-- Allocators numbered by their memory resource, with the given propagation traits. -/
def alloc (pocca pocma pocs : Bool) : ATraits Nat Nat where
  eq a b := a == b
  res a := a
  alwaysEqual := false
  pocca := pocca
  pocma := pocma
  pocs := pocs
  socc a := a
  dflt := 0

theorem alloc_sound (a b c : Bool) : (alloc a b c).Sound where
  eq_res := by intro a b h; simpa [alloc] using h
  always_res := by simp [alloc]

theorem alloc_refl (a b c : Bool) : (alloc a b c).Reflexive where
  eq_refl := by simp [alloc]

/-- An allocator like `std::allocator`: one resource, all equal. -/
def std : ATraits Unit Unit where
  eq _ _ := true
  res a := a
  alwaysEqual := true
  pocca := false
  pocma := true
  pocs := false
  socc a := a
  dflt := ()

theorem std_sound : std.Sound := ⟨by simp, by simp⟩

/-- A type of numbers.  Every operation throws `user 13` if the environment's number is 13.  A move leaves
0 in the source, or 99 if it throws; a throwing assignment leaves 98 in its target. -/
def T : TSpec Nat Nat where
  make xs n := if n = 13 then .error (.user 13) else .ok (match xs with
    | .none => 0
    | .pack xs => xs.sum
    | .ilist l xs => l.sum + xs.sum)
  copy v n := if n = 13 then .error (.user 13) else .ok v
  move v n := if n = 13 then (.error (.user 13), 99) else (.ok v, 0)
  copyAssign _ v n := if n = 13 then (some (.user 13), 98) else (none, v)
  moveAssign _ v n := if n = 13 then (some (.user 13), 98, 99) else (none, v, 0)
  assignArg _ x n := if n = 13 then (some (.user 13), 98) else (none, x)
  assignable := true
  copyAssignable := true

/-- The allocator hands out address `p`, nothing throws. -/
def fine (p : Addr) : Env := ⟨fun _ => false, fun _ => p, fun _ => 0⟩

/-- No storage. -/
def full : Env := ⟨fun _ => true, fun _ => 0, fun _ => 0⟩

/-- The allocator hands out address `p`, the operation of `T` throws. -/
def bad (p : Addr) : Env := ⟨fun _ => false, fun _ => p, fun _ => 13⟩

/-- A history. -/
abbrev Hist (L : Type := Nat) := List (Op L Nat Nat Nat × Env)

section
variable {L : Type} [DecidableEq L]

/-- The state after a history (the initial state if the history does not end normally). -/
def after (tr : ATraits Nat Nat) (cs : Hist L) : St L Nat Nat (Obj Nat) :=
  match Indirect.run tr T cs St.init with
  | .done _ s => s
  | _ => St.init

/-- The history ended normally. -/
def ends (tr : ATraits Nat Nat) (cs : Hist L) : Bool :=
  match Indirect.run tr T cs St.init with
  | .done _ _ => true
  | _ => false

theorem reach {tr : ATraits Nat Nat} {cs : Hist L} (hl : Indirect.LegalRun tr T cs St.init)
    (_h : ends tr cs = true) : Indirect.Reach tr T (after tr cs) := by
  unfold after
  cases hr : Indirect.run tr T cs St.init with
  | done log s => exact Indirect.Reach.run .init hl hr
  | _ => exact .init

end

/-- Objects 1 (allocator 5, value 7), 2 (allocator 5, value 8), 3 (allocator 6, value 9), and 4, moved from
(allocator 6, valueless; its value 3 went to object 5). -/
def build : Hist := [
  (.make 1 (some 5) (.from (.arg 7)), fine 100),
  (.make 2 (some 5) (.inPlace [3, 5]), fine 101),
  (.make 3 (some 6) (.inPlaceOne (.arg 9)), fine 102),
  (.make 4 (some 6) (.ilist [1, 2] []), fine 103),
  (.move 5 4, fine 104)]

/-- Five objects: 1 (allocator 5, value 7), 2 (5, 8), 3 (6, 9), 4 (6, valueless), 5 (6, 3). -/
def s0 := after (alloc false false false) build

theorem s0_reach : Indirect.Reach (alloc false false false) T s0 := reach (by decide) (by decide)


/-- The same objects with other allocator traits. -/
def st (pocca pocma pocs : Bool) := after (alloc pocca pocma pocs) build

theorem st_reach (a b c : Bool) : Indirect.Reach (alloc a b c) T (st a b c) := by
  cases a <;> cases b <;> cases c <;> exact reach (by decide) (by decide)

/-- What a call did, as far as it can be printed. -/
def outcome {σ α : Type} : Res σ α → Nat
  | .ok _ _ => 0
  | .threw _ _ => 1
  | .terminated => 2
  | .ub _ => 3
  | .diverged => 4


/-- The state after a call (unchanged state if it did not return). -/
def stateAfter {σ α : Type} (s : σ) : Res σ α → σ
  | .ok _ s' => s'
  | .threw _ s' => s'
  | _ => s

end Demo
end Verif
