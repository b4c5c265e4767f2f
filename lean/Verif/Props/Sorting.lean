import Verif.Proofs.Sorting
import Verif.Props.Client
import Verif.Proofs.SwapByMoves

/-!
# C74: sorting by comparing and swapping

An algorithm that only compares and swaps `indirect` objects, as sorting algorithms do, sorts their values and moves no value: the
owned objects stay where they are, only who owns them changes.
-/

set_option autoImplicit false
set_option linter.unusedSectionVars false
set_option linter.unusedSimpArgs false

namespace Verif.Props
open Verif

section
variable {L A R V X : Type} [DecidableEq L] [DecidableEq R]
open Indirect
variable {tr : ATraits A R} {T : TSpec V X} {C : TCmp V} {s : St L A R (Obj V)} {xs : List L} {less : V → V → Bool}

/-- indirect.h: insertion sort of any number of objects, some of which may be valueless, sorts them (the valueless first); the
values are those that were there; no other object changes, nor do the allocators if they do not propagate; no storage is
allocated, freed or written, no value is copied or moved, and every object is still owned once. -/
theorem C74_sorts (S : tr.Sound) (h : Indirect.Reach tr T s) (hn : xs.Nodup) (hs : Spec.Swappable tr (abs s) xs)
    (hw : Spec.StrictWeak less) (hc : Spec.Compares C less) (es : Nat → Env) :
    ∃ s', (Sorting.sort Sorting.ask20 [] xs).run (Indirect.either tr T C) es s = .ok none s' ∧
      Spec.Sorted less (xs.map (Spec.valueOf (abs s'))) ∧
      (xs.map (Spec.valueOf (abs s'))).Perm (xs.map (Spec.valueOf (abs s))) ∧
      (∀ z, z ∉ xs → abs s' z = abs s z) ∧
      (tr.pocs = false → ∀ z, (abs s' z).map (·.alloc) = (abs s z).map (·.alloc)) ∧
      s'.heap = s.heap ∧ Spec.Silent s s' ∧ Spec.OwnedOnce s' := by
  rw [Conc.either_eq]
  obtain ⟨o, s', h1, h2, h3, h4, h5, h6⟩ := Sorting.sort_run (Conc.queried tr T C S) (Sorting.does20 tr T C)
    (fun x y e s I hl => Sorting.quiet_cmp20 tr T C I _ hl e) (fun x y e s _ hl => Sorting.quiet_swap tr T hl e)
    (srt := True) (fun _ => ⟨Sorting.answers20 tr T hc, hw⟩) hn es (h.inv S) hs
  obtain ⟨rfl, h2'⟩ := h2 trivial
  exact ⟨s', h1, h2', h3.perm, h3.others, h3.allocs, h4, h5, h6⟩

/-- indirect.h: whatever the comparisons of the owned type do, even if they contradict themselves or throw, the sort ends, and the
values are those that were there: nothing is lost, duplicated, copied or leaked. -/
theorem C74_whatever_comparisons_do (S : tr.Sound) (h : Indirect.Reach tr T s) (hn : xs.Nodup)
    (hs : Spec.Swappable tr (abs s) xs) (C : TCmp V) (es : Nat → Env) :
    ∃ r s', (Sorting.sort Sorting.ask20 [] xs).run (Indirect.either tr T C) es s = .ok r s' ∧
      (xs.map (Spec.valueOf (abs s'))).Perm (xs.map (Spec.valueOf (abs s))) ∧
      (∀ z, z ∉ xs → abs s' z = abs s z) ∧
      s'.heap = s.heap ∧ Spec.Silent s s' ∧ Spec.OwnedOnce s' := by
  rw [Conc.either_eq]
  obtain ⟨o, s', h1, -, h3, h4, h5, h6⟩ := Sorting.sort_run (Conc.queried tr T C S) (Sorting.does20 tr T C)
    (fun x y e s I hl => Sorting.quiet_cmp20 tr T C I _ hl e) (fun x y e s _ hl => Sorting.quiet_swap tr T hl e)
    (srt := False) (less := fun _ _ => false) (fun h => h.elim) hn es (h.inv S) hs
  exact ⟨o, s', h1, h3.perm, h3.others, h4, h5, h6⟩

/-- indirect_cxx14.h: the same, with `<`. -/
theorem C74_cxx14_sorts (S : tr.Sound) (h : Indirect14.Reach tr T s) (hn : xs.Nodup) (hs : Spec.Swappable tr (abs s) xs)
    (hw : Spec.StrictWeak less) (hc : Spec.Compares14 C less) (es : Nat → Env) :
    ∃ s', (Sorting.sort Sorting.ask14 [] xs).run (Indirect14.either tr T C) es s = .ok none s' ∧
      Spec.Sorted less (xs.map (Spec.valueOf (abs s'))) ∧
      (xs.map (Spec.valueOf (abs s'))).Perm (xs.map (Spec.valueOf (abs s))) ∧
      (∀ z, z ∉ xs → abs s' z = abs s z) ∧
      (tr.pocs = false → ∀ z, (abs s' z).map (·.alloc) = (abs s z).map (·.alloc)) ∧
      s'.heap = s.heap ∧ Spec.Silent s s' ∧ Spec.OwnedOnce s' := by
  rw [Conc.either14_eq]
  obtain ⟨o, s', h1, h2, h3, h4, h5, h6⟩ := Sorting.sort_run (Conc.queried14 tr T C S) (Sorting.does14 tr T C)
    (fun x y e s I hl => Sorting.quiet_cmp14 tr T C I _ hl e) (fun x y e s _ hl => Sorting.quiet_swap14 tr T hl e)
    (srt := True) (fun _ => ⟨Sorting.answers14 tr T hc, hw⟩) hn es (((Indirect14.reach_iff tr T _).1 h).inv S) hs
  obtain ⟨rfl, h2'⟩ := h2 trivial
  exact ⟨s', h1, h2', h3.perm, h3.others, h3.allocs, h4, h5, h6⟩

/-- indirect_cxx14.h: whatever the comparisons of the owned type do. -/
theorem C74_cxx14_whatever_comparisons_do (S : tr.Sound) (h : Indirect14.Reach tr T s) (hn : xs.Nodup)
    (hs : Spec.Swappable tr (abs s) xs) (C : TCmp V) (es : Nat → Env) :
    ∃ r s', (Sorting.sort Sorting.ask14 [] xs).run (Indirect14.either tr T C) es s = .ok r s' ∧
      (xs.map (Spec.valueOf (abs s'))).Perm (xs.map (Spec.valueOf (abs s))) ∧
      (∀ z, z ∉ xs → abs s' z = abs s z) ∧
      s'.heap = s.heap ∧ Spec.Silent s s' ∧ Spec.OwnedOnce s' := by
  rw [Conc.either14_eq]
  obtain ⟨o, s', h1, -, h3, h4, h5, h6⟩ := Sorting.sort_run (Conc.queried14 tr T C S) (Sorting.does14 tr T C)
    (fun x y e s I hl => Sorting.quiet_cmp14 tr T C I _ hl e) (fun x y e s _ hl => Sorting.quiet_swap14 tr T hl e)
    (srt := False) (less := fun _ _ => false) (fun h => h.elim) hn es (((Indirect14.reach_iff tr T _).1 h).inv S) hs
  exact ⟨o, s', h1, h3.perm, h3.others, h4, h5, h6⟩

end

/-! ## Swapping by moves -/

section
variable {L A R V X : Type} [DecidableEq L] [DecidableEq R]
open Indirect
variable {tr : ATraits A R} {T : TSpec V X} {s : St L A R (Obj V)} {t x y : L} {k l : Spec.Box A V}

/-- indirect.h: if the allocators are equal, swapping by moves, as a call of `std::swap` by that name does, exchanges the owned objects
by address, as `swap` does; no storage, no `T` and no other object is involved.  The allocators are exchanged if they
propagate on move assignment. -/
theorem C74_swap_by_moves (S : tr.Sound) (Rf : tr.Reflexive) (h : Indirect.Reach tr T s) (hx : abs s x = some k)
    (hy : abs s y = some l) (ht : Spec.Dead (abs s) t) (hxy : x ≠ y) (h1 : tr.eq k.alloc l.alloc = true)
    (h2 : tr.eq l.alloc k.alloc = true) (es : Nat → Env) :
    ∃ s', (swapByMoves t x y).run (Indirect.call tr (plain T)) es s = .ok true s' ∧
      addr s' x = addr s y ∧ addr s' y = addr s x ∧
      abs s' x = some ⟨if tr.pocma then l.alloc else k.alloc, l.val⟩ ∧
      abs s' y = some ⟨if tr.pocma then k.alloc else l.alloc, k.val⟩ ∧
      (∀ z, z ≠ x → z ≠ y → s'.hs z = s.hs z) ∧ s'.heap = s.heap ∧ Spec.Silent s s' := by
  obtain ⟨_, _, _, _, sa, sb, sc, s', ca, cb, cc, cd, -, -, -, -, -, h⟩ := Indirect.swap_steps S Rf h hx hy ht hxy h1 h2 es
  exact ⟨s', by simp only [swapByMoves, swapWith, Client.run, ca, cb, cc, cd, Nat.zero_add], h⟩

/-- indirect.h: `std::swap` by name and the member `swap` leave the same objects, addresses and storage, if the allocators are equal
and propagate on swap exactly if they do on move assignment. -/
theorem C74_swap_by_moves_is_swap (S : tr.Sound) (Rf : tr.Reflexive) (h : Indirect.Reach tr T s) (hx : abs s x = some k)
    (hy : abs s y = some l) (ht : Spec.Dead (abs s) t) (hxy : x ≠ y) (h1 : tr.eq k.alloc l.alloc = true)
    (h2 : tr.eq l.alloc k.alloc = true) (hp : tr.pocma = tr.pocs) (es : Nat → Env) (e : Env) :
    ∃ s₁ s₂, (swapByMoves t x y).run (Indirect.call tr (plain T)) es s = .ok true s₁ ∧
      Indirect.call tr (plain T) (.swap x y) e s = .ok .unit s₂ ∧ s₁.hs = s₂.hs ∧ s₁.heap = s₂.heap ∧ s₁.trace = s₂.trace := by
  obtain ⟨s₁, c1, a1, b1, d1, e1, o1, p1, t1⟩ := C74_swap_by_moves (T := T) S Rf h hx hy ht hxy h1 h2 es
  obtain ⟨s₂, c2, a2, b2, d2, e2, o2, p2, t2⟩ := C15_swap (T := T) hx hy hxy (.inr h1) e
  refine ⟨s₁, s₂, c1, c2, ?_, p1.trans p2.symm, Eq.trans t1 t2.symm⟩
  have same : ∀ z, addr s₁ z = addr s₂ z → abs s₁ z = abs s₂ z → (abs s₂ z).isSome → s₁.hs z = s₂.hs z := by
    intro z ha hb hs
    simp only [abs, absWith, addr] at ha hb hs
    cases h3 : s₁.hs z with
    | none => rw [h3] at hb; rw [← hb] at hs; cases hs
    | some m =>
      cases h4 : s₂.hs z with
      | none => rw [h4] at hs; cases hs
      | some n =>
        rw [h3, h4] at ha hb
        simp only [Option.map_some, Option.some.injEq, Spec.Box.mk.injEq, Option.bind_some] at ha hb
        obtain ⟨mp, ma⟩ := m
        obtain ⟨np, na⟩ := n
        simp only at ha hb
        rw [ha, hb.1]
  funext z
  by_cases hzx : z = x
  · subst hzx
    exact same _ (a1.trans a2.symm) (by rw [d1, d2, hp]) (by rw [d2]; rfl)
  · by_cases hzy : z = y
    · subst hzy
      exact same _ (b1.trans b2.symm) (by rw [e1, e2, hp]) (by rw [e2]; rfl)
    · rw [o1 z hzx hzy, o2 z hzx hzy]

/-- indirect_cxx14.h: the same. -/
theorem C74_cxx14_swap_by_moves (S : tr.Sound) (Rf : tr.Reflexive) (h : Indirect14.Reach tr T s) (hx : abs s x = some k)
    (hy : abs s y = some l) (ht : Spec.Dead (abs s) t) (hxy : x ≠ y) (h1 : tr.eq k.alloc l.alloc = true)
    (h2 : tr.eq l.alloc k.alloc = true) (es : Nat → Env) :
    ∃ s', (swapByMoves t x y).run (Indirect14.call tr (plain T)) es s = .ok true s' ∧
      addr s' x = addr s y ∧ addr s' y = addr s x ∧
      abs s' x = some ⟨if tr.pocma then l.alloc else k.alloc, l.val⟩ ∧
      abs s' y = some ⟨if tr.pocma then k.alloc else l.alloc, k.val⟩ ∧
      (∀ z, z ≠ x → z ≠ y → s'.hs z = s.hs z) ∧ s'.heap = s.heap ∧ Spec.Silent s s' := by
  have : Indirect14.call tr (plain T) = Indirect.call (L := L) tr (plain T.cxx14) :=
    funext fun o => funext fun e => funext fun s => Indirect14.call_eq tr T o e s
  rw [this]
  exact C74_swap_by_moves S Rf ((Indirect14.reach_iff tr T _).1 h) hx hy ht hxy h1 h2 es

end

section
variable {L A R Ty V X : Type} [DecidableEq L] [DecidableEq R] [DecidableEq Ty]
open Polymorphic
variable {tr : ATraits A R} {P : PSpec Ty V X} {s : St L A R (PBody Ty V)} {t x y : L} {k l : Spec.Box A (Ty × V)}

/-- polymorphic.h: the same; objects of different types are exchanged too.  `view s`: the storage, with owned objects as
pairs of a type and a value. -/
theorem C74_polymorphic_swap_by_moves (S : tr.Sound) (Rf : tr.Reflexive) (h : Polymorphic.Reach tr P s) (hx : abs s x = some k)
    (hy : abs s y = some l) (ht : Spec.Dead (abs s) t) (hxy : x ≠ y) (h1 : tr.eq k.alloc l.alloc = true)
    (h2 : tr.eq l.alloc k.alloc = true) (es : Nat → Env) :
    ∃ s', (pswapByMoves t x y).run (Polymorphic.call tr (plainP P)) es s = .ok true s' ∧
      addr s' x = addr s y ∧ addr s' y = addr s x ∧
      abs s' x = some ⟨if tr.pocma then l.alloc else k.alloc, l.val⟩ ∧
      abs s' y = some ⟨if tr.pocma then k.alloc else l.alloc, k.val⟩ ∧
      (∀ z, z ≠ x → z ≠ y → s'.hs z = s.hs z) ∧ (view s').heap = (view s).heap ∧ Spec.Silent s s' := by
  obtain ⟨_, _, _, _, sa, sb, sc, sd, ca, cb, cc, cd, v1, v2, v3, v4, v5, f1, f2, f3, f4, f5, f6, f7⟩ :=
    Indirect.swap_steps (T := P.owned) (s := view s) S Rf (h.sim S).2 (by rw [abs_view]; exact hx) (by rw [abs_view]; exact hy)
      (by rw [abs_view]; exact ht) hxy h1 h2 es
  obtain ⟨a, ca', rfl⟩ := h.call_ok_of (o := .move t x) S ⟨ht, _, hx⟩ ca
  have ra : Polymorphic.Reach tr P a := .ret (.move t x) _ _ h ⟨ht, _, hx⟩ ca'
  rw [abs_view] at v1 v2
  have la : Spec.PLegal tr (abs a) (.assignMove x y : POp L A Ty V X) := ⟨Option.isSome_iff_exists.1 v1, Option.isSome_iff_exists.1 v2⟩
  obtain ⟨b, cb', rfl⟩ := ra.call_ok_of (o := .assignMove x y) S la cb
  have rb : Polymorphic.Reach tr P b := .ret _ _ _ ra la cb'
  rw [abs_view] at v3 v4
  have lb : Spec.PLegal tr (abs b) (.assignMove y t : POp L A Ty V X) := ⟨Option.isSome_iff_exists.1 v3, Option.isSome_iff_exists.1 v4⟩
  obtain ⟨c, cc', rfl⟩ := rb.call_ok_of (o := .assignMove y t) S lb cc
  have rc : Polymorphic.Reach tr P c := .ret _ _ _ rb lb cc'
  rw [abs_view] at v5
  obtain ⟨d, cd', rfl⟩ := rc.call_ok_of (o := .destroy t) S (Option.isSome_iff_exists.1 v5) cd
  rw [abs_view] at f3 f4
  exact ⟨d, by simp only [pswapByMoves, swapWith, Client.run, ca', cb', cc', cd', Nat.zero_add], f1, f2, f3, f4, f5, f6, f7⟩

/-- polymorphic_cxx14.h: the same, for allocators with which allocator-extended moves are safe (C41). -/
theorem C74_polymorphic14_swap_by_moves (E : tr.Equality) (hq : tr.pocca = true → tr.alwaysEqual = true) (S : tr.Sound)
    (Rf : tr.Reflexive) (h : Polymorphic14.Reach tr P s) (hx : abs s x = some k)
    (hy : abs s y = some l) (ht : Spec.Dead (abs s) t) (hxy : x ≠ y) (h1 : tr.eq k.alloc l.alloc = true)
    (h2 : tr.eq l.alloc k.alloc = true) (es : Nat → Env) :
    ∃ s', (pswapByMoves t x y).run (Polymorphic14.call tr (plainP P)) es s = .ok true s' ∧
      addr s' x = addr s y ∧ addr s' y = addr s x ∧
      abs s' x = some ⟨if tr.pocma then l.alloc else k.alloc, l.val⟩ ∧
      abs s' y = some ⟨if tr.pocma then k.alloc else l.alloc, k.val⟩ ∧
      (∀ z, z ≠ x → z ≠ y → s'.hs z = s.hs z) ∧ (view s').heap = (view s).heap ∧ Spec.Silent s s' := by
  obtain ⟨s', h3, h4⟩ := C74_polymorphic_swap_by_moves S Rf (Polymorphic14.reach_of E hq h) hx hy ht hxy h1 h2 es
  refine ⟨s', ?_, h4⟩
  simp only [pswapByMoves, swapWith, Client.run,
    fun t x e s => Polymorphic14.call_eq tr E P (.move t x) e s trivial,
    fun t x e s => Polymorphic14.call_eq tr E P (.assignMove t x) e s trivial,
    fun t e s => Polymorphic14.call_eq tr E P (.destroy t) e s trivial] at h3 ⊢
  exact h3

end

/-! ## Examples -/

section
open Indirect
open Verif.Demo (alloc st st_reach)

/-- `<` of numbers. -/
def natLess (v w : Nat) : Bool := decide (v < w)

/-- The hypotheses hold for three objects, one of which is valueless, and the order of numbers. -/
example : Indirect.Reach (alloc false false true) Demo.T (st false false true) ∧ [3, 1, 4].Nodup ∧
    Spec.Swappable (alloc false false true) (abs (st false false true)) [3, 1, 4] ∧ Spec.StrictWeak natLess ∧
    Spec.Compares natCmp natLess ∧ Spec.Compares14 natCmp natLess := by
  refine ⟨st_reach _ _ _, by decide, ?_, ⟨?_, ?_, ?_⟩, ?_, fun _ _ _ => rfl⟩
  · intro x hx
    simp only [List.mem_cons, List.not_mem_nil, or_false] at hx
    rcases hx with rfl | rfl | rfl
    · exact ⟨⟨6, some 9⟩, by decide, fun _ _ _ _ => .inl rfl⟩
    · exact ⟨⟨5, some 7⟩, by decide, fun _ _ _ _ => .inl rfl⟩
    · exact ⟨⟨6, none⟩, by decide, fun _ _ _ _ => .inl rfl⟩
  · intro a; simp [natLess]
  · intro a b c; simp only [natLess, decide_eq_true_eq]; omega
  · intro a b c; simp only [natLess, decide_eq_false_iff_not]; omega
  · intro f v w
    simp only [Spec.qthree, natCmp, natLess]
    by_cases h : v < w
    · exact ⟨.less, by simp [h], by simp [h]⟩
    · by_cases h' : w < v
      · exact ⟨.greater, by simp [h, h'], by simp [h]⟩
      · exact ⟨.equivalent, by simp [h, h'], by simp [h]⟩

/-- The result, and the values of some objects. -/
def sorted (xs : List Nat) : Res (St Nat Nat Nat (Obj Nat)) (Option Exn) → Option (Option Exn × List (Option Nat))
  | .ok a s => some (a, xs.map fun x => Spec.valueOf (abs s) x)
  | _ => none

example : sorted [3, 1, 4] ((Sorting.sort Sorting.ask20 [] [3, 1, 4]).run (Indirect.either (alloc false false true) Demo.T natCmp)
    meagre (st false false true)) = some (none, [none, some 7, some 9]) := by decide +kernel

example : sorted [3, 1, 4] ((Sorting.sort Sorting.ask14 [] [3, 1, 4]).run (Indirect14.either (alloc false false true) Demo.T natCmp)
    meagre (st false false true)) = some (none, [none, some 7, some 9]) := by decide +kernel

/-- The hypotheses hold for an object and a valueless one with equal allocators; propagation does not matter. -/
example (a b c : Bool) : Indirect.Reach (alloc a b c) Demo.T (st a b c) ∧ abs (st a b c) 3 = some ⟨6, some 9⟩ ∧
    abs (st a b c) 4 = some ⟨6, none⟩ ∧ Spec.Dead (abs (st a b c)) 9 ∧ (alloc a b c).eq 6 6 = true := by
  refine ⟨st_reach _ _ _, ?_⟩
  cases a <;> cases b <;> cases c <;> exact ⟨by decide, by decide, by decide, by decide⟩

/-- The result, and the objects. -/
def exchanged (xs : List Nat) : Res (St Nat Nat Nat (Obj Nat)) Bool → Option (Bool × List (Option (Nat × Option Nat)))
  | .ok a s => some (a, xs.map fun x => (abs s x).map fun k => (k.alloc, k.val))
  | _ => none

example : exchanged [3, 4, 9] ((swapByMoves 9 3 4).run (Indirect.call (alloc false true false) (plain Demo.T)) meagre
    (st false true false)) = some (true, [some (6, none), some (6, some 9), none]) := by decide +kernel

example : exchanged [3, 4, 9] ((swapByMoves 9 3 4).run (Indirect14.call (alloc false true false) (plain Demo.T)) meagre
    (st false true false)) = some (true, [some (6, none), some (6, some 9), none]) := by decide +kernel

end

section
open Polymorphic
open Verif.Demo (alloc)

/-- The hypotheses hold for objects of types 1 and 2 with equal allocators. -/
example (a b c : Bool) : Polymorphic.Reach (alloc a b c) PDemo.P (PDemo.st a b c) ∧
    abs (PDemo.st a b c) 1 = some ⟨5, some (1, 1007)⟩ ∧ abs (PDemo.st a b c) 2 = some ⟨5, some (2, 2008)⟩ ∧
    Spec.Dead (abs (PDemo.st a b c)) 9 ∧ (alloc a b c).eq 5 5 = true := by
  refine ⟨PDemo.st_reach _ _ _, ?_⟩
  cases a <;> cases b <;> cases c <;> exact ⟨by decide, by decide, by decide, by decide⟩

/-- The types and values of the objects. -/
def pexchanged (xs : List Nat) : Res (St Nat Nat Nat (PBody Nat Nat)) Bool → Option (Bool × List (Option (Nat × Option (Nat × Nat))))
  | .ok a s => some (a, xs.map fun x => (abs s x).map fun k => (k.alloc, k.val))
  | _ => none

set_option synthInstance.maxSize 1000 in
example : pexchanged [1, 2, 9] ((pswapByMoves 9 1 2).run (Polymorphic.call (alloc false true false) (plainP PDemo.P)) meagre
    (PDemo.st false true false)) = some (true, [some (5, some (2, 2008)), some (5, some (1, 1007)), none]) := by decide +kernel

/-- The same objects made with the C++14 header. -/
def two : PDemo.Hist := [
  (.make 1 (some 5) (.from 1 (.arg 7)), Demo.fine 100), (.make 2 (some 5) (.inPlace 2 [3, 5]), Demo.fine 101)]

def s14 : St Nat Nat Nat (PBody Nat Nat) :=
  match Polymorphic14.run (alloc false true false) PDemo.P two St.init with
  | .done _ s => s
  | _ => St.init

theorem s14_reach : Polymorphic14.Reach (alloc false true false) PDemo.P s14 := by
  have hl : Polymorphic14.LegalRun (alloc false true false) PDemo.P two St.init := by
    unfold Polymorphic14.LegalRun
    exact ⟨by decide, by decide, trivial⟩
  unfold s14
  cases hr : Polymorphic14.run (alloc false true false) PDemo.P two St.init with
  | done log s => exact Polymorphic14.Reach.run .init hl hr
  | _ => exact .init

example : Polymorphic14.Reach (alloc false true false) PDemo.P s14 ∧ abs s14 1 = some ⟨5, some (1, 1007)⟩ ∧
    abs s14 2 = some ⟨5, some (2, 2008)⟩ ∧ Spec.Dead (abs s14) 9 :=
  ⟨s14_reach, by decide +kernel, by decide +kernel, by decide +kernel⟩

set_option synthInstance.maxSize 1000 in
example : pexchanged [1, 2, 9] ((pswapByMoves 9 1 2).run (Polymorphic14.call (alloc false true false) (plainP PDemo.P)) meagre
    s14) = some (true, [some (5, some (2, 2008)), some (5, some (1, 1007)), none]) := by decide +kernel

end
end Verif.Props
