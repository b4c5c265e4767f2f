import Verif.PDemo
import Verif.Proofs.VectorUniform

/-!
# C64: vectors of `indirect` or `polymorphic`

`H`: the element type, `mk` the constructors of variables of that type; `vstate abs s`: the vectors and variables of a state
as lists and values; `Vector.Reach … s`: a program that uses vectors and variables can get into state `s`.
`Spec.Follows ρ …` is what the theorems use of the element type; `C64_elements_…` show that `indirect` of both headers and
`polymorphic` have it, in vectors that construct elements without an allocator (`std::vector`), and in vectors that pass
their allocator on (`std::pmr::vector`).
`N` is the buffer that the allocator of the vector returns if it is asked, `es` what happens in the functions of elements.
-/

set_option autoImplicit false
set_option linter.unusedSectionVars false

namespace Verif.Props
open Verif Spec Vector

/-! ## Elements -/

section
variable {L A R V X Ty : Type} [DecidableEq L] [DecidableEq R] [DecidableEq Ty] {tr : ATraits A R}

theorem C64_elements_indirect (S : tr.Sound) (Rf : tr.Reflexive) (T : TSpec V X) :
    Follows (Rules.plain tr T) Indirect.abs (Composite.IOk tr) (Holder.indirect (L := L) tr T) :=
  follows_plain (Composite.indirect_behaves S Rf T)

theorem C64_elements_indirect14 (S : tr.Sound) (Rf : tr.Reflexive) (T : TSpec V X) :
    Follows (Rules.plain tr T.cxx14) Indirect.abs (Composite.IOk tr) (Holder.indirect14 (L := L) tr T) :=
  follows_plain (Composite.indirect14_behaves S Rf T)

theorem C64_elements_polymorphic (S : tr.Sound) (Rf : tr.Reflexive) (P : PSpec Ty V X) :
    Follows (Rules.plain tr P.owned) Polymorphic.abs (Composite.POk tr) (Holder.polymorphic (L := L) tr P) :=
  follows_plain (Composite.polymorphic_behaves S Rf P)

theorem C64_elements_indirect_scoped (S : tr.Sound) (Rf : tr.Reflexive) (T : TSpec V X) (α : A) :
    Follows (Rules.scoped α tr T) Indirect.abs (Composite.IOk tr) (Holder.indirectIn (L := L) α tr T) :=
  follows_indirectIn S Rf T α

theorem C64_elements_polymorphic_scoped (S : tr.Sound) (Rf : tr.Reflexive) (P : PSpec Ty V X) (α : A) :
    Follows (Rules.scoped α tr P.owned) Polymorphic.abs (Composite.POk tr) (Holder.polymorphicIn (L := L) α tr P) :=
  follows_polymorphicIn S Rf P α

end

/-! ## Operations -/

section
variable {C S A W I J F : Type} [DecidableEq C]
variable {H : Holder (Vector.Cell C) S W I F} {mk : C → J → Env → M S Unit} {abs : S → Boxes (Vector.Cell C) A W} {Ok : S → Prop}
variable {ρ : Rules A W} {init : S} {s : VecS C S} {x y : C} {N : Buf} {as bs : List (Box A W)} {b c : Box A W}

/-- No legal operation in a reachable state is undefined behaviour. -/
theorem C64_no_undefined_behaviour (B : Follows ρ abs Ok H) (hmk : Makes abs Ok mk) (h0 : Ok init)
    (hd : ∀ l, abs init l = none) (h : Reach H mk abs init s) (o : VecOp C I J F) (hN : FreshBuf s N) (es : Nat → Nat → Env)
    (hl : VecLegal (vstate abs s) o) :
    (∃ s', call H mk o N es s = .ok () s') ∨ (∃ e s', call H mk o N es s = .threw e s') ∨
      call H mk o N es s = .terminated := by
  have := call_inv B hmk (h.inv B hmk h0 hd) o hN hl es
  cases hc : call H mk o N es s with
  | ok u s' => exact .inl ⟨s', rfl⟩
  | threw e s' => exact .inr (.inl ⟨e, s', rfl⟩)
  | terminated => exact .inr (.inr rfl)
  | ub u => rw [hc] at this; exact this.elim
  | diverged => rw [hc] at this; exact this.elim

/-- `x.emplace_back(args…)`: a new element at the end; the others stay, or are relocated if there is no room.  If an
exception is thrown, no vector and no variable has changed. -/
theorem C64_emplace_back (B : Follows ρ abs Ok H) (hmk : Makes abs Ok mk) (h0 : Ok init) (hd : ∀ l, abs init l = none)
    (h : Reach H mk abs init s) (hN : FreshBuf s N) (hx : (vstate abs s).lists x = some bs) (i : I)
    (es : Nat → Nat → Env) :
    Ends (call H mk (.push x (.make i)) N es s)
      (fun s' => ∃ b bs', ρ.Make b ∧ (Room s x → bs' = bs) ∧ (¬ Room s x → Relocated ρ H bs bs') ∧
        vstate abs s' = (vstate abs s).setList x (some (bs' ++ [b])))
      (fun s' => vstate abs s' = vstate abs s) False := by
  refine (push_call B (h.inv B hmk h0 hd) hN hx (a := .make i) trivial es).mono ?_ ?_ (fun h => h)
  · rintro s' ⟨_, b, σ₁, bs₁, bs', ⟨hm, rfl⟩, h1, h2, h3, h4⟩
    rw [hx] at h1; cases h1
    exact ⟨b, bs', hm, h2, h3, h4⟩
  · rintro s' ⟨_, h | ⟨_, _, b, hm⟩⟩
    · exact h
    · exact hm.2

/-- `x.push_back(c)`, where `c` is a variable or an element of a vector, possibly of `x` itself: a copy of `c` at the end.
If an exception is thrown, no vector and no variable has changed. -/
theorem C64_push_back_copy (B : Follows ρ abs Ok H) (hmk : Makes abs Ok mk) (h0 : Ok init) (hd : ∀ l, abs init l = none)
    (h : Reach H mk abs init s) (hN : FreshBuf s N) (hx : (vstate abs s).lists x = some bs) {r : Vector.Ref C}
    (hr : (vstate abs s).get r = some c) (es : Nat → Nat → Env) :
    Ends (call H mk (.push x (.copy r)) N es s)
      (fun s' => ∃ b bs', ρ.Copy c b ∧ (Room s x → bs' = bs) ∧ (¬ Room s x → Relocated ρ H bs bs') ∧
        vstate abs s' = (vstate abs s).setList x (some (bs' ++ [b])))
      (fun s' => vstate abs s' = vstate abs s) False := by
  refine (push_call B (h.inv B hmk h0 hd) hN hx (a := .copy r) ⟨c, hr⟩ es).mono ?_ ?_ (fun h => h)
  · rintro s' ⟨_, b, σ₁, bs₁, bs', ⟨c', hc, hm, rfl⟩, h1, h2, h3, h4⟩
    rw [hx] at h1; cases h1
    rw [hr] at hc; cases hc
    exact ⟨b, bs', hm, h2, h3, h4⟩
  · rintro s' ⟨_, h | ⟨_, _, b, _, _, _, hm⟩⟩
    · exact h
    · exact hm

/-- `x.push_back(std::move(c))`: an element moved from `c` at the end, and what is left of `c`.  If an exception is thrown,
only `c` may have changed: by a move that threw, or by a move that succeeded before the relocation of the other elements
threw. -/
theorem C64_push_back_move (B : Follows ρ abs Ok H) (hmk : Makes abs Ok mk) (h0 : Ok init) (hd : ∀ l, abs init l = none)
    (h : Reach H mk abs init s) (hN : FreshBuf s N) (hx : (vstate abs s).lists x = some bs) {r : Vector.Ref C}
    (hr : (vstate abs s).get r = some c) (es : Nat → Nat → Env) :
    Ends (call H mk (.push x (.move r)) N es s)
      (fun s' => ∃ b q bs₁ bs', ρ.Move c b q ∧ ((vstate abs s).set r q).lists x = some bs₁ ∧ (Room s x → bs' = bs₁) ∧
        (¬ Room s x → Relocated ρ H bs₁ bs') ∧ vstate abs s' = ((vstate abs s).set r q).setList x (some (bs' ++ [b])))
      (fun s' => vstate abs s' = vstate abs s ∨ ∃ q, vstate abs s' = (vstate abs s).set r q ∧
        (ρ.MoveThrew c q ∨ (¬ Room s x ∧ H.nothrowMove = false ∧ ∃ b, ρ.Move c b q))) False := by
  refine (push_call B (h.inv B hmk h0 hd) hN hx (a := .move r) ⟨c, hr⟩ es).mono ?_ ?_ (fun h => h)
  · rintro s' ⟨_, b, σ₁, bs₁, bs', ⟨c', q, hc, hm, rfl⟩, h1, h2, h3, h4⟩
    rw [hr] at hc; cases hc
    exact ⟨b, q, bs₁, bs', hm, h1, h2, h3, h4⟩
  · rintro s' ⟨_, (h | ⟨c', q, hc, hm, h⟩) | ⟨h1, h2, b, c', q, hc, hm, h⟩⟩
    · exact .inl h
    · rw [hr] at hc; cases hc
      exact .inr ⟨q, h, .inl hm⟩
    · rw [hr] at hc; cases hc
      exact .inr ⟨q, h, .inr ⟨h1, h2, b, hm⟩⟩

/-- `x.pop_back()` removes the last element and changes nothing else; it never throws. -/
theorem C64_pop_back (B : Follows ρ abs Ok H) (hmk : Makes abs Ok mk) (h0 : Ok init) (hd : ∀ l, abs init l = none)
    (h : Reach H mk abs init s) (hx : (vstate abs s).lists x = some bs) (hb : 0 < bs.length) (es : Nat → Nat → Env) :
    Ends (call H mk (.pop x) N es s) (fun s' => vstate abs s' = (vstate abs s).setList x (some bs.dropLast))
      (fun _ => False) False :=
  (pop_call B (h.inv B hmk h0 hd) hx hb es).mono (fun _ h => h.2) (fun _ h => h) (fun h => h)

/-- `x.reserve(n)` keeps the elements, or relocates them if the capacity was less than `n`; the capacity is at least `n`
afterwards.  If an exception is thrown, nothing has changed. -/
theorem C64_reserve (B : Follows ρ abs Ok H) (hmk : Makes abs Ok mk) (h0 : Ok init) (hd : ∀ l, abs init l = none)
    (h : Reach H mk abs init s) (hN : FreshBuf s N) (hx : (vstate abs s).lists x = some bs) (n : Nat)
    (es : Nat → Nat → Env) :
    Ends (call H mk (.reserve x n) N es s)
      (fun s' => ∃ bs', (n ≤ capacity s x → bs' = bs) ∧ (capacity s x < n → Relocated ρ H bs bs') ∧
        vstate abs s' = (vstate abs s).setList x (some bs') ∧ n ≤ capacity s' x)
      (fun s' => vstate abs s' = vstate abs s) False :=
  (reserve_call B (h.inv B hmk h0 hd) hN hx n es).mono (fun _ h => h.2) (fun _ h => h.2) (fun h => h)

/-- `x.erase(x.begin() + i)`: the elements before `i` stay, those after it are move assigned one place down.  If an exception
is thrown, that is done for some of them, the elements after that are as before, and the vector has its old size.  It ends the
program only if a move assignment does. -/
theorem C64_erase (B : Follows ρ abs Ok H) (hmk : Makes abs Ok mk) (h0 : Ok init) (hd : ∀ l, abs init l = none)
    (h : Reach H mk abs init s) (hx : (vstate abs s).lists x = some bs) {i : Nat} {t : Box A W} (hi : bs[i]? = some t)
    (es : Nat → Nat → Env) :
    Ends (call H mk (.erase x i) N es s)
      (fun s' => ∃ res r, Shifted ρ t (bs.drop (i + 1)) res r ∧
        vstate abs s' = (vstate abs s).setList x (some (bs.take i ++ res)))
      (fun s' => ∃ j a c c' res, Shifted ρ t ((bs.drop (i + 1)).take j) res a ∧ (bs.drop (i + 1))[j]? = some c ∧
        ρ.MoveAssignThrew a c c' ∧
        vstate abs s' = (vstate abs s).setList x (some (bs.take i ++ (res ++ [a, c'] ++ bs.drop (i + 1 + (j + 1))))))
      (∃ j a c res, Shifted ρ t ((bs.drop (i + 1)).take j) res a ∧ (bs.drop (i + 1))[j]? = some c ∧ ρ.Terminates a c) :=
  (erase_call B (h.inv B hmk h0 hd) hx hi es).mono (fun _ h => h.2) (fun _ h => h.2) (fun h => h)

/-- An empty vector. -/
theorem C64_empty (B : Follows ρ abs Ok H) (hmk : Makes abs Ok mk) (h0 : Ok init) (hd : ∀ l, abs init l = none)
    (h : Reach H mk abs init s) (hN : FreshBuf s N) (hx : (vstate abs s).lists x = none) (es : Nat → Nat → Env) :
    Ends (call H mk (.empty x) N es s) (fun s' => vstate abs s' = (vstate abs s).setList x (some []))
      (fun _ => False) False :=
  (empty_call (h.inv B hmk h0 hd) hN hx es).mono (fun _ h => h.2) (fun _ h => h) (fun h => h)

/-- `auto x = y`: copies of all elements.  If an exception is thrown, there is no `x` and nothing has changed. -/
theorem C64_copy (B : Follows ρ abs Ok H) (hmk : Makes abs Ok mk) (h0 : Ok init) (hd : ∀ l, abs init l = none)
    (h : Reach H mk abs init s) (hN : FreshBuf s N) (hx : (vstate abs s).lists x = none)
    (hy : (vstate abs s).lists y = some bs) (es : Nat → Nat → Env) :
    Ends (call H mk (.copy x y) N es s)
      (fun s' => ∃ bs', Each ρ.Copy bs bs' ∧ vstate abs s' = (vstate abs s).setList x (some bs'))
      (fun s' => vstate abs s' = vstate abs s) False :=
  (copy_call B (h.inv B hmk h0 hd) hN hx hy es).mono (fun _ h => h.2) (fun _ h => h.2) (fun h => h)

/-- `auto x = std::move(y)`: `x` has the very elements, `y` is empty; it never throws. -/
theorem C64_move (B : Follows ρ abs Ok H) (hmk : Makes abs Ok mk) (h0 : Ok init) (hd : ∀ l, abs init l = none)
    (h : Reach H mk abs init s) (hN : FreshBuf s N) (hx : (vstate abs s).lists x = none)
    (hy : (vstate abs s).lists y = some bs) (es : Nat → Nat → Env) :
    Ends (call H mk (.move x y) N es s)
      (fun s' => vstate abs s' = ((vstate abs s).setList x (some bs)).setList y (some [])) (fun _ => False) False :=
  (move_call (h.inv B hmk h0 hd) hN hx hy es).mono (fun _ h => h.2) (fun _ h => h) (fun h => h)

/-- `x = y`: elements in place are assigned, the others copied, all copied if there was not enough capacity.  If an exception
is thrown, each element of `x` is as before, or assigned, or what a failed assignment left; with too little capacity nothing
has changed. -/
theorem C64_assign_copy (B : Follows ρ abs Ok H) (hmk : Makes abs Ok mk) (h0 : Ok init) (hd : ∀ l, abs init l = none)
    (h : Reach H mk abs init s) (hN : FreshBuf s N) (hne : x ≠ y) (hx : (vstate abs s).lists x = some as)
    (hy : (vstate abs s).lists y = some bs) (es : Nat → Nat → Env) :
    Ends (call H mk (.assignCopy x y) N es s)
      (fun s' => ∃ as', ListAssigned ρ (capacity s x) as bs as' ∧ vstate abs s' = (vstate abs s).setList x (some as'))
      (fun s' => ∃ as', (capacity s x < bs.length → as' = as) ∧ PartlyAssigned ρ as bs as' ∧
        vstate abs s' = (vstate abs s).setList x (some as')) False :=
  (assignCopy_call B (h.inv B hmk h0 hd) hN hne hx hy es).mono (fun _ h => h.2) (fun _ h => h.2) (fun h => h)

/-- `x = x` changes nothing and never throws. -/
theorem C64_assign_self (B : Follows ρ abs Ok H) (hmk : Makes abs Ok mk) (h0 : Ok init) (hd : ∀ l, abs init l = none)
    (h : Reach H mk abs init s) (hx : (vstate abs s).lists x = some as) (es : Nat → Nat → Env) :
    Ends (call H mk (.assignCopy x x) N es s) (fun s' => vstate abs s' = vstate abs s) (fun _ => False) False :=
  (assignSelf_call (h.inv B hmk h0 hd) hx es).mono (fun _ h => h.2) (fun _ h => h) (fun h => h)

/-- `x = std::move(y)`: `x` has the very elements of `y`, `y` is empty; it never throws. -/
theorem C64_assign_move (B : Follows ρ abs Ok H) (hmk : Makes abs Ok mk) (h0 : Ok init) (hd : ∀ l, abs init l = none)
    (h : Reach H mk abs init s) (hN : FreshBuf s N) (hne : x ≠ y) (hx : (vstate abs s).lists x = some as)
    (hy : (vstate abs s).lists y = some bs) (es : Nat → Nat → Env) :
    Ends (call H mk (.assignMove x y) N es s)
      (fun s' => vstate abs s' = ((vstate abs s).setList x (some bs)).setList y (some [])) (fun _ => False) False :=
  (assignMove_call B (h.inv B hmk h0 hd) hN hne hx hy es).mono (fun _ h => h.2) (fun _ h => h) (fun h => h)

/-- `x.swap(y)` exchanges the elements; it never throws. -/
theorem C64_swap (B : Follows ρ abs Ok H) (hmk : Makes abs Ok mk) (h0 : Ok init) (hd : ∀ l, abs init l = none)
    (h : Reach H mk abs init s) (hx : (vstate abs s).lists x = some as) (hy : (vstate abs s).lists y = some bs)
    (es : Nat → Nat → Env) :
    Ends (call H mk (.swap x y) N es s)
      (fun s' => vstate abs s' = ((vstate abs s).setList x (some bs)).setList y (some as)) (fun _ => False) False :=
  (swap_call (h.inv B hmk h0 hd) hx hy es).mono (fun _ h => h.2) (fun _ h => h) (fun h => h)

/-- Destruction of a vector changes no other vector and no variable; it never throws. -/
theorem C64_destroy (B : Follows ρ abs Ok H) (hmk : Makes abs Ok mk) (h0 : Ok init) (hd : ∀ l, abs init l = none)
    (h : Reach H mk abs init s) (hx : (vstate abs s).lists x = some bs) (es : Nat → Nat → Env) :
    Ends (call H mk (.destroy x) N es s) (fun s' => vstate abs s' = (vstate abs s).setList x none) (fun _ => False) False :=
  (destroy_call B (h.inv B hmk h0 hd) hx es).mono (fun _ h => h.2) (fun _ h => h) (fun h => h)

/-- Changing what one element (or variable) owns changes no other element of any vector, and no other variable. -/
theorem C64_modify (B : Follows ρ abs Ok H) (hmk : Makes abs Ok mk) (h0 : Ok init) (hd : ∀ l, abs init l = none)
    (h : Reach H mk abs init s) {r : Vector.Ref C} {a : A} {v : W} (f : F) (hr : (vstate abs s).get r = some ⟨a, some v⟩)
    (es : Nat → Nat → Env) :
    Ends (call H mk (.modify r f) N es s)
      (fun s' => vstate abs s' = (vstate abs s).set r ⟨a, some (H.app f v)⟩) (fun _ => False) False :=
  (modify_call B (h.inv B hmk h0 hd) f hr es).mono (fun _ h => h.2) (fun _ h => h) (fun h => h)

/-- Construction and destruction of variables change no vector. -/
theorem C64_variables (B : Follows ρ abs Ok H) (hmk : Makes abs Ok mk) (h0 : Ok init) (hd : ∀ l, abs init l = none)
    (h : Reach H mk abs init s) (es : Nat → Nat → Env) :
    ((vstate abs s).vars y = none → ∀ j, Ends (call H mk (.make y j) N es s)
      (fun s' => ∃ b, vstate abs s' = (vstate abs s).setVar y (some b)) (fun s' => vstate abs s' = vstate abs s) False) ∧
    ((vstate abs s).vars y = some b → Ends (call H mk (.destroyVar y) N es s)
      (fun s' => vstate abs s' = (vstate abs s).setVar y none) (fun _ => False) False) :=
  ⟨fun hy j => (make_call hmk (h.inv B hmk h0 hd) hy j es).mono (fun _ h => h.2) (fun _ h => h.2) (fun h => h),
   fun hy => (destroyVar_call B (h.inv B hmk h0 hd) hy es).mono (fun _ h => h.2) (fun _ h => h) (fun h => h)⟩

end

/-! ## With the storage of the elements -/

section
variable {C A R V X Ty : Type} [DecidableEq C] [DecidableEq R] [DecidableEq Ty] {tr : ATraits A R}

/-- A program with vectors and variables of `indirect<T, A>`. -/
abbrev IReach (tr : ATraits A R) (T : TSpec V X) : VecS C (St (Vector.Cell C) A R (Obj V)) → Prop :=
  Vector.Reach (Holder.indirect tr T) (fun y j e => (Holder.indirect tr T).make (.var y) j e) Indirect.abs St.init

/-- A program with vectors and variables of `polymorphic<T, A>`. -/
abbrev PReach (tr : ATraits A R) (P : PSpec Ty V X) : VecS C (St (Vector.Cell C) A R (PBody Ty V)) → Prop :=
  Vector.Reach (Holder.polymorphic tr P) (fun y j e => (Holder.polymorphic tr P).make (.var y) j e) Polymorphic.abs St.init

theorem iok_start : Composite.IOk tr (St.init : St (Vector.Cell C) A R (Obj V)) := ⟨Verif.Inv.init, rfl⟩

theorem pok_start : Composite.POk tr (St.init : St (Vector.Cell C) A R (PBody Ty V)) :=
  ⟨Polymorphic.good_init, Verif.Inv.init, rfl⟩

theorem iinv {T : TSpec V X} (S : tr.Sound) (Rf : tr.Reflexive) {s : VecS C (St (Vector.Cell C) A R (Obj V))}
    (h : IReach tr T s) : Vector.Inv Indirect.abs (Composite.IOk tr) s :=
  h.inv (C64_elements_indirect S Rf T) (makes_of (Composite.indirect_behaves S Rf T)) iok_start fun _ => rfl

theorem pinv {P : PSpec Ty V X} (S : tr.Sound) (Rf : tr.Reflexive) {s : VecS C (St (Vector.Cell C) A R (PBody Ty V))}
    (h : PReach tr P s) : Vector.Inv Polymorphic.abs (Composite.POk tr) s :=
  h.inv (C64_elements_polymorphic S Rf P) (makes_of (Composite.polymorphic_behaves S Rf P))
    pok_start fun _ => rfl

theorem all_dead {S W : Type} {abs : S → Boxes (Vector.Cell C) A W} {Ok : S → Prop} {s : VecS C S} (K : Vector.Inv abs Ok s)
    (hl : ∀ x, (vstate abs s).lists x = none) (hv : ∀ y, (vstate abs s).vars y = none) (l : Vector.Cell C) : abs s.1 l = none := by
  cases l with
  | elem b i => exact K.rep.used b (fun x v h => by rw [K.rep.of_none (hl x)] at h; cases h) i
  | var y => exact hv y

/-- Nothing leaks: when all vectors and variables are gone, every block that was ever allocated has been deallocated, and every
`T` that was ever constructed has been destroyed. -/
theorem C64_indirect_no_leak (S : tr.Sound) (Rf : tr.Reflexive) {T : TSpec V X}
    {s : VecS C (St (Vector.Cell C) A R (Obj V))} (h : IReach tr T s) (hl : ∀ x, (vstate Indirect.abs s).lists x = none)
    (hv : ∀ y, (vstate Indirect.abs s).vars y = none) (p : Addr) :
    s.1.heap p = none ∧ Spec.allocsAt p s.1.trace = Spec.deallocsAt p s.1.trace ∧
      Spec.constructsAt p s.1.trace = Spec.destroysAt p s.1.trace :=
  Composite.iok_no_leak (iinv S Rf h).ok (all_dead (iinv S Rf h) hl hv) p

/-- The same for `polymorphic`. -/
theorem C64_polymorphic_no_leak (S : tr.Sound) (Rf : tr.Reflexive) {P : PSpec Ty V X}
    {s : VecS C (St (Vector.Cell C) A R (PBody Ty V))} (h : PReach tr P s)
    (hl : ∀ x, (vstate Polymorphic.abs s).lists x = none) (hv : ∀ y, (vstate Polymorphic.abs s).vars y = none) (p : Addr) :
    s.1.heap p = none ∧ Spec.allocsAt p s.1.trace = Spec.deallocsAt p s.1.trace ∧
      Spec.constructsAt p s.1.trace = Spec.destroysAt p s.1.trace := by
  have K := pinv S Rf h
  have := Composite.iok_no_leak K.ok.2 (fun l => by rw [Polymorphic.abs_view]; exact all_dead K hl hv l) p
  refine ⟨?_, this.2⟩
  have h1 := this.1
  simp only [Polymorphic.view] at h1
  cases hh : s.1.heap p with
  | none => rfl
  | some c => rw [hh] at h1; cases h1

/-! ### Growth does not move what elements own

`placed abs addr`: elements with the value and the address of what they own. -/

section
variable {T : TSpec V X} {s : VecS C (St (Vector.Cell C) A R (Obj V))} {x : C} {N : Buf} {bs : List (Box A (V × Addr))}
variable {mk : C → Option A × TArgs X → Env → M (St (Vector.Cell C) A R (Obj V)) Unit}

/-- With `std::allocator` (or any whose `is_always_equal` holds): when a vector of `indirect` grows by `emplace_back`,
`push_back` of a copy of anything, or `push_back` of a moved variable or element of another vector, its elements own the very
objects that they owned before, at the same addresses: references to `*x[i]` stay valid. -/
theorem C64_growth_keeps_objects (S : tr.Sound) (Rf : tr.Reflexive) (ha : tr.alwaysEqual = true) (h : IReach tr T s)
    (hN : FreshBuf s N) (hx : (vstate (placed Indirect.abs addr) s).lists x = some bs)
    (a : Arg C (Option A × TArgs X)) (hl : VecLegal (F := V → V) (J := Option A × TArgs X) (vstate (placed Indirect.abs addr) s) (.push x a))
    (hself : ∀ i, a ≠ .move (.at x i)) (es : Nat → Nat → Env) :
    Ends (call (Holder.indirect tr T) mk (.push x a) N es s)
      (fun s' => ∃ b, (vstate (placed Indirect.abs addr) s').lists x = some (bs ++ [b]))
      (fun s' => (vstate (placed Indirect.abs addr) s').lists x = some bs) False :=
  push_keeps (Holder.indirect tr T) (follows_placed (Composite.indirect_behaves S Rf T) (indirect_located S Rf T)) (fun h => h.1)
    (iinv S Rf h).placed ha hN hx a hl hself es

/-- The same for `reserve`, whether it returns or throws. -/
theorem C64_reserve_keeps_objects (S : tr.Sound) (Rf : tr.Reflexive) (ha : tr.alwaysEqual = true) (h : IReach tr T s)
    (hN : FreshBuf s N) (hx : (vstate (placed Indirect.abs addr) s).lists x = some bs) (n : Nat) (es : Nat → Nat → Env) :
    Ends (call (Holder.indirect tr T) mk (.reserve x n) N es s)
      (fun s' => vstate (placed Indirect.abs addr) s' = vstate (placed Indirect.abs addr) s)
      (fun s' => vstate (placed Indirect.abs addr) s' = vstate (placed Indirect.abs addr) s) False :=
  reserve_keeps (Holder.indirect tr T) (follows_placed (Composite.indirect_behaves S Rf T) (indirect_located S Rf T)) (fun h => h.1)
    (iinv S Rf h).placed ha hN hx n es

/-- `x.erase(x.begin() + i)`, if all elements of `x` have the same allocator: element `i` is gone, the others own the very
objects that they owned before; it never throws and never ends the program.  For any allocator traits. -/
theorem C64_erase_keeps_objects (S : tr.Sound) (Rf : tr.Reflexive) (h : IReach tr T s)
    (hx : (vstate (placed Indirect.abs addr) s).lists x = some bs) {i : Nat} (hi : i < bs.length) (α : A)
    (hα : ∀ b ∈ bs, b.alloc = α) (es : Nat → Nat → Env) :
    Ends (call (Holder.indirect tr T) mk (.erase x i) N es s)
      (fun s' => vstate (placed Indirect.abs addr) s' = (vstate (placed Indirect.abs addr) s).setList x (some (bs.eraseIdx i)))
      (fun _ => False) False := by
  have := erase_uniform (mk := mk) (N := N) (follows_placed (Composite.indirect_behaves S Rf T) (indirect_located S Rf T))
    (iinv S Rf h).placed hx hi hα (placed_exact (Rf.eq_refl α))
    (fun h h1 h2 => by have := h.1; rw [h1, h2, Rf.eq_refl] at this; cases this)
    (fun h h1 h2 => by have := h.1; rw [h1, h2, Rf.eq_refl] at this; cases this) es
  rwa [call_placed] at this

end

section
variable {P : PSpec Ty V X} {s : VecS C (St (Vector.Cell C) A R (PBody Ty V))} {x : C} {N : Buf}
variable {bs : List (Box A ((Ty × V) × Addr))}
variable {mk : C → Option A × Option Ty × TArgs X → Env → M (St (Vector.Cell C) A R (PBody Ty V)) Unit}

/-- The same for `polymorphic`. -/
theorem C64_polymorphic_growth_keeps_objects (S : tr.Sound) (Rf : tr.Reflexive) (ha : tr.alwaysEqual = true)
    (h : PReach tr P s) (hN : FreshBuf s N) (hx : (vstate (placed Polymorphic.abs addr) s).lists x = some bs)
    (a : Arg C (Option A × Option Ty × TArgs X))
    (hl : VecLegal (F := Ty → V → V) (J := Option A × Option Ty × TArgs X) (vstate (placed Polymorphic.abs addr) s) (.push x a))
    (hself : ∀ i, a ≠ .move (.at x i)) (es : Nat → Nat → Env) :
    Ends (call (Holder.polymorphic tr P) mk (.push x a) N es s)
      (fun s' => ∃ b, (vstate (placed Polymorphic.abs addr) s').lists x = some (bs ++ [b]))
      (fun s' => (vstate (placed Polymorphic.abs addr) s').lists x = some bs) False :=
  push_keeps (Holder.polymorphic tr P) (follows_placed (Composite.polymorphic_behaves S Rf P) (polymorphic_located S Rf P)) (fun h => h.1)
    (pinv S Rf h).placed ha hN hx a hl hself es

theorem C64_polymorphic_reserve_keeps_objects (S : tr.Sound) (Rf : tr.Reflexive) (ha : tr.alwaysEqual = true)
    (h : PReach tr P s) (hN : FreshBuf s N) (hx : (vstate (placed Polymorphic.abs addr) s).lists x = some bs) (n : Nat)
    (es : Nat → Nat → Env) :
    Ends (call (Holder.polymorphic tr P) mk (.reserve x n) N es s)
      (fun s' => vstate (placed Polymorphic.abs addr) s' = vstate (placed Polymorphic.abs addr) s)
      (fun s' => vstate (placed Polymorphic.abs addr) s' = vstate (placed Polymorphic.abs addr) s) False :=
  reserve_keeps (Holder.polymorphic tr P) (follows_placed (Composite.polymorphic_behaves S Rf P) (polymorphic_located S Rf P)) (fun h => h.1)
    (pinv S Rf h).placed ha hN hx n es

theorem C64_polymorphic_erase_keeps_objects (S : tr.Sound) (Rf : tr.Reflexive) (h : PReach tr P s)
    (hx : (vstate (placed Polymorphic.abs addr) s).lists x = some bs) {i : Nat} (hi : i < bs.length) (α : A)
    (hα : ∀ b ∈ bs, b.alloc = α) (es : Nat → Nat → Env) :
    Ends (call (Holder.polymorphic tr P) mk (.erase x i) N es s)
      (fun s' => vstate (placed Polymorphic.abs addr) s' = (vstate (placed Polymorphic.abs addr) s).setList x (some (bs.eraseIdx i)))
      (fun _ => False) False := by
  have := erase_uniform (mk := mk) (N := N) (follows_placed (Composite.polymorphic_behaves S Rf P) (polymorphic_located S Rf P))
    (pinv S Rf h).placed hx hi hα (placed_exact (Rf.eq_refl α))
    (fun h h1 h2 => by have := h.1; rw [h1, h2, Rf.eq_refl] at this; cases this)
    (fun h h1 h2 => by have := h.1; rw [h1, h2, Rf.eq_refl] at this; cases this) es
  rwa [call_placed] at this

end

/-! ### Vectors that pass their allocator on -/

/-- In a program whose vectors construct their elements with their allocator `α`, every element of every vector has allocator
`α`, always, however it got there and also after exceptions: whatever is copied, moved or assigned from variables or vectors. -/
theorem C64_scoped_indirect_allocator (S : tr.Sound) (Rf : tr.Reflexive) (T : TSpec V X) (α : A)
    {s : VecS C (St (Vector.Cell C) A R (Obj V))}
    (h : Vector.Reach (Holder.indirectIn α tr T) (fun y j e => (Holder.indirect tr T).make (.var y) j e) Indirect.abs St.init s)
    {x : C} {bs : List (Box A V)} (hx : (vstate Indirect.abs s).lists x = some bs) : ∀ b ∈ bs, b.alloc = α :=
  h.all (C64_elements_indirect_scoped S Rf T α) (makes_of (Composite.indirect_behaves S Rf T)) (uniform_scoped α tr T)
    iok_start (fun _ => rfl) x bs hx

theorem C64_scoped_polymorphic_allocator (S : tr.Sound) (Rf : tr.Reflexive) (P : PSpec Ty V X) (α : A)
    {s : VecS C (St (Vector.Cell C) A R (PBody Ty V))}
    (h : Vector.Reach (Holder.polymorphicIn α tr P) (fun y j e => (Holder.polymorphic tr P).make (.var y) j e) Polymorphic.abs
      St.init s)
    {x : C} {bs : List (Box A (Ty × V))} (hx : (vstate Polymorphic.abs s).lists x = some bs) : ∀ b ∈ bs, b.alloc = α :=
  h.all (C64_elements_polymorphic_scoped S Rf P α) (makes_of (Composite.polymorphic_behaves S Rf P)) (uniform_scoped α tr P.owned)
    pok_start (fun _ => rfl) x bs hx

end

/-! ## Examples -/

namespace VectorDemo
open Demo

section
variable {S A W I J F : Type}

def legal (σ : VState (Fin 4) A W) : VecOp (Fin 4) I J F → Bool
  | .make y _ => (σ.vars y).isNone
  | .destroyVar y => (σ.vars y).isSome
  | .empty x => (σ.lists x).isNone
  | .copy x y => (σ.lists x).isNone && (σ.lists y).isSome
  | .move x y => (σ.lists x).isNone && (σ.lists y).isSome
  | .destroy x => (σ.lists x).isSome
  | .push x (.make _) => (σ.lists x).isSome
  | .push x (.copy r) => (σ.lists x).isSome && (σ.get r).isSome
  | .push x (.move r) => (σ.lists x).isSome && (σ.get r).isSome
  | .reserve x _ => (σ.lists x).isSome
  | .erase x i => match σ.lists x with
    | some bs => decide (i < bs.length)
    | none => false
  | .assignCopy x y => (σ.lists x).isSome && (σ.lists y).isSome
  | .assignMove x y => decide (x ≠ y) && ((σ.lists x).isSome && (σ.lists y).isSome)
  | .swap x y => (σ.lists x).isSome && (σ.lists y).isSome
  | .modify r _ => match σ.get r with
    | some ⟨_, some _⟩ => true
    | _ => false
  | .pop x => match σ.lists x with
    | some bs => decide (0 < bs.length)
    | none => false

theorem legal_iff {σ : VState (Fin 4) A W} {o : VecOp (Fin 4) I J F} (h : legal σ o = true) : VecLegal σ o := by
  cases o with
  | push x a =>
    cases a <;> simp only [legal, Bool.and_eq_true, Option.isSome_iff_exists] at h <;> exact h
  | erase x i => simp only [legal] at h; split at h <;> simp_all [VecLegal]
  | pop x => simp only [legal] at h; split at h <;> simp_all [VecLegal]
  | modify r f =>
    simp only [legal] at h
    split at h
    · rename_i a v hv; exact ⟨a, v, hv⟩
    · cases h
  | _ =>
    simp only [legal, Bool.and_eq_true, Option.isNone_iff_eq_none, Option.isSome_iff_exists, decide_eq_true_eq] at h
    exact h

def fresh (s : VecS (Fin 4) S) (B : Buf) : Bool := decide (∀ z, (s.2 z).map Vec.buf ≠ some B.buf)

theorem fresh_iff {s : VecS (Fin 4) S} {B : Buf} (h : fresh s B = true) : FreshBuf s B := by
  intro z v hv hb
  have := of_decide_eq_true h z
  rw [hv] at this
  exact this (by simp [hb])

/-- Run a history; operations that are not legal are left out. -/
def after (H : Holder (Vector.Cell (Fin 4)) S W I F) (mk : Fin 4 → J → Env → M S Unit)
    (abs : S → Boxes (Vector.Cell (Fin 4)) A W) :
    List (VecOp (Fin 4) I J F × Buf × (Nat → Nat → Env)) → VecS (Fin 4) S → VecS (Fin 4) S
  | [], s => s
  | (o, B, es) :: cs, s => after H mk abs cs (if (legal (vstate abs s) o && fresh s B) then
      match call H mk o B es s with
      | .ok _ s' => s'
      | .threw _ s' => s'
      | _ => s
    else s)

theorem reach {H : Holder (Vector.Cell (Fin 4)) S W I F} {mk : Fin 4 → J → Env → M S Unit}
    {abs : S → Boxes (Vector.Cell (Fin 4)) A W} {init : S} {s : VecS (Fin 4) S}
    (cs : List (VecOp (Fin 4) I J F × Buf × (Nat → Nat → Env))) (h : Reach H mk abs init s) :
    Reach H mk abs init (after H mk abs cs s) := by
  induction cs generalizing s with
  | nil => exact h
  | cons c cs ih =>
    obtain ⟨o, B, es⟩ := c
    refine ih ?_
    by_cases hl : (legal (vstate abs s) o && fresh s B) = true
    · simp only [hl, if_true]
      simp only [Bool.and_eq_true] at hl
      cases hc : call H mk o B es s with
      | ok u s' => exact h.ret o B es (legal_iff hl.1) (fresh_iff hl.2) hc
      | threw e s' => exact h.threw o B es e (legal_iff hl.1) (fresh_iff hl.2) hc
      | terminated => exact h
      | ub u => exact h
      | diverged => exact h
    · simpa [hl] using h

end

/-- All functions of elements succeed, with addresses from `p`. -/
def good (p : Nat) (k j : Nat) : Env := fine (p + 10 * k + j)
/-- The functions that construct relocated elements throw; the others succeed. -/
def relocationFails (p : Nat) (k j : Nat) : Env := if k = 1 then bad (p + 10 * k + j) else fine (p + 10 * k + j)
/-- Buffer `b`, with capacity at least `c`. -/
def buf (b c : Nat) : Buf := ⟨b, c, false⟩

abbrev Ops (A : Type) := List (VecOp (Fin 4) (Option A × TArgs Nat) (Option A × TArgs Nat) (Nat → Nat) × Buf × (Nat → Nat → Env))

abbrev run {A : Type} [DecidableEq A] (tr : ATraits A A) (cs : Ops A) :
    VecS (Fin 4) (St (Vector.Cell (Fin 4)) A A (Obj Nat)) :=
  after (Holder.indirect tr Demo.T) (fun y j e => (Holder.indirect tr Demo.T).make (.var y) j e) Indirect.abs cs
    (St.init, fun _ => none)

theorem run_reach {A : Type} [DecidableEq A] (tr : ATraits A A) (cs : Ops A) : IReach tr Demo.T (run tr cs) := reach cs .init

/-- The lists and the variables of a state. -/
def show_ {A W : Type} (σ : VState (Fin 4) A W) : List (Option (List (Box A W))) × List (Option (Box A W)) :=
  ([σ.lists 0, σ.lists 1], [σ.vars 0, σ.vars 1])

/-- Allocators like `std::pmr::polymorphic_allocator`: copies do not take over the allocator. -/
def pmr : ATraits Nat Nat := { alloc false false false with socc := fun _ => 0 }

theorem pmr_sound : pmr.Sound := by
  have := alloc_sound false false false
  constructor
  all_goals first | exact this.1 | exact this.2 | (simp [pmr, alloc])

theorem pmr_refl : pmr.Reflexive := ⟨by simp [pmr, alloc]⟩

/-- Vector 0 has two elements with allocators 5 and 6, variable 0 has allocator 7; capacity 2. -/
def setup : Ops Nat := [
  (.empty 0, buf 0 0, good 0), (.push 0 (.make (some 5, .pack [51])), buf 1 2, good 100),
  (.push 0 (.make (some 6, .pack [61])), buf 2 0, good 200), (.make 0 (some 7, .pack [71]), buf 2 0, good 300)]

example : show_ (vstate Indirect.abs (run pmr setup)) =
    ([some [⟨5, some 51⟩, ⟨6, some 61⟩], none], [some ⟨7, some 71⟩, none]) := by decide +kernel

/-- The state after a call (`d` if it did not return or throw). -/
def out {S : Type} (d : S) : Res S Unit → S
  | .ok _ s => s
  | .threw _ s => s
  | _ => d

def isOk {S : Type} : Res S Unit → Bool
  | .ok _ _ => true
  | _ => false

def exn {S : Type} : Res S Unit → Option Exn
  | .threw e _ => some e
  | _ => none

theorem ok_out {S : Type} {d : S} {r : Res S Unit} (h : isOk r = true) : r = .ok () (out d r) := by
  cases r <;> first | rfl | cases h

theorem threw_out {S : Type} {d : S} {r : Res S Unit} {e : Exn} (h : exn r = some e) : r = .threw e (out d r) := by
  cases r <;> cases h
  rfl

/-- `push_back(std::move(y))` to the vector of `setup`. -/
def grow (es : Nat → Nat → Env) : Res (VecS (Fin 4) (St (Vector.Cell (Fin 4)) Nat Nat (Obj Nat))) Unit :=
  call (Holder.indirect pmr Demo.T) (fun y j e => (Holder.indirect pmr Demo.T).make (.var y) j e) (.push 0 (.move (.var 0)))
    (buf 2 0) es (run pmr setup)

end VectorDemo

open VectorDemo in
/-- Growth keeps allocators and owned objects only if allocators are always equal (`C64_growth_keeps_objects`): otherwise,
as with `std::pmr::polymorphic_allocator`, `push_back` of a moved variable can change the allocators of the elements that the
vector has (here from 5 and 6 to 0), and their owned objects are new ones, at other addresses. -/
theorem C64_growth_can_change_allocators :
    ∃ (tr : ATraits Nat Nat) (T : TSpec Nat Nat) (s s' : VecS (Fin 4) (St (Vector.Cell (Fin 4)) Nat Nat (Obj Nat))) (N : Buf)
      (es : Nat → Nat → Env), tr.Sound ∧ tr.Reflexive ∧ IReach tr T s ∧ FreshBuf s N ∧
      call (Holder.indirect tr T) (fun y j e => (Holder.indirect tr T).make (.var y) j e) (.push 0 (.move (.var 0))) N es s =
        .ok () s' ∧
      (vstate (placed Indirect.abs addr) s).lists 0 = some [⟨5, some (51, 100)⟩, ⟨6, some (61, 200)⟩] ∧
      (vstate (placed Indirect.abs addr) s').lists 0 =
        some [⟨0, some (51, 410)⟩, ⟨0, some (61, 411)⟩, ⟨7, some (71, 300)⟩] :=
  ⟨pmr, Demo.T, run pmr setup, out (run pmr setup) (grow (good 400)), buf 2 0, good 400, pmr_sound, pmr_refl,
    run_reach pmr setup, fresh_iff (by decide +kernel), ok_out (r := grow (good 400)) (by decide +kernel), by decide +kernel,
    by decide +kernel⟩

open VectorDemo in
/-- `x.push_back(std::move(y))` can throw after `y` has been moved from, so that what `y` owned is lost: when the vector has to
grow, and allocators are not always equal, the others are copied after `y` has been moved into the new storage. -/
theorem C64_push_back_move_can_lose_source :
    ∃ (tr : ATraits Nat Nat) (T : TSpec Nat Nat) (s s' : VecS (Fin 4) (St (Vector.Cell (Fin 4)) Nat Nat (Obj Nat))) (N : Buf)
      (es : Nat → Nat → Env) (e : Exn), tr.Sound ∧ tr.Reflexive ∧ IReach tr T s ∧ FreshBuf s N ∧
      call (Holder.indirect tr T) (fun y j e => (Holder.indirect tr T).make (.var y) j e) (.push 0 (.move (.var 0))) N es s =
        .threw e s' ∧
      (vstate Indirect.abs s).vars 0 = some ⟨7, some 71⟩ ∧ (vstate Indirect.abs s').vars 0 = some ⟨7, none⟩ ∧
      (vstate Indirect.abs s').lists 0 = (vstate Indirect.abs s).lists 0 :=
  ⟨pmr, Demo.T, run pmr setup, out (run pmr setup) (grow (relocationFails 400)), buf 2 0, relocationFails 400, .user 13,
    pmr_sound, pmr_refl, run_reach pmr setup, fresh_iff (by decide +kernel),
    threw_out (r := grow (relocationFails 400)) (by decide +kernel), by decide +kernel, by decide +kernel, by decide +kernel⟩

namespace VectorDemo
open Demo

/-! The hypotheses of the theorems are met. -/

/-- Elements of all kinds; copies of vectors, also with too little capacity and while functions throw; `push_back` of an own
element; `erase`; moves and swaps of vectors.  0 and 1 are vectors, `7` stays in the variable. -/
def history : Ops Nat := setup ++ [
  (.copy 1 0, buf 3 4, good 400), (.push 1 (.copy (.at 1 0)), buf 4 0, good 500), (.modify (.at 1 2) (· + 1), buf 4 0, good 0),
  (.push 0 (.copy (.at 0 1)), buf 4 0, relocationFails 600), (.erase 1 0, buf 4 0, good 700), (.assignCopy 0 1, buf 4 0, good 800),
  (.push 1 (.move (.at 0 0)), buf 5 0, good 900), (.swap 0 1, buf 5 0, good 0)]

example : (alloc false false false).Sound ∧ (alloc false false false).Reflexive ∧
    IReach (alloc false false false) Demo.T (run (alloc false false false) history) ∧
    (∀ b, FreshBuf (run (alloc false false false) history) ⟨7, b, false⟩) ∧
    show_ (vstate Indirect.abs (run (alloc false false false) history)) =
      ([some [⟨5, some 61⟩, ⟨6, some 52⟩, ⟨5, some 61⟩], some [⟨5, none⟩, ⟨6, some 52⟩]], [some ⟨7, some 71⟩, none]) := by
  refine ⟨alloc_sound _ _ _, alloc_refl _ _ _, run_reach _ _, fun b => fresh_iff (B := ⟨7, b, false⟩) ?_, by decide +kernel⟩
  change fresh _ ⟨7, 0, false⟩ = true
  decide +kernel

/-- And then everything is destroyed. -/
example : IReach (alloc false false false) Demo.T (run (alloc false false false)
      (history ++ [(.destroy 0, buf 5 0, good 0), (.destroyVar 0, buf 5 0, good 0), (.destroy 1, buf 5 0, good 0)])) ∧
    (∀ x, (vstate Indirect.abs (run (alloc false false false)
      (history ++ [(.destroy 0, buf 5 0, good 0), (.destroyVar 0, buf 5 0, good 0), (.destroy 1, buf 5 0, good 0)]))).lists x = none) ∧
    (∀ x, (vstate Indirect.abs (run (alloc false false false)
      (history ++ [(.destroy 0, buf 5 0, good 0), (.destroyVar 0, buf 5 0, good 0), (.destroy 1, buf 5 0, good 0)]))).vars x = none) :=
  ⟨run_reach _ _, by decide +kernel, by decide +kernel⟩

/-- `std::allocator`: vector 0 is full, with objects at 100 and 200. -/
def shistory : Ops Unit := [
  (.empty 0, buf 0 0, good 0), (.push 0 (.make (none, .pack [51])), buf 1 2, good 100),
  (.push 0 (.make (none, .pack [61])), buf 2 0, good 200), (.make 0 (none, .pack [71]), buf 2 0, good 300)]

theorem std_refl : std.Reflexive := ⟨by simp [std]⟩

set_option synthInstance.maxSize 2000 in
set_option synthInstance.maxHeartbeats 200000 in
/-- It is about to grow; if it does, the objects stay at 100, 200 and 300. -/
example : std.Sound ∧ std.Reflexive ∧ std.alwaysEqual = true ∧ IReach std Demo.T (run std shistory) ∧ fresh (run std shistory) (buf 2 0) = true ∧
    (vstate (placed Indirect.abs addr) (run std shistory)).lists 0 = some [⟨(), some (51, 100)⟩, ⟨(), some (61, 200)⟩] ∧
    legal (vstate (placed Indirect.abs addr) (run std shistory)) (.push 0 (.move (.var 0)) : VecOp (Fin 4) (Option Unit × TArgs Nat) Unit Unit) = true ∧
    capacity (run std shistory) 0 = 2 ∧
    show_ (vstate (placed Indirect.abs addr) (run std (shistory ++ [(.push 0 (.move (.var 0)), buf 2 0, good 400)]))) =
      ([some [⟨(), some (51, 100)⟩, ⟨(), some (61, 200)⟩, ⟨(), some (71, 300)⟩], none], [some ⟨(), none⟩, none]) := by
  refine ⟨std_sound, std_refl, rfl, run_reach _ _, ?_, ?_, ?_, ?_, ?_⟩ <;> decide +kernel

/-- `erase`, when all elements have allocator 5: the objects stay where they are. -/
def ehistory : Ops Nat := [
  (.empty 0, buf 0 0, good 0), (.push 0 (.make (some 5, .pack [51])), buf 1 4, good 100),
  (.push 0 (.make (some 5, .pack [61])), buf 2 0, good 200), (.push 0 (.make (some 5, .pack [71])), buf 2 0, good 300)]

example : IReach (alloc false false false) Demo.T (run (alloc false false false) ehistory) ∧
    (vstate (placed Indirect.abs addr) (run (alloc false false false) ehistory)).lists 0 =
      some [⟨5, some (51, 100)⟩, ⟨5, some (61, 200)⟩, ⟨5, some (71, 300)⟩] ∧
    (vstate (placed Indirect.abs addr) (run (alloc false false false) (ehistory ++ [(.erase 0 1, buf 2 0, good 400)]))).lists 0 =
      some [⟨5, some (51, 100)⟩, ⟨5, some (71, 300)⟩] :=
  ⟨run_reach _ _, by decide +kernel, by decide +kernel⟩

/-- `std::pmr::vector` with resource 9: elements get its allocator, whatever they are made from. -/
def inResource : VecS (Fin 4) (St (Vector.Cell (Fin 4)) Nat Nat (Obj Nat)) :=
  after (Holder.indirectIn 9 pmr Demo.T) (fun y j e => (Holder.indirect pmr Demo.T).make (.var y) j e) Indirect.abs [
    (.empty 0, buf 0 0, good 0), (.push 0 (.make (.pack [51])), buf 1 2, good 100), (.make 0 (some 7, .pack [71]), buf 2 0, good 300),
    (.push 0 (.copy (.var 0)), buf 2 0, good 400), (.push 0 (.move (.var 0)), buf 2 0, good 500), (.copy 1 0, buf 3 0, good 600)]
    (St.init, fun _ => none)

example : Reach (Holder.indirectIn 9 pmr Demo.T) (fun y j e => (Holder.indirect pmr Demo.T).make (.var y) j e) Indirect.abs St.init
      inResource ∧
    show_ (vstate Indirect.abs inResource) =
      ([some [⟨9, some 51⟩, ⟨9, some 71⟩, ⟨9, some 71⟩], some [⟨9, some 51⟩, ⟨9, some 71⟩, ⟨9, some 71⟩]], [some ⟨7, some 0⟩, none]) :=
  ⟨reach _ .init, by decide +kernel⟩

/-- Vectors of `polymorphic`: objects of dynamic types 1 and 2; `std::allocator`, so that growth keeps the objects. -/
def pops : List (VecOp (Fin 4) (Option Unit × Option Nat × TArgs Nat) (Option Unit × Option Nat × TArgs Nat) (Nat → Nat → Nat) ×
    Buf × (Nat → Nat → Env)) := [
  (.empty 0, buf 0 0, good 0), (.push 0 (.make (none, some 1, .pack [51])), buf 1 0, good 100),
  (.push 0 (.make (none, some 2, .pack [61])), buf 2 0, good 200), (.copy 1 0, buf 3 0, good 300), (.erase 1 0, buf 4 0, good 400)]

def sp : VecS (Fin 4) (St (Vector.Cell (Fin 4)) Unit Unit (PBody Nat Nat)) :=
  after (Holder.polymorphic std PDemo.P) (fun y j e => (Holder.polymorphic std PDemo.P).make (.var y) j e) Polymorphic.abs pops
    (St.init, fun _ => none)

set_option synthInstance.maxSize 2000 in
set_option synthInstance.maxHeartbeats 200000 in
example : PReach std PDemo.P sp ∧ fresh sp (buf 4 0) = true ∧
    show_ (vstate (placed Polymorphic.abs addr) sp) =
      ([some [⟨(), some ((1, 1051), 100)⟩, ⟨(), some ((2, 2061), 200)⟩], some [⟨(), some ((2, 2061), 311)⟩]], [none, none]) ∧
    (∀ x, (vstate Polymorphic.abs (after (Holder.polymorphic std PDemo.P)
      (fun y j e => (Holder.polymorphic std PDemo.P).make (.var y) j e) Polymorphic.abs
      [(.destroy 0, buf 4 0, good 0), (.destroy 1, buf 4 0, good 0)] sp)).lists x = none) :=
  ⟨reach _ .init, by decide +kernel, by decide +kernel, by decide +kernel⟩

/-- `std::pmr::vector` of `polymorphic`. -/
def pscoped : VecS (Fin 4) (St (Vector.Cell (Fin 4)) Nat Nat (PBody Nat Nat)) :=
  after (Holder.polymorphicIn 9 pmr PDemo.P) (fun y j e => (Holder.polymorphic pmr PDemo.P).make (.var y) j e) Polymorphic.abs [
    (.empty 0, buf 0 0, good 0), (.push 0 (.make (some 1, .pack [51])), buf 1 2, good 100),
    (.make 0 (some 7, some 2, .pack [71]), buf 2 0, good 300), (.push 0 (.copy (.var 0)), buf 2 0, good 400),
    (.push 0 (.copy (.at 0 1)), buf 2 0, good 500)]
    (St.init, fun _ => none)

example : Reach (Holder.polymorphicIn 9 pmr PDemo.P) (fun y j e => (Holder.polymorphic pmr PDemo.P).make (.var y) j e)
      Polymorphic.abs St.init pscoped ∧
    show_ (vstate Polymorphic.abs pscoped) =
      ([some [⟨9, some (1, 1051)⟩, ⟨9, some (2, 2071)⟩, ⟨9, some (2, 2071)⟩], none], [some ⟨7, some (2, 2071)⟩, none]) :=
  ⟨reach _ .init, by decide +kernel⟩

end VectorDemo
end Verif.Props
