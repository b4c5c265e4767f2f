import Verif.PDemo
import Verif.Props.Containers14
import Verif.Proofs.MapsLaws

/-!
# C80: maps with mapped values of type `indirect` or `polymorphic`

`H`: the mapped type as maps use it, `H'`: as client code uses it for variables; `kstate abs s`: the maps and variables of a
state as values; `Maps.Reach … s`: a program can get into state `s`.  `Spec.Follows` is what the theorems use of the mapped
type; the theorems `C64_elements_*` show it for the four class templates, also with allocators that maps pass on.
-/

set_option autoImplicit false
set_option linter.unusedSectionVars false

namespace Verif.Props
open Verif Spec Maps

section
variable {C K S A W I J F : Type} [DecidableEq C] [DecidableEq K]
variable {H : Holder (Maps.Cell C) S W I F} {H' : Holder (Maps.Cell C) S W J F} {abs : S → Boxes (Maps.Cell C) A W}
variable {Ok : S → Prop} {init : S} {ρ ρ' : Rules A W} {s : MS C K S} {x y : C} {k : K} {a b d : Box A W}
variable {mx my : K → Option (Box A W)}

/-- No legal operation in a reachable state is undefined behaviour.  `std::terminate` is only possible in
`insert_or_assign`, where the mapped type may call it in move assignment. -/
theorem C80_no_undefined_behaviour (B : Follows ρ abs Ok H) (B' : Follows ρ' abs Ok H') (h0 : Ok init)
    (hd : ∀ l, abs init l = none) (h : Reach H H' abs init s) (q : MapOp C K I J F) (c : Ctx)
    (hl : KLegal (kstate abs s) q) :
    (∃ s', call H H' q c s = .ok () s') ∨ (∃ e s', call H H' q c s = .threw e s') ∨
      (call H H' q c s = .terminated ∧ ∃ x k r a d, q = .insertOrAssign x k true r ∧
        (kstate abs s).get (.at x k) = some a ∧ (kstate abs s).get r = some d ∧ ρ.Terminates a d) := by
  have := call_inv B B' (h.inv B B' h0 hd) q hl c
  cases hc : call H H' q c s with
  | ok u s' => exact .inl ⟨s', rfl⟩
  | threw e s' => exact .inr (.inl ⟨e, s', rfl⟩)
  | terminated => rw [hc] at this; exact .inr (.inr ⟨rfl, this⟩)
  | ub u => rw [hc] at this; exact this.elim
  | diverged => rw [hc] at this; exact this.elim

/-- A new map has no elements, and nothing else changes. -/
theorem C80_default (B : Follows ρ abs Ok H) (B' : Follows ρ' abs Ok H') (h0 : Ok init) (hd : ∀ l, abs init l = none)
    (h : Reach H H' abs init s) (c : Ctx) (hx : (kstate abs s).maps x = none) :
    Ends (call H H' (.empty x) c s) (fun s' => kstate abs s' = (kstate abs s).setMap x (some noElems))
      (fun _ => False) False :=
  (empty_ends B (h.inv B B' h0 hd) hx c).mono (fun _ h => h.2) (fun _ h => h) (fun h => h)

/-- `emplace` for a key that `x` does not have: a new element from the arguments; of everything else only the source of a
move changes.  After an exception there is no new element. -/
theorem C80_emplace_new (B : Follows ρ abs Ok H) (B' : Follows ρ' abs Ok H') (h0 : Ok init) (hd : ∀ l, abs init l = none)
    (h : Reach H H' abs init s) (c : Ctx) (hx : (kstate abs s).maps x = some mx) (hk : mx k = none) (q : Arg C K I)
    (hq : KArgOk (kstate abs s) q) :
    Ends (call H H' (.emplace x k q) c s)
      (fun s' => ∃ b σ', KArgMade ρ (kstate abs s) b σ' q ∧ kstate abs s' = σ'.setAt x k (some b))
      (fun s' => KArgThrew ρ (kstate abs s) (kstate abs s') q) False := by
  refine (emplace_ends (k := k) B (h.inv B B' h0 hd) hx q hq c).mono (fun s' h => ?_)
    (fun _ ⟨σ', h1, h2⟩ => by rw [← h2.2] at h1; exact h1) (fun h => h)
  simp only [hk] at h
  obtain ⟨b, σ', h1, h2⟩ := h
  exact ⟨b, σ', h1, h2.2⟩

/-- `emplace` for a key that `x` has: no element is added or replaced.  At most the source of a move changes: an object may
have been made in vain. -/
theorem C80_emplace_existing (B : Follows ρ abs Ok H) (B' : Follows ρ' abs Ok H') (h0 : Ok init)
    (hd : ∀ l, abs init l = none) (h : Reach H H' abs init s) (c : Ctx) (hx : (kstate abs s).maps x = some mx)
    (hk : mx k = some b) (q : Arg C K I) (hq : KArgOk (kstate abs s) q) :
    Ends (call H H' (.emplace x k q) c s)
      (fun s' => kstate abs s' = kstate abs s ∨ ∃ b, KArgMade ρ (kstate abs s) b (kstate abs s') q)
      (fun s' => KArgThrew ρ (kstate abs s) (kstate abs s') q) False := by
  refine (emplace_ends (k := k) B (h.inv B B' h0 hd) hx q hq c).mono (fun s' h => ?_)
    (fun _ ⟨σ', h1, h2⟩ => by rw [← h2.2] at h1; exact h1) (fun h => h)
  simp only [hk] at h
  rcases h with rfl | ⟨b, σ', h1, h2⟩
  · exact .inl rfl
  · rw [← h2.2] at h1; exact .inr ⟨b, h1⟩

/-- `try_emplace` for a key that `x` does not have is like `emplace`. -/
theorem C80_try_emplace_new (B : Follows ρ abs Ok H) (B' : Follows ρ' abs Ok H') (h0 : Ok init)
    (hd : ∀ l, abs init l = none) (h : Reach H H' abs init s) (c : Ctx) (hx : (kstate abs s).maps x = some mx)
    (hk : mx k = none) (q : Arg C K I) (hq : KArgOk (kstate abs s) q) :
    Ends (call H H' (.tryEmplace x k q) c s)
      (fun s' => ∃ b σ', KArgMade ρ (kstate abs s) b σ' q ∧ kstate abs s' = σ'.setAt x k (some b))
      (fun s' => KArgThrew ρ (kstate abs s) (kstate abs s') q) False := by
  refine (tryEmplace_ends (k := k) B (h.inv B B' h0 hd) hx q hq c).mono (fun s' h => ?_)
    (fun _ ⟨_, σ', h1, h2⟩ => by rw [← h2.2] at h1; exact h1) (fun h => h)
  simp only [hk] at h
  obtain ⟨b, σ', h1, h2⟩ := h
  exact ⟨b, σ', h1, h2.2⟩

/-- `try_emplace` (and `operator[]`) for a key that `x` has does nothing at all: arguments are not moved from, nothing is
allocated. -/
theorem C80_try_emplace_existing (B : Follows ρ abs Ok H) (B' : Follows ρ' abs Ok H') (h0 : Ok init)
    (hd : ∀ l, abs init l = none) (h : Reach H H' abs init s) (c : Ctx) (hx : (kstate abs s).maps x = some mx)
    (hk : mx k = some b) (q : Arg C K I) : call H H' (.tryEmplace x k q) c s = .ok () s := by
  obtain ⟨m, hg, hm⟩ := of_map hx
  simp only [call, tryEmplace]
  rw [withMap_eq hg]
  rcases of_elem (h.inv B B' h0 hd).rep hg hm k with ⟨h1, h2⟩ | ⟨n, b', h1, h2, h3⟩
  · rw [hk] at h1; cases h1
  · simp only [h2]; rfl

/-- `insert_or_assign` for a key that `x` does not have: a new element, copied or moved from what `r` refers to. -/
theorem C80_insert_or_assign_new (B : Follows ρ abs Ok H) (B' : Follows ρ' abs Ok H') (h0 : Ok init)
    (hd : ∀ l, abs init l = none) (h : Reach H H' abs init s) (c : Ctx) (hx : (kstate abs s).maps x = some mx)
    (hk : mx k = none) {r : Maps.Ref C K} (hr : (kstate abs s).get r = some d) :
    Ends (call H H' (.insertOrAssign x k false r) c s)
      (fun s' => ∃ b, ρ.Copy d b ∧ kstate abs s' = (kstate abs s).setAt x k (some b))
      (fun s' => kstate abs s' = kstate abs s) False ∧
    Ends (call H H' (.insertOrAssign x k true r) c s)
      (fun s' => ∃ b d', ρ.Move d b d' ∧ kstate abs s' = ((kstate abs s).set r d').setAt x k (some b))
      (fun s' => kstate abs s' = kstate abs s ∨ ∃ d', ρ.MoveThrew d d' ∧ kstate abs s' = (kstate abs s).set r d') False := by
  constructor
  · refine (insertOrAssign_new B (h.inv B B' h0 hd) hx hk false hr c).mono ?_ ?_ (fun h => h)
    · rintro s' ⟨b, σ', ⟨c, hc, h1, rfl⟩, h2⟩
      rw [hr] at hc; cases hc
      exact ⟨b, h1, h2.2⟩
    · rintro s' ⟨σ', h1, h2⟩; exact h2.2.trans h1
  · refine (insertOrAssign_new B (h.inv B B' h0 hd) hx hk true hr c).mono ?_ ?_ (fun h => h)
    · rintro s' ⟨b, σ', ⟨c, q, hc, h1, rfl⟩, h2⟩
      rw [hr] at hc; cases hc
      exact ⟨b, q, h1, h2.2⟩
    · rintro s' ⟨σ', h1 | ⟨c, q, hc, h1, rfl⟩, h2⟩
      · exact .inl (h2.2.trans h1)
      · rw [hr] at hc; cases hc
        exact .inr ⟨q, h1, h2.2⟩

/-- `insert_or_assign` for a key that `x` has assigns to the element. -/
theorem C80_insert_or_assign_existing (B : Follows ρ abs Ok H) (B' : Follows ρ' abs Ok H') (h0 : Ok init)
    (hd : ∀ l, abs init l = none) (h : Reach H H' abs init s) (c : Ctx) (hx : (kstate abs s).maps x = some mx)
    (hk : mx k = some a) {r : Maps.Ref C K} (hne : r ≠ .at x k) (hr : (kstate abs s).get r = some d) :
    Ends (call H H' (.insertOrAssign x k false r) c s)
      (fun s' => ∃ a', ρ.Assign a d a' ∧ kstate abs s' = (kstate abs s).setAt x k (some a'))
      (fun s' => ∃ a', ρ.AssignThrew a a' ∧ kstate abs s' = (kstate abs s).setAt x k (some a')) False ∧
    Ends (call H H' (.insertOrAssign x k true r) c s)
      (fun s' => ∃ a' d', ρ.MoveAssign a d a' d' ∧ kstate abs s' = ((kstate abs s).set r d').setAt x k (some a'))
      (fun s' => ∃ d', ρ.MoveAssignThrew a d d' ∧ kstate abs s' = (kstate abs s).set r d') (ρ.Terminates a d) :=
  ⟨(insertOrAssign_copy B (h.inv B B' h0 hd) hx hk hne hr c).mono (fun _ ⟨a', h1, h2⟩ => ⟨a', h1, h2.2⟩)
    (fun _ ⟨a', h1, h2⟩ => ⟨a', h1, h2.2⟩) (fun h => h),
   (insertOrAssign_move B (h.inv B B' h0 hd) hx hk hne hr c).mono (fun _ ⟨a', d', h1, h2⟩ => ⟨a', d', h1, h2.2⟩)
    (fun _ ⟨d', h1, h2⟩ => ⟨d', h1, h2.2⟩) (fun h => h)⟩

/-- `erase(k)`: there is no element with key `k`, and nothing else changes; it does not throw. -/
theorem C80_erase (B : Follows ρ abs Ok H) (B' : Follows ρ' abs Ok H') (h0 : Ok init) (hd : ∀ l, abs init l = none)
    (h : Reach H H' abs init s) (c : Ctx) (hx : (kstate abs s).maps x = some mx) (k : K) :
    Ends (call H H' (.erase x k) c s) (fun s' => kstate abs s' = (kstate abs s).setAt x k none) (fun _ => False) False :=
  (erase_ends B (h.inv B B' h0 hd) hx k (c.env 0)).mono (fun _ h => h.2.trans (setAt_eq hx k none).symm) (fun _ h => h)
    (fun h => h)

/-- `clear()`: no elements, and nothing else changes; it does not throw.  Destruction: the map is gone, likewise. -/
theorem C80_clear (B : Follows ρ abs Ok H) (B' : Follows ρ' abs Ok H') (h0 : Ok init) (hd : ∀ l, abs init l = none)
    (h : Reach H H' abs init s) (c : Ctx) (hx : (kstate abs s).maps x = some mx) :
    Ends (call H H' (.clear x) c s) (fun s' => kstate abs s' = (kstate abs s).setMap x (some noElems))
      (fun _ => False) False ∧
    Ends (call H H' (.destroy x) c s) (fun s' => kstate abs s' = (kstate abs s).setMap x none) (fun _ => False) False :=
  ⟨(clear_ends B (h.inv B B' h0 hd) hx c.env).mono (fun _ h => h.2) (fun _ h => h) (fun h => h),
   (destroy_ends B (h.inv B B' h0 hd) hx c).mono (fun _ h => h.2) (fun _ h => h) (fun h => h)⟩

/-- Copy construction: the same keys, with a copy of each mapped value; nothing else changes.  Or an exception, whichever
copy or allocation of a node throws, and nothing changes. -/
theorem C80_copy (B : Follows ρ abs Ok H) (B' : Follows ρ' abs Ok H') (h0 : Ok init) (hd : ∀ l, abs init l = none)
    (h : Reach H H' abs init s) (c : Ctx) (hx : (kstate abs s).maps x = none) (hy : (kstate abs s).maps y = some my) :
    Ends (call H H' (.copy x y) c s)
      (fun s' => ∃ mx, MapCopy ρ my mx ∧ kstate abs s' = (kstate abs s).setMap x (some mx))
      (fun s' => kstate abs s' = kstate abs s) False :=
  (copy_ends B (h.inv B B' h0 hd) hx hy c).mono (fun _ ⟨m, h1, h2⟩ => ⟨m, h1, h2.2⟩) (fun _ h => h.2) (fun h => h)

/-- Move construction: the new map is what `y` was, which has no elements afterwards.  No object of the mapped type is
touched, and no exception is possible. -/
theorem C80_move (B : Follows ρ abs Ok H) (B' : Follows ρ' abs Ok H') (h0 : Ok init) (hd : ∀ l, abs init l = none)
    (h : Reach H H' abs init s) (c : Ctx) (hx : (kstate abs s).maps x = none) (hy : (kstate abs s).maps y = some my) :
    Ends (call H H' (.move x y) c s)
      (fun s' => s'.mach = s.mach ∧ kstate abs s' = ((kstate abs s).setMap x (some my)).setMap y (some noElems))
      (fun _ => False) False :=
  (move_ends B (h.inv B B' h0 hd) hx hy c).mono (fun _ h => ⟨h.1, h.2.2⟩) (fun _ h => h) (fun h => h)

/-- Copy assignment between different maps: `x` becomes a copy of `y`, and nothing else changes.  After an exception `x` has
no elements, and nothing else changes. -/
theorem C80_assign_copy (B : Follows ρ abs Ok H) (B' : Follows ρ' abs Ok H') (h0 : Ok init) (hd : ∀ l, abs init l = none)
    (h : Reach H H' abs init s) (c : Ctx) (hne : x ≠ y) (hx : (kstate abs s).maps x = some mx)
    (hy : (kstate abs s).maps y = some my) :
    Ends (call H H' (.assignCopy x y) c s)
      (fun s' => ∃ m, MapCopy ρ my m ∧ kstate abs s' = (kstate abs s).setMap x (some m))
      (fun s' => kstate abs s' = (kstate abs s).setMap x (some noElems)) False :=
  (assignCopy_ends B (h.inv B B' h0 hd) hne hx hy c).mono (fun _ ⟨m, h1, h2⟩ => ⟨m, h1, h2.2⟩) (fun _ h => h.2) (fun h => h)

/-- Copy assignment of a map to itself, and merging it with itself, do nothing. -/
theorem C80_self (B : Follows ρ abs Ok H) (c : Ctx) (hx : (kstate abs s).maps x = some mx) :
    call H H' (.assignCopy x x) c s = .ok () s ∧ call H H' (.merge x x) c s = .ok () s :=
  ⟨assignCopy_self B hx c, merge_self B hx c⟩

/-- Move assignment between different maps: `x` becomes what `y` was, which has no elements afterwards.  It does not throw. -/
theorem C80_assign_move (B : Follows ρ abs Ok H) (B' : Follows ρ' abs Ok H') (h0 : Ok init) (hd : ∀ l, abs init l = none)
    (h : Reach H H' abs init s) (c : Ctx) (hne : x ≠ y) (hx : (kstate abs s).maps x = some mx)
    (hy : (kstate abs s).maps y = some my) :
    Ends (call H H' (.assignMove x y) c s)
      (fun s' => kstate abs s' = ((kstate abs s).setMap x (some my)).setMap y (some noElems)) (fun _ => False) False :=
  (assignMove_ends B (h.inv B B' h0 hd) hne hx hy c).mono (fun _ h => h.2) (fun _ h => h) (fun h => h)

/-- `swap` exchanges the maps.  No object of the mapped type is touched, and no exception is possible. -/
theorem C80_swap (B : Follows ρ abs Ok H) (B' : Follows ρ' abs Ok H') (h0 : Ok init) (hd : ∀ l, abs init l = none)
    (h : Reach H H' abs init s) (c : Ctx) (hx : (kstate abs s).maps x = some mx) (hy : (kstate abs s).maps y = some my) :
    Ends (call H H' (.swap x y) c s)
      (fun s' => s'.mach = s.mach ∧ kstate abs s' = ((kstate abs s).setMap x (some my)).setMap y (some mx))
      (fun _ => False) False :=
  (swap_ends B (h.inv B B' h0 hd) hx hy c).mono (fun _ h => ⟨h.1, h.2.2⟩) (fun _ h => h) (fun h => h)

/-- `x.merge(y)`: elements with keys that `x` does not have move from `y` to `x`; all others stay.  No object of the mapped
type is touched, and no exception is possible. -/
theorem C80_merge (B : Follows ρ abs Ok H) (B' : Follows ρ' abs Ok H') (h0 : Ok init) (hd : ∀ l, abs init l = none)
    (h : Reach H H' abs init s) (c : Ctx) (hne : x ≠ y) (hx : (kstate abs s).maps x = some mx)
    (hy : (kstate abs s).maps y = some my) :
    Ends (call H H' (.merge x y) c s)
      (fun s' => s'.mach = s.mach ∧
        kstate abs s' = ((kstate abs s).setMap x (some (merged mx my))).setMap y (some (unmerged mx my)))
      (fun _ => False) False :=
  (merge_ends B (h.inv B B' h0 hd) hne hx hy c).mono (fun _ h => ⟨h.1, h.2.2⟩) (fun _ h => h) (fun h => h)

/-- A variable constructed from `x.at(k)` is a copy of the element, or takes it over by a move. -/
theorem C80_at (B : Follows ρ abs Ok H) (B' : Follows ρ' abs Ok H') (h0 : Ok init) (hd : ∀ l, abs init l = none)
    (h : Reach H H' abs init s) (c : Ctx) (hy : (kstate abs s).vars y = none) (hx : (kstate abs s).maps x = some mx)
    (hk : mx k = some b) :
    Ends (call H H' (.take y false x k) c s)
      (fun s' => ∃ b', ρ'.Copy b b' ∧ kstate abs s' = (kstate abs s).setVar y (some b'))
      (fun s' => kstate abs s' = kstate abs s) False ∧
    Ends (call H H' (.take y true x k) c s)
      (fun s' => ∃ b' d, ρ'.Move b b' d ∧ kstate abs s' = ((kstate abs s).setAt x k (some d)).setVar y (some b'))
      (fun s' => ∃ d, ρ'.MoveThrew b d ∧ kstate abs s' = (kstate abs s).setAt x k (some d)) False :=
  ⟨(takeCopy_ends B' (h.inv B B' h0 hd) hy hx hk c).mono (fun _ ⟨b', h1, h2⟩ => ⟨b', h1, h2.2⟩) (fun _ h => h.2) (fun h => h),
   (takeMove_ends B' (h.inv B B' h0 hd) hy hx hk c).mono (fun _ ⟨b', d, h1, h2⟩ => ⟨b', d, h1, h2.2⟩)
    (fun _ ⟨d, h1, h2⟩ => ⟨d, h1, h2.2⟩) (fun h => h)⟩

/-- `x.at(k)` throws if there is no such element, and nothing at all changes. -/
theorem C80_at_missing (B : Follows ρ abs Ok H) (B' : Follows ρ' abs Ok H') (h0 : Ok init) (hd : ∀ l, abs init l = none)
    (h : Reach H H' abs init s) (c : Ctx) (mv : Bool) (hx : (kstate abs s).maps x = some mx) (hk : mx k = none) :
    call H H' (.take y mv x k) c s = .threw (.user 0) s :=
  take_missing B' (h.inv B B' h0 hd) hx hk mv c

/-- Changing the object owned by one element or variable changes no other element or variable: copies of maps are
independent. -/
theorem C80_independent (B : Follows ρ abs Ok H) (B' : Follows ρ' abs Ok H') (h0 : Ok init) (hd : ∀ l, abs init l = none)
    (h : Reach H H' abs init s) (c : Ctx) {r : Maps.Ref C K} {α : A} {v : W} (hr : (kstate abs s).get r = some ⟨α, some v⟩)
    (f : F) : Ends (call H H' (.modify r f) c s)
      (fun s' => kstate abs s' = (kstate abs s).set r ⟨α, some (H.app f v)⟩) (fun _ => False) False :=
  (modify_ends B (h.inv B B' h0 hd) hr f c).mono (fun _ h => h.2) (fun _ h => h) (fun h => h)

/-- Every legal operation, whether it returns or throws, leaves alone every variable, and every element of every map, that
it does not concern: neither added, nor removed, nor changed. -/
theorem C80_leaves_alone (B : Follows ρ abs Ok H) (B' : Follows ρ' abs Ok H') (h0 : Ok init) (hd : ∀ l, abs init l = none)
    (h : Reach H H' abs init s) (q : MapOp C K I J F) (c : Ctx) (hl : KLegal (kstate abs s) q) {r : Maps.Ref C K}
    (hr : ¬ Concerns r q) :
    Ends (call H H' q c s) (fun s' => (kstate abs s').get r = (kstate abs s).get r)
      (fun s' => (kstate abs s').get r = (kstate abs s).get r) True :=
  (call_step B B' (h.inv B B' h0 hd) q hl c).mono (fun _ h => step_get h hr) (fun _ h => threw_get h hr) (fun h => h)

/-- Variables: construction and destruction. -/
theorem C80_variables (B : Follows ρ abs Ok H) (B' : Follows ρ' abs Ok H') (h0 : Ok init) (hd : ∀ l, abs init l = none)
    (h : Reach H H' abs init s) (c : Ctx) (j : J) :
    ((kstate abs s).vars y = none → Ends (call H H' (.make y j) c s)
      (fun s' => ∃ b, ρ'.Make b ∧ kstate abs s' = (kstate abs s).setVar y (some b))
      (fun s' => kstate abs s' = kstate abs s) False) ∧
    ((kstate abs s).vars y = some b → Ends (call H H' (.destroyVar y) c s)
      (fun s' => kstate abs s' = (kstate abs s).setVar y none) (fun _ => False) False) :=
  ⟨fun hy => (make_ends B' (h.inv B B' h0 hd) hy j c).mono (fun _ ⟨b, h1, h2⟩ => ⟨b, h1, h2.2⟩) (fun _ h => h.2) (fun h => h),
   fun hy => (destroyVar_ends B' (h.inv B B' h0 hd) hy c).mono (fun _ h => h.2) (fun _ h => h) (fun h => h)⟩

end

/-! ## The four class templates: storage, and where owned objects are -/

section
variable {C K A R V X Ty : Type} [DecidableEq C] [DecidableEq K] [DecidableEq R] [DecidableEq Ty] {tr : ATraits A R}

theorem _root_.Verif.Maps.iok0 : Composite.IOk tr (St.init : St (Maps.Cell C) A R (Obj V)) := ⟨Inv.init, rfl⟩

theorem _root_.Verif.Maps.pok0 : Composite.POk tr (St.init : St (Maps.Cell C) A R (PBody Ty V)) :=
  ⟨Polymorphic.good_init, Inv.init, rfl⟩

theorem _root_.Verif.Maps.no_objects {S W : Type} {abs : S → Boxes (Maps.Cell C) A W} {Ok : S → Prop} {s : MS C K S}
    (I : Maps.Inv abs Ok s) (hd : ∀ x, (kstate abs s).maps x = none ∧ (kstate abs s).vars x = none) (l : Maps.Cell C) :
    abs s.mach l = none := by
  cases l with
  | node n =>
    cases hb : abs s.mach (.node n) with
    | none => rfl
    | some b =>
      obtain ⟨z, k, hp⟩ := (I.rep.live n).1 (by simp [hb])
      have := of_dead (hd z).1
      simp [pos, this] at hp
  | var y => exact (hd y).2

/-- The object that `r` refers to owns the storage at `p`. -/
def OwnsAt {B : Type} (s : MS C K (St (Maps.Cell C) A R B)) (r : Maps.Ref C K) (p : Addr) : Prop :=
  match r with
  | .var y => addr s.mach (.var y) = some p
  | .at x k => ∃ m n, s.maps x = some m ∧ m.find k = some n ∧ addr s.mach (.node n) = some p

theorem _root_.Verif.Maps.owner {B W : Type} {abs : St (Maps.Cell C) A R B → Boxes (Maps.Cell C) A W}
    {Ok : St (Maps.Cell C) A R B → Prop} {s : MS C K (St (Maps.Cell C) A R B)} (I : Maps.Inv abs Ok s) (p : Addr)
    (hQ : ∀ l, addr s.mach l = some p → (abs s.mach l).isSome = true) :
    (∃ l, addr s.mach l = some p) ↔ ∃ r, OwnsAt (K := K) s r p := by
  constructor
  · rintro ⟨l, h⟩
    cases l with
    | node n =>
      obtain ⟨z, k, hp⟩ := (I.rep.live n).1 (hQ _ h)
      cases hg : s.maps z with
      | none => simp [pos, hg] at hp
      | some m => exact ⟨.at z k, m, n, hg, by rw [← pos_of hg]; exact hp, h⟩
    | var y => exact ⟨.var y, h⟩
  · rintro ⟨r, h⟩
    cases r with
    | var y => exact ⟨_, h⟩
    | «at» x k => obtain ⟨m, n, -, -, h⟩ := h; exact ⟨_, h⟩

/-- `std::map<K, indirect<T, A>>`: storage for owned objects is allocated exactly if an element of a map, or a variable, owns
it. -/
theorem C80_indirect_storage (S : tr.Sound) (Rf : tr.Reflexive) (T : TSpec V X) {s : MS C K (St (Maps.Cell C) A R (Obj V))}
    (h : Reach (Holder.indirect tr T) (Holder.indirect tr T) Indirect.abs St.init s) (p : Addr) :
    (∃ c, s.mach.heap p = some c) ↔ ∃ r, OwnsAt s r p := by
  have B := C64_elements_indirect (L := Maps.Cell C) S Rf T
  have I := h.inv B B Maps.iok0 (fun _ => rfl)
  rw [Composite.iok_owned I.ok]
  refine owner I p fun l h => ?_
  obtain ⟨b, hb, -⟩ := Indirect.addr_some h
  simp [Indirect.abs, absWith, hb]

/-- Once all maps and variables are destroyed, all storage was returned, and all owned objects were destroyed, each exactly
once, whatever was thrown before. -/
theorem C80_indirect_no_leak (S : tr.Sound) (Rf : tr.Reflexive) (T : TSpec V X) {s : MS C K (St (Maps.Cell C) A R (Obj V))}
    (h : Reach (Holder.indirect tr T) (Holder.indirect tr T) Indirect.abs St.init s)
    (hd : ∀ x, (kstate Indirect.abs s).maps x = none ∧ (kstate Indirect.abs s).vars x = none) (p : Addr) :
    s.mach.heap p = none ∧ Spec.allocsAt p s.mach.trace = Spec.deallocsAt p s.mach.trace ∧
      Spec.constructsAt p s.mach.trace = Spec.destroysAt p s.mach.trace :=
  have B := C64_elements_indirect (L := Maps.Cell C) S Rf T
  have I := h.inv B B Maps.iok0 (fun _ => rfl)
  Composite.iok_no_leak I.ok (no_objects I hd) p

/-- The same for indirect_cxx14.h. -/
theorem C80_indirect14_storage (S : tr.Sound) (Rf : tr.Reflexive) (T : TSpec V X)
    {s : MS C K (St (Maps.Cell C) A R (Obj V))}
    (h : Reach (Holder.indirect14 tr T) (Holder.indirect14 tr T) Indirect.abs St.init s) (p : Addr) :
    (∃ c, s.mach.heap p = some c) ↔ ∃ r, OwnsAt s r p := by
  have B := C64_elements_indirect14 (L := Maps.Cell C) S Rf T
  have I := h.inv B B Maps.iok0 (fun _ => rfl)
  rw [Composite.iok_owned I.ok]
  refine owner I p fun l h => ?_
  obtain ⟨b, hb, -⟩ := Indirect.addr_some h
  simp [Indirect.abs, absWith, hb]

theorem C80_indirect14_no_leak (S : tr.Sound) (Rf : tr.Reflexive) (T : TSpec V X)
    {s : MS C K (St (Maps.Cell C) A R (Obj V))}
    (h : Reach (Holder.indirect14 tr T) (Holder.indirect14 tr T) Indirect.abs St.init s)
    (hd : ∀ x, (kstate Indirect.abs s).maps x = none ∧ (kstate Indirect.abs s).vars x = none) (p : Addr) :
    s.mach.heap p = none ∧ Spec.allocsAt p s.mach.trace = Spec.deallocsAt p s.mach.trace ∧
      Spec.constructsAt p s.mach.trace = Spec.destroysAt p s.mach.trace :=
  have B := C64_elements_indirect14 (L := Maps.Cell C) S Rf T
  have I := h.inv B B Maps.iok0 (fun _ => rfl)
  Composite.iok_no_leak I.ok (no_objects I hd) p

/-- `std::map<K, polymorphic<T, A>>`. -/
theorem C80_polymorphic_storage (S : tr.Sound) (Rf : tr.Reflexive) (P : PSpec Ty V X)
    {s : MS C K (St (Maps.Cell C) A R (PBody Ty V))}
    (h : Reach (Holder.polymorphic tr P) (Holder.polymorphic tr P) Polymorphic.abs St.init s) (p : Addr) :
    (∃ c, s.mach.heap p = some c) ↔ ∃ r, OwnsAt s r p := by
  have B := C64_elements_polymorphic (L := Maps.Cell C) S Rf P
  have I := h.inv B B Maps.pok0 (fun _ => rfl)
  rw [Containers14.pok_owned I.ok]
  refine owner I p fun l h => ?_
  obtain ⟨b, hb, -⟩ := Indirect.addr_some h
  simp [Polymorphic.abs, absWith, hb]

theorem C80_polymorphic_no_leak (S : tr.Sound) (Rf : tr.Reflexive) (P : PSpec Ty V X)
    {s : MS C K (St (Maps.Cell C) A R (PBody Ty V))}
    (h : Reach (Holder.polymorphic tr P) (Holder.polymorphic tr P) Polymorphic.abs St.init s)
    (hd : ∀ x, (kstate Polymorphic.abs s).maps x = none ∧ (kstate Polymorphic.abs s).vars x = none) (p : Addr) :
    s.mach.heap p = none ∧ Spec.allocsAt p s.mach.trace = Spec.deallocsAt p s.mach.trace ∧
      Spec.constructsAt p s.mach.trace = Spec.destroysAt p s.mach.trace :=
  have B := C64_elements_polymorphic (L := Maps.Cell C) S Rf P
  have I := h.inv B B Maps.pok0 (fun _ => rfl)
  Containers14.pok_no_leak I.ok (no_objects I hd) p

/-- The same for polymorphic_cxx14.h. -/
theorem C80_polymorphic14_storage (E : tr.Equality) (S : tr.Sound) (Rf : tr.Reflexive) (P : PSpec Ty V X)
    {s : MS C K (St (Maps.Cell C) A R (PBody Ty V))}
    (h : Reach (Holder.polymorphic14 tr P) (Holder.polymorphic14 tr P) Polymorphic.abs St.init s) (p : Addr) :
    (∃ c, s.mach.heap p = some c) ↔ ∃ r, OwnsAt s r p := by
  have B := C64_elements_polymorphic14 (L := Maps.Cell C) E S Rf P
  have I := h.inv B B Maps.pok0 (fun _ => rfl)
  rw [Containers14.pok_owned I.ok]
  refine owner I p fun l h => ?_
  obtain ⟨b, hb, -⟩ := Indirect.addr_some h
  simp [Polymorphic.abs, absWith, hb]

theorem C80_polymorphic14_no_leak (E : tr.Equality) (S : tr.Sound) (Rf : tr.Reflexive) (P : PSpec Ty V X)
    {s : MS C K (St (Maps.Cell C) A R (PBody Ty V))}
    (h : Reach (Holder.polymorphic14 tr P) (Holder.polymorphic14 tr P) Polymorphic.abs St.init s)
    (hd : ∀ x, (kstate Polymorphic.abs s).maps x = none ∧ (kstate Polymorphic.abs s).vars x = none) (p : Addr) :
    s.mach.heap p = none ∧ Spec.allocsAt p s.mach.trace = Spec.deallocsAt p s.mach.trace ∧
      Spec.constructsAt p s.mach.trace = Spec.destroysAt p s.mach.trace :=
  have B := C64_elements_polymorphic14 (L := Maps.Cell C) E S Rf P
  have I := h.inv B B Maps.pok0 (fun _ => rfl)
  Containers14.pok_no_leak I.ok (no_objects I hd) p

/-! `(kstate (placed abs addr) s).get r`: what `r` refers to, with the address of the owned object. -/

/-- References to owned objects stay valid: every legal operation, whether it returns or throws, leaves the objects that it
does not concern where they are. -/
theorem C80_indirect_references (S : tr.Sound) (Rf : tr.Reflexive) (T : TSpec V X)
    {s : MS C K (St (Maps.Cell C) A R (Obj V))}
    (h : Reach (Holder.indirect tr T) (Holder.indirect tr T) Indirect.abs St.init s)
    (q : MapOp C K (Option A × TArgs X) (Option A × TArgs X) (V → V)) (c : Ctx)
    (hl : KLegal (kstate Indirect.abs s) q) {r : Maps.Ref C K} (hr : ¬ Concerns r q) :
    Ends (call (Holder.indirect tr T) (Holder.indirect tr T) q c s)
      (fun s' => (kstate (placed Indirect.abs addr) s').get r = (kstate (placed Indirect.abs addr) s).get r)
      (fun s' => (kstate (placed Indirect.abs addr) s').get r = (kstate (placed Indirect.abs addr) s).get r) True :=
  have B := C64_elements_indirect (L := Maps.Cell C) S Rf T
  stay (Composite.indirect_behaves S Rf T) (Vector.indirect_located S Rf T) (Composite.indirect_behaves S Rf T)
    (Vector.indirect_located S Rf T) (h.inv B B Maps.iok0 (fun _ => rfl)) q c hl hr

theorem C80_indirect14_references (S : tr.Sound) (Rf : tr.Reflexive) (T : TSpec V X)
    {s : MS C K (St (Maps.Cell C) A R (Obj V))}
    (h : Reach (Holder.indirect14 tr T) (Holder.indirect14 tr T) Indirect.abs St.init s)
    (q : MapOp C K (Option A × TArgs X) (Option A × TArgs X) (V → V)) (c : Ctx)
    (hl : KLegal (kstate Indirect.abs s) q) {r : Maps.Ref C K} (hr : ¬ Concerns r q) :
    Ends (call (Holder.indirect14 tr T) (Holder.indirect14 tr T) q c s)
      (fun s' => (kstate (placed Indirect.abs addr) s').get r = (kstate (placed Indirect.abs addr) s).get r)
      (fun s' => (kstate (placed Indirect.abs addr) s').get r = (kstate (placed Indirect.abs addr) s).get r) True :=
  have B := C64_elements_indirect14 (L := Maps.Cell C) S Rf T
  stay (C47_indirect14_members S Rf T) (Containers14.indirect14_located S Rf T) (C47_indirect14_members S Rf T)
    (Containers14.indirect14_located S Rf T) (h.inv B B Maps.iok0 (fun _ => rfl)) q c hl hr

theorem C80_polymorphic_references (S : tr.Sound) (Rf : tr.Reflexive) (P : PSpec Ty V X)
    {s : MS C K (St (Maps.Cell C) A R (PBody Ty V))}
    (h : Reach (Holder.polymorphic tr P) (Holder.polymorphic tr P) Polymorphic.abs St.init s)
    (q : MapOp C K (Option A × Option Ty × TArgs X) (Option A × Option Ty × TArgs X) (Ty → V → V)) (c : Ctx)
    (hl : KLegal (kstate Polymorphic.abs s) q) {r : Maps.Ref C K} (hr : ¬ Concerns r q) :
    Ends (call (Holder.polymorphic tr P) (Holder.polymorphic tr P) q c s)
      (fun s' => (kstate (placed Polymorphic.abs addr) s').get r = (kstate (placed Polymorphic.abs addr) s).get r)
      (fun s' => (kstate (placed Polymorphic.abs addr) s').get r = (kstate (placed Polymorphic.abs addr) s).get r) True :=
  have B := C64_elements_polymorphic (L := Maps.Cell C) S Rf P
  stay (Composite.polymorphic_behaves S Rf P) (Vector.polymorphic_located S Rf P) (Composite.polymorphic_behaves S Rf P)
    (Vector.polymorphic_located S Rf P) (h.inv B B Maps.pok0 (fun _ => rfl)) q c hl hr

theorem C80_polymorphic14_references (E : tr.Equality) (S : tr.Sound) (Rf : tr.Reflexive) (P : PSpec Ty V X)
    {s : MS C K (St (Maps.Cell C) A R (PBody Ty V))}
    (h : Reach (Holder.polymorphic14 tr P) (Holder.polymorphic14 tr P) Polymorphic.abs St.init s)
    (q : MapOp C K (Option A × Option Ty × TArgs X) (Option A × Option Ty × TArgs X) (Ty → V → V)) (c : Ctx)
    (hl : KLegal (kstate Polymorphic.abs s) q) {r : Maps.Ref C K} (hr : ¬ Concerns r q) :
    Ends (call (Holder.polymorphic14 tr P) (Holder.polymorphic14 tr P) q c s)
      (fun s' => (kstate (placed Polymorphic.abs addr) s').get r = (kstate (placed Polymorphic.abs addr) s).get r)
      (fun s' => (kstate (placed Polymorphic.abs addr) s').get r = (kstate (placed Polymorphic.abs addr) s).get r) True :=
  have B := C64_elements_polymorphic14 (L := Maps.Cell C) E S Rf P
  stay (C47_polymorphic14_members E S Rf P) (Containers14.polymorphic14_located E S Rf P) (C47_polymorphic14_members E S Rf P)
    (Containers14.polymorphic14_located E S Rf P) (h.inv B B Maps.pok0 (fun _ => rfl)) q c hl hr

/-! ## Maps that pass on their allocator -/

/-- `std::pmr::map<K, pmr::indirect<T>>` with allocator `α`, or any map with a scoped allocator, for allocators that do not
propagate on assignment: whatever programs do, with variables with whatever allocators, all elements of all such maps have
allocator `α`. -/
theorem C80_indirect_scoped (S : tr.Sound) (Rf : tr.Reflexive) (T : TSpec V X) (α : A) (h1 : tr.pocca = false)
    (h2 : tr.pocma = false) {s : MS C K (St (Maps.Cell C) A R (Obj V))}
    (h : Reach (Holder.indirectIn α tr T) (Holder.indirect tr T) Indirect.abs St.init s) (x : C) (k : K) {b : Box A V}
    (hb : (kstate Indirect.abs s).get (.at x k) = some b) : b.alloc = α :=
  h.all (C64_elements_indirect_scoped S Rf T α) (C64_elements_indirect S Rf T) (keeps_scoped α tr T h1 h2)
    (fun h => by rw [h.2]) (fun h => h.elim) Maps.iok0 (fun _ => rfl) x k b hb

theorem C80_indirect14_scoped (S : tr.Sound) (Rf : tr.Reflexive) (T : TSpec V X) (α : A) (h1 : tr.pocca = false)
    (h2 : tr.pocma = false) {s : MS C K (St (Maps.Cell C) A R (Obj V))}
    (h : Reach (Holder.indirect14In α tr T) (Holder.indirect14 tr T) Indirect.abs St.init s) (x : C) (k : K) {b : Box A V}
    (hb : (kstate Indirect.abs s).get (.at x k) = some b) : b.alloc = α :=
  h.all (C64_elements_indirect14_scoped S Rf T α) (C64_elements_indirect14 S Rf T) (keeps_scoped α tr T.cxx14 h1 h2)
    (fun h => by rw [h.2]) (fun h => h.elim) Maps.iok0 (fun _ => rfl) x k b hb

theorem C80_polymorphic_scoped (S : tr.Sound) (Rf : tr.Reflexive) (P : PSpec Ty V X) (α : A) (h1 : tr.pocca = false)
    (h2 : tr.pocma = false) {s : MS C K (St (Maps.Cell C) A R (PBody Ty V))}
    (h : Reach (Holder.polymorphicIn α tr P) (Holder.polymorphic tr P) Polymorphic.abs St.init s) (x : C) (k : K)
    {b : Box A (Ty × V)} (hb : (kstate Polymorphic.abs s).get (.at x k) = some b) : b.alloc = α :=
  h.all (C64_elements_polymorphic_scoped S Rf P α) (C64_elements_polymorphic S Rf P) (keeps_scoped α tr P.owned h1 h2)
    (fun h => by rw [h.2]) (fun h => h.elim) Maps.pok0 (fun _ => rfl) x k b hb

/-- Once all maps and variables are destroyed, all storage was returned. -/
theorem C80_indirect_scoped_no_leak (S : tr.Sound) (Rf : tr.Reflexive) (T : TSpec V X) (α : A)
    {s : MS C K (St (Maps.Cell C) A R (Obj V))}
    (h : Reach (Holder.indirectIn α tr T) (Holder.indirect tr T) Indirect.abs St.init s)
    (hd : ∀ x, (kstate Indirect.abs s).maps x = none ∧ (kstate Indirect.abs s).vars x = none) (p : Addr) :
    s.mach.heap p = none ∧ Spec.allocsAt p s.mach.trace = Spec.deallocsAt p s.mach.trace ∧
      Spec.constructsAt p s.mach.trace = Spec.destroysAt p s.mach.trace :=
  have I := h.inv (C64_elements_indirect_scoped S Rf T α) (C64_elements_indirect S Rf T) Maps.iok0 (fun _ => rfl)
  Composite.iok_no_leak I.ok (no_objects I hd) p

theorem C80_polymorphic_scoped_no_leak (S : tr.Sound) (Rf : tr.Reflexive) (P : PSpec Ty V X) (α : A)
    {s : MS C K (St (Maps.Cell C) A R (PBody Ty V))}
    (h : Reach (Holder.polymorphicIn α tr P) (Holder.polymorphic tr P) Polymorphic.abs St.init s)
    (hd : ∀ x, (kstate Polymorphic.abs s).maps x = none ∧ (kstate Polymorphic.abs s).vars x = none) (p : Addr) :
    s.mach.heap p = none ∧ Spec.allocsAt p s.mach.trace = Spec.deallocsAt p s.mach.trace ∧
      Spec.constructsAt p s.mach.trace = Spec.destroysAt p s.mach.trace :=
  have I := h.inv (C64_elements_polymorphic_scoped S Rf P α) (C64_elements_polymorphic S Rf P) Maps.pok0 (fun _ => rfl)
  Containers14.pok_no_leak I.ok (no_objects I hd) p

end

/-! ## Examples -/

namespace MapsDemo
open Demo

section
variable {C K S A W I J F : Type} [DecidableEq C] [DecidableEq K]

def argOk (σ : KState C K A W) : Arg C K I → Bool
  | .make _ => true
  | .copy r => (σ.get r).isSome
  | .move r => (σ.get r).isSome

def full (o : Option (Box A W)) : Bool := (o.bind (·.val)).isSome

def legal (σ : KState C K A W) : MapOp C K I J F → Bool
  | .make y _ => (σ.vars y).isNone
  | .destroyVar y => (σ.vars y).isSome
  | .empty x => (σ.maps x).isNone
  | .copy x y => (σ.maps x).isNone && (σ.maps y).isSome
  | .move x y => (σ.maps x).isNone && (σ.maps y).isSome
  | .destroy x => (σ.maps x).isSome
  | .emplace x _ a => (σ.maps x).isSome && argOk σ a
  | .tryEmplace x _ a => (σ.maps x).isSome && argOk σ a
  | .insertOrAssign x k _ r => decide (r ≠ .at x k) && ((σ.maps x).isSome && (σ.get r).isSome)
  | .erase x _ => (σ.maps x).isSome
  | .clear x => (σ.maps x).isSome
  | .assignCopy x y => (σ.maps x).isSome && (σ.maps y).isSome
  | .assignMove x y => decide (x ≠ y) && ((σ.maps x).isSome && (σ.maps y).isSome)
  | .swap x y => (σ.maps x).isSome && (σ.maps y).isSome
  | .merge x y => (σ.maps x).isSome && (σ.maps y).isSome
  | .take y _ x _ => (σ.vars y).isNone && (σ.maps x).isSome
  | .modify r _ => full (σ.get r)

theorem argOk_iff {σ : KState C K A W} {a : Arg C K I} (h : argOk σ a = true) : KArgOk σ a := by
  cases a with
  | make i => trivial
  | copy r => exact Option.isSome_iff_exists.1 h
  | move r => exact Option.isSome_iff_exists.1 h

theorem legal_iff {σ : KState C K A W} {q : MapOp C K I J F} (h : legal σ q = true) : KLegal σ q := by
  cases q <;> simp only [legal, Bool.and_eq_true, decide_eq_true_eq, Option.isNone_iff_eq_none, Option.isSome_iff_exists] at h <;>
    try exact h
  · exact ⟨h.1, argOk_iff h.2⟩
  · exact ⟨h.1, argOk_iff h.2⟩
  · rename_i r f
    show ∃ a v, σ.get r = some ⟨a, some v⟩
    cases hr : σ.get r with
    | none => simp [hr, full] at h
    | some b =>
      obtain ⟨a, v⟩ := b
      cases v with
      | none => simp [hr, full] at h
      | some v => exact ⟨a, v, rfl⟩

/-- Run a history; operations that are not legal are left out. -/
def after (H : Holder (Maps.Cell C) S W I F) (H' : Holder (Maps.Cell C) S W J F) (abs : S → Boxes (Maps.Cell C) A W) :
    List (MapOp C K I J F × Ctx) → MS C K S → MS C K S
  | [], s => s
  | (q, c) :: cs, s => after H H' abs cs (if legal (kstate abs s) q then
      match call H H' q c s with
      | .ok _ s' => s'
      | .threw _ s' => s'
      | _ => s
    else s)

theorem reach {H : Holder (Maps.Cell C) S W I F} {H' : Holder (Maps.Cell C) S W J F} {abs : S → Boxes (Maps.Cell C) A W}
    {init : S} {s : MS C K S} (cs : List (MapOp C K I J F × Ctx)) (h : Reach H H' abs init s) :
    Reach H H' abs init (after H H' abs cs s) := by
  induction cs generalizing s with
  | nil => exact h
  | cons c cs ih =>
    obtain ⟨q, c⟩ := c
    refine ih ?_
    by_cases hl : legal (kstate abs s) q = true
    · simp only [hl, if_true]
      have := legal_iff hl
      cases hc : call H H' q c s with
      | ok u s' => exact h.ret q c this hc
      | threw e s' => exact h.threw q c e this hc
      | terminated => exact h
      | ub u => exact h
      | diverged => exact h
    · simpa [hl] using h

end

def tr : ATraits Nat Nat := alloc false false false

/-- Nothing fails; addresses from `n` on. -/
def good (n : Nat) : Ctx := ⟨VariantDemo.good n, fun _ => false, true⟩

/-- Allocations for owned objects fail. -/
def failing (n : Nat) : Ctx := ⟨VariantDemo.failing n, fun _ => false, true⟩

/-- Nodes cannot be allocated. -/
def noNodes (n : Nat) : Ctx := ⟨VariantDemo.good n, fun _ => true, true⟩

abbrev Ops := List (MapOp (Fin 4) Nat (Option Nat × TArgs Nat) (Option Nat × TArgs Nat) (Nat → Nat) × Ctx)

/-- Map 0 is `{1: 7, 2: 8}`, variable 0 is 9; `emplace(2, std::move(v0))` leaves the element, but the variable valueless.
Map 1 is a copy of map 0; its element 1 changes.  Failures: one insertion for lack of a node, one for lack of storage; a
copy of map 0. -/
def history : Ops := [
  (.empty 0, good 0), (.emplace 0 1 (.make (some 5, .pack [7])), good 100), (.tryEmplace 0 2 (.make (some 6, .pack [8])), good 110),
  (.make 0 (some 5, .pack [9]), good 120), (.emplace 0 2 (.move (.var 0)), good 130), (.copy 1 0, good 140),
  (.modify (.at 1 1) (· + 100), good 0), (.emplace 0 3 (.make (some 5, .pack [1])), noNodes 150),
  (.tryEmplace 0 3 (.make (some 5, .pack [1])), failing 160), (.copy 2 0, failing 170)]

/-- Map 1 gets a third element, moved from map 0; map 2 is moved from map 1; map 0 is merged into map 3, which has element
1; variable 1 is constructed from an element that does not exist, and then from one that does. -/
def more : Ops := [
  (.insertOrAssign 1 3 true (.at 0 1), good 180), (.move 2 1, good 0), (.empty 3, good 0),
  (.insertOrAssign 3 1 false (.at 2 1), good 190), (.merge 3 0, good 0), (.take 1 true 0 7, good 0),
  (.take 1 true 2 3, good 200), (.assignCopy 1 3, good 210), (.swap 1 2, good 0), (.erase 2 1, good 0),
  (.insertOrAssign 2 2 true (.var 1), good 220)]

def ends : Ops := [
  (.destroy 0, good 0), (.destroy 1, good 0), (.clear 2, good 0), (.destroy 2, good 0), (.destroy 3, good 0), (.destroyVar 0, good 0),
  (.destroyVar 1, good 0)]

abbrev run (cs : Ops) : MS (Fin 4) Nat (St (Maps.Cell (Fin 4)) Nat Nat (Obj Nat)) :=
  after (Holder.indirect tr Demo.T) (Holder.indirect tr Demo.T) Indirect.abs cs ⟨St.init, fun _ => none, 0⟩

theorem gone {S A W : Type} {abs : S → Boxes (Maps.Cell (Fin 4)) A W} {s : MS (Fin 4) Nat S} {x : Fin 4}
    (h : s.maps x = none) : (kstate abs s).maps x = none := by
  simp [kstate, kview, h]

/-- The elements with keys 1, 2, 3 of a map. -/
def row {A W : Type} (σ : KState (Fin 4) Nat A W) (x : Fin 4) : Option (List (Option (Box A W))) :=
  (σ.maps x).map fun m => [m 1, m 2, m 3]

abbrev run14 (cs : Ops) : MS (Fin 4) Nat (St (Maps.Cell (Fin 4)) Nat Nat (Obj Nat)) :=
  after (Holder.indirect14 tr Demo.T) (Holder.indirect14 tr Demo.T) Indirect.abs cs ⟨St.init, fun _ => none, 0⟩

example : tr.Sound ∧ tr.Reflexive ∧
    Follows (Rules.plain tr Demo.T) Indirect.abs (Composite.IOk tr) (Holder.indirect (L := Maps.Cell (Fin 4)) tr Demo.T) ∧
    Composite.IOk tr (St.init : St (Maps.Cell (Fin 4)) Nat Nat (Obj Nat)) ∧
    Reach (Holder.indirect tr Demo.T) (Holder.indirect tr Demo.T) Indirect.abs St.init (run history) ∧
    List.map (row (kstate Indirect.abs (run history))) [0, 1, 2, 3] =
      [some [some ⟨5, some 7⟩, some ⟨6, some 8⟩, none], some [some ⟨5, some 107⟩, some ⟨6, some 8⟩, none], none, none] ∧
    (kstate Indirect.abs (run history)).vars 0 = some ⟨5, none⟩ :=
  ⟨alloc_sound _ _ _, alloc_refl _ _ _, C64_elements_indirect (alloc_sound _ _ _) (alloc_refl _ _ _) Demo.T, Maps.iok0,
    reach _ .init, by decide +kernel, by decide +kernel⟩

/-- Everything but the first copy, and at the end everything is destroyed. -/
example : Reach (Holder.indirect tr Demo.T) (Holder.indirect tr Demo.T) Indirect.abs St.init (run (history ++ more)) ∧
    List.map (row (kstate Indirect.abs (run (history ++ more)))) [0, 1, 2, 3] =
      [some [some ⟨5, none⟩, none, none], some [some ⟨5, some 107⟩, some ⟨6, some 8⟩, some ⟨5, none⟩],
        some [none, some ⟨6, some 7⟩, none], some [some ⟨5, some 107⟩, some ⟨6, some 8⟩, none]] ∧
    List.map (kstate Indirect.abs (run (history ++ more))).vars [0, 1, 2] = [some ⟨5, none⟩, some ⟨5, some 0⟩, none] ∧
    (∀ x, (kstate Indirect.abs (run (history ++ more ++ ends))).maps x = none ∧
      (kstate Indirect.abs (run (history ++ more ++ ends))).vars x = none) := by
  refine ⟨reach _ .init, by decide +kernel, by decide +kernel, fun x => ⟨?_, ?_⟩⟩
  · exact gone ((by decide +kernel : ∀ x, (run (history ++ more ++ ends)).maps x = none) x)
  · exact (by decide +kernel : ∀ x, (kstate Indirect.abs (run (history ++ more ++ ends))).vars x = none) x

/-- With indirect_cxx14.h. -/
example : Reach (Holder.indirect14 tr Demo.T) (Holder.indirect14 tr Demo.T) Indirect.abs St.init (run14 (history ++ more)) ∧
    List.map (row (kstate Indirect.abs (run14 (history ++ more)))) [0, 1, 2, 3] =
      [some [some ⟨5, none⟩, none, none], some [some ⟨5, some 107⟩, some ⟨6, some 8⟩, some ⟨5, none⟩],
        some [none, some ⟨6, some 7⟩, none], some [some ⟨5, some 107⟩, some ⟨6, some 8⟩, none]] ∧
    (∀ x, (kstate Indirect.abs (run14 (history ++ more ++ ends))).maps x = none ∧
      (kstate Indirect.abs (run14 (history ++ more ++ ends))).vars x = none) := by
  refine ⟨reach _ .init, by decide +kernel, fun x => ⟨?_, ?_⟩⟩
  · exact gone ((by decide +kernel : ∀ x, (run14 (history ++ more ++ ends)).maps x = none) x)
  · exact (by decide +kernel : ∀ x, (kstate Indirect.abs (run14 (history ++ more ++ ends))).vars x = none) x

/-- `polymorphic`: elements of different dynamic types; one is taken into a variable by a move; a copy fails after its first
element. -/
abbrev POps :=
  List (MapOp (Fin 4) Nat (Option Nat × Option Nat × TArgs Nat) (Option Nat × Option Nat × TArgs Nat) (Nat → Nat → Nat) × Ctx)

/-- The second node cannot be allocated. -/
def oneNode (n : Nat) : Ctx := ⟨VariantDemo.good n, fun k => k == 1, true⟩

def phistory : POps := [
  (.empty 0, good 0), (.emplace 0 1 (.make (some 5, some 1, .pack [7])), good 100),
  (.tryEmplace 0 2 (.make (some 6, some 2, .pack [8])), good 110), (.copy 1 0, oneNode 120), (.copy 1 0, good 130),
  (.take 0 true 0 1, good 140), (.insertOrAssign 1 3 true (.var 0), good 150), (.empty 2, good 0), (.merge 2 1, good 0)]

def pends : POps := [(.destroy 0, good 0), (.destroy 1, good 0), (.destroy 2, good 0), (.destroyVar 0, good 0)]

abbrev runP (cs : POps) : MS (Fin 4) Nat (St (Maps.Cell (Fin 4)) Nat Nat (PBody Nat Nat)) :=
  after (Holder.polymorphic tr PDemo.P) (Holder.polymorphic tr PDemo.P) Polymorphic.abs cs ⟨St.init, fun _ => none, 0⟩

abbrev runP14 (cs : POps) : MS (Fin 4) Nat (St (Maps.Cell (Fin 4)) Nat Nat (PBody Nat Nat)) :=
  after (Holder.polymorphic14 tr PDemo.P) (Holder.polymorphic14 tr PDemo.P) Polymorphic.abs cs ⟨St.init, fun _ => none, 0⟩

example : Reach (Holder.polymorphic tr PDemo.P) (Holder.polymorphic tr PDemo.P) Polymorphic.abs St.init (runP phistory) ∧
    List.map (row (kstate Polymorphic.abs (runP phistory))) [0, 1, 2, 3] =
      [some [some ⟨5, none⟩, some ⟨6, some (2, 2008)⟩, none], some [none, none, none],
        some [some ⟨5, some (1, 1007)⟩, some ⟨6, some (2, 2008)⟩, some ⟨5, some (1, 1007)⟩], none] ∧
    (kstate Polymorphic.abs (runP phistory)).vars 0 = some ⟨5, none⟩ ∧
    (∀ x, (kstate Polymorphic.abs (runP (phistory ++ pends))).maps x = none ∧
      (kstate Polymorphic.abs (runP (phistory ++ pends))).vars x = none) := by
  refine ⟨reach _ .init, by decide +kernel, by decide +kernel, fun x => ⟨?_, ?_⟩⟩
  · exact gone ((by decide +kernel : ∀ x, (runP (phistory ++ pends)).maps x = none) x)
  · exact (by decide +kernel : ∀ x, (kstate Polymorphic.abs (runP (phistory ++ pends))).vars x = none) x

/-- With polymorphic_cxx14.h. -/
example : tr.Equality ∧
    Reach (Holder.polymorphic14 tr PDemo.P) (Holder.polymorphic14 tr PDemo.P) Polymorphic.abs St.init (runP14 phistory) ∧
    List.map (row (kstate Polymorphic.abs (runP14 phistory))) [0, 1, 2, 3] =
      [some [some ⟨5, none⟩, some ⟨6, some (2, 2008)⟩, none], some [none, none, none],
        some [some ⟨5, some (1, 1007)⟩, some ⟨6, some (2, 2008)⟩, some ⟨5, some (1, 1007)⟩], none] ∧
    (∀ x, (kstate Polymorphic.abs (runP14 (phistory ++ pends))).maps x = none ∧
      (kstate Polymorphic.abs (runP14 (phistory ++ pends))).vars x = none) := by
  refine ⟨Containers14Demo.eq_alloc .., reach _ .init, by decide +kernel, fun x => ⟨?_, ?_⟩⟩
  · exact gone ((by decide +kernel : ∀ x, (runP14 (phistory ++ pends)).maps x = none) x)
  · exact (by decide +kernel : ∀ x, (kstate Polymorphic.abs (runP14 (phistory ++ pends))).vars x = none) x

/-- The object owned by the element with key 2 of map 1 is the same object after map 1 was merged into map 2, where it is now
an element. -/
example : ∃ n p, ((runP (phistory.take 8)).maps 1).bind (·.find 2) = some n ∧
    addr (runP (phistory.take 8)).mach (.node n) = some p ∧
    ((runP phistory).maps 2).bind (·.find 2) = some n ∧ addr (runP phistory).mach (.node n) = some p :=
  ⟨3, 130, by decide +kernel, by decide +kernel, by decide +kernel, by decide +kernel⟩

/-- A map that passes its allocator 4 on: elements have it, whatever the allocators of the variables they come from. -/
def shistory : List (MapOp (Fin 4) Nat (TArgs Nat) (Option Nat × TArgs Nat) (Nat → Nat) × Ctx) := [
  (.empty 0, good 0), (.make 0 (some 5, .pack [9]), good 100), (.make 1 (some 4, .pack [3]), good 105),
  (.tryEmplace 0 1 (.copy (.var 0)), good 110), (.tryEmplace 0 2 (.move (.var 0)), good 120),
  (.tryEmplace 0 3 (.move (.var 1)), good 130), (.copy 1 0, good 140), (.insertOrAssign 1 3 false (.var 0), good 150)]

abbrev runS (cs : List (MapOp (Fin 4) Nat (TArgs Nat) (Option Nat × TArgs Nat) (Nat → Nat) × Ctx)) :
    MS (Fin 4) Nat (St (Maps.Cell (Fin 4)) Nat Nat (Obj Nat)) :=
  after (Holder.indirectIn 4 tr Demo.T) (Holder.indirect tr Demo.T) Indirect.abs cs ⟨St.init, fun _ => none, 0⟩

example : tr.pocca = false ∧
    Reach (Holder.indirectIn 4 tr Demo.T) (Holder.indirect tr Demo.T) Indirect.abs St.init (runS shistory) ∧
    List.map (row (kstate Indirect.abs (runS shistory))) [0, 1] =
      [some [some ⟨4, some 9⟩, some ⟨4, some 9⟩, some ⟨4, some 3⟩], some [some ⟨4, some 9⟩, some ⟨4, some 9⟩, some ⟨4, some 0⟩]] ∧
    List.map (kstate Indirect.abs (runS shistory)).vars [0, 1] = [some ⟨5, some 0⟩, some ⟨4, none⟩] :=
  ⟨rfl, reach _ .init, by decide +kernel, by decide +kernel⟩

end MapsDemo
end Verif.Props
