import Verif.Proofs.Polymorphic14
import Verif.Props.PolySafety
import Verif.Props.PolyOps

/-!
# C41–C43, C55: polymorphic_cxx14.h

`Polymorphic14.call`, `Polymorphic14.run`, `Polymorphic14.LegalRun` and `Polymorphic14.Reach` are what `Polymorphic.call`
etc. are, with the functions of polymorphic_cxx14.h.  `tr.Equality` says that `==` of allocators is reflexive and that
`is_always_equal` does not lie.
-/

set_option autoImplicit false
set_option linter.unusedSectionVars false
set_option linter.unusedSimpArgs false

namespace Verif.Props
open Verif.Polymorphic (abs view)

section
variable {L A R Ty V X : Type} [DecidableEq L] [DecidableEq R] [DecidableEq Ty]
variable {tr : ATraits A R} {P : PSpec Ty V X} {s s' : St L A R (PBody Ty V)} {o : POp L A Ty V X} {e e' : Env}
  {out : Out L A (Ty × V)} {ex : Exn} {x y z : L} {ty : Ty} {v : V} {a b : A}

/-! ## C43 -/

/-- Every call other than an allocator-extended move and an initializer-list construction has the same result with
either header, in every state and environment, whatever the propagation traits: same outcome, same objects, same
storage, same sequence of operations. -/
theorem C43_other_calls (E : tr.Equality) (P : PSpec Ty V X) (o : POp L A Ty V X)
    (h1 : ∀ x a y, o ≠ .moveA x a y) (h2 : ∀ x a ty l us, o ≠ .make x a (.ilist ty l us)) (e : Env)
    (s : St L A R (PBody Ty V)) :
    Polymorphic14.call tr (plainP P) o e s = Polymorphic.call tr (plainP P) o e s := by
  rw [Polymorphic14.call_eq tr E P o e s (by cases o <;> first | trivial | exact absurd rfl (h1 _ _ _))]
  cases o with
  | make x a c =>
    cases c with
    | ilist ty l us => exact absurd rfl (h2 _ _ _ _ _)
    | _ => rfl
  | _ => rfl

/-- An allocator-extended move has the same result with either header if the allocator does not propagate on copy
assignment, or the allocator given equals that of the source. -/
theorem C43_alloc_move (E : tr.Equality) (P : PSpec Ty V X) (x : L) (a : A) (y : L) (e : Env)
    (s : St L A R (PBody Ty V))
    (h : tr.pocca = false ∨ ∀ k, abs s y = some k → tr.eq a k.alloc = true) :
    Polymorphic14.call tr (plainP P) (.moveA x a y) e s = Polymorphic.call tr (plainP P) (.moveA x a y) e s := by
  refine Polymorphic14.call_eq tr E P (.moveA x a y) e s ?_
  intro hp k hk
  rcases h with h | h
  · rw [hp] at h; cases h
  · exact h ⟨k.alloc, _⟩ (by simp only [abs, absWith, hk]; rfl)

/-- An initializer-list construction has the same result with either header if the type asked for is `T` itself. -/
theorem C43_ilist (tr : ATraits A R) (P : PSpec Ty V X) (x : L) (a : Option A) (l us : List X) (e : Env)
    (s : St L A R (PBody Ty V)) :
    Polymorphic14.call tr (plainP P) (.make x a (.ilist P.base l us)) e s =
      Polymorphic.call tr (plainP P) (.make x a (.ilist P.base l us)) e s := by
  simp only [Polymorphic14.call, Polymorphic.call, Polymorphic14.step, Polymorphic.step, Polymorphic14.construct_eq]
  rfl

/-- For allocators that propagate on copy assignment only if they are always equal, and histories without
initializer-list construction (or only of `T` itself), every history runs alike with either header, and is legal with
one if and only if with the other. -/
theorem C43_same_history (E : tr.Equality) (hq : tr.pocca = true → tr.alwaysEqual = true) (P : PSpec Ty V X)
    (cs : List (POp L A Ty V X × Env))
    (hc : ∀ c ∈ cs, ∀ x a ty l us, c.1 = .make x a (.ilist ty l us) → ty = P.base) (s : St L A R (PBody Ty V)) :
    Polymorphic14.run tr P cs s = Polymorphic.run tr P cs s ∧
    (Polymorphic14.LegalRun tr P cs s ↔ Polymorphic.LegalRun tr P cs s) := by
  have hf : Polymorphic14.fixes P.base cs = cs := by
    unfold Polymorphic14.fixes
    refine (List.map_congr_left (g := id) fun c hm => ?_).trans (List.map_id cs)
    obtain ⟨o, e⟩ := c
    cases o with
    | make x a k =>
      cases k with
      | ilist ty l us => rw [hc _ hm x a ty l us rfl]; rfl
      | _ => rfl
    | _ => rfl
  have := Polymorphic14.run_eq E hq P cs s
  rwa [hf] at this

/-! ## C41 -/

/-- For allocators that propagate on copy assignment only if they are always equal, every object that a program can
have owns storage that its allocator can free: in particular after an allocator-extended move.
Missing: allocators with `propagate_on_container_copy_assignment` that can compare unequal, for which this is false:
see `C41_steals_foreign_storage` and `C41_violated`. -/
theorem C41_storage_of_own_allocator_partial (S : tr.Sound) (E : tr.Equality)
    (hq : tr.pocca = true → tr.alwaysEqual = true) (h : Polymorphic14.Reach tr P s) {p : Addr} {b : Spec.Box A (Ty × V)}
    (hb : abs s x = some b) (hx : addr s x = some p) :
    ∃ c, s.heap p = some c ∧ c.arena = tr.res b.alloc :=
  C32_storage_of_own_allocator S (Polymorphic14.reach_of E hq h) hb hx

/-- With an allocator that propagates on copy assignment, an allocator-extended move from an engaged object to an
allocator of another memory resource always takes over storage that the new object's allocator cannot free, and
destroying the new object is undefined behaviour. -/
theorem C41_steals_foreign_storage (S : tr.Sound) (h : Polymorphic.Reach tr P s) (hp : tr.pocca = true)
    (hx : Spec.Dead (abs s) x) (hy : abs s y = some ⟨b, some (ty, v)⟩) (hab : tr.res a ≠ tr.res b) :
    Spec.PLegal tr (abs s) (.moveA x a y : POp L A Ty V X) ∧
    ∃ s' p c, Polymorphic14.call tr (plainP P) (.moveA x a y) e s = .ok .unit s' ∧
      abs s' x = some ⟨a, some (ty, v)⟩ ∧ addr s' x = some p ∧ s'.heap p = some c ∧ c.arena ≠ tr.res a ∧
      Spec.PLegal tr (abs s') (.destroy x : POp L A Ty V X) ∧
      Polymorphic14.call tr (plainP P) (.destroy x) e' s' = .ub .wrongArena := by
  have hxs : s.hs x = none := by simpa [Spec.Dead, abs, absWith] using hx
  cases hk : s.hs y with
  | none => simp [abs, absWith, hk] at hy
  | some k =>
    cases hkp : k.p with
    | none => simp [abs, absWith, hk, hkp] at hy
    | some p =>
      have hpy : addr s y = some p := by simp [addr, hk, hkp]
      obtain ⟨r, ty', v', hc, hv⟩ := C31_control_blocks_complete S h hpy
      have : ty' = ty ∧ v' = v := by simpa [Spec.valueOf, hy] using hv.symm
      obtain ⟨rfl, rfl⟩ := this
      obtain ⟨c, hc', hr⟩ := C32_storage_of_own_allocator S h hy hpy
      rw [hc] at hc'; cases hc'
      simp only at hr
      have hxy : x ≠ y := by rintro rfl; rw [hxs] at hk; cases hk
      let s1 : St L A R (PBody Ty V) :=
        { s.enter e with hs := upd (upd s.hs y (some ⟨none, k.alloc⟩)) x (some ⟨some p, a⟩) }
      have habs : abs s1 x = some ⟨a, some (ty', v')⟩ := by
        simp [abs, absWith, s1, St.enter, hc]
      refine ⟨⟨hx, _, hy⟩, s1, p, _, ?_, habs, ?_, hc, ?_, ⟨_, habs⟩, ?_⟩
      · have h1 : upd s.hs y (some ⟨none, k.alloc⟩) x = none := by rw [upd_other _ _ hxy]; exact hxs
        cases ha : tr.alwaysEqual <;>
          simp only [Polymorphic14.call, Polymorphic14.step, Polymorphic14.ctorMoveA, M.noexceptIf, M.bind_eq, getH,
            St.enter, hk, hp, if_true, if_false, ha, Bool.false_eq_true, setP, hkp, M.pure_eq, emplace, h1, s1]
      · simp [addr, s1]
      · rw [hr]; exact Ne.symm hab
      · have hne : r ≠ tr.res a := by rw [hr]; exact Ne.symm hab
        simp [Polymorphic14.call, Polymorphic14.step, Polymorphic14.dtor, Polymorphic14.reset, Polymorphic14.vdestroy,
          Polymorphic14.destroyCB, plainP, endU, readU, readCB, readBody, writeBody, emit, M.noexceptIf, M.bind_eq,
          getH, St.enter, s1, hc, deallocate, hne]

open Demo in
/-- A whole program in which this happens: make an object with one allocator, move it to another one, destroy it.
Every call is legal, and with polymorphic.h the same program ends normally. -/
theorem C41_violated :
    let cs : PDemo.Hist := [(.make 1 (some 5) (.from 1 (.arg 7)), fine 100), (.moveA 2 6 1, fine 101),
      (.destroy 2, fine 102)]
    Polymorphic14.LegalRun (alloc true false false) PDemo.P cs St.init ∧
    (∃ u, Polymorphic14.run (alloc true false false) PDemo.P cs St.init = .ub u) ∧
    Polymorphic.LegalRun (alloc true false false) PDemo.P cs St.init ∧
    PDemo.ends (alloc true false false) cs = true := by
  refine ⟨?_, ?_, by decide, by decide⟩
  · unfold Polymorphic14.LegalRun
    decide
  · refine ⟨.wrongArena, ?_⟩
    rfl

/-! ## C42 -/

/-- What the initializer-list constructors do: whatever type `ty` is asked for, they make a `T` (the base class). -/
theorem C42_creates_base (S : tr.Sound) (E : tr.Equality) (hq : tr.pocca = true → tr.alwaysEqual = true)
    (h : Polymorphic14.Reach tr P s) {oa : Option A} {l us : List X} (hx : Spec.Dead (abs s) x)
    (hc : Polymorphic14.call tr (plainP P) (.make x oa (.ilist ty l us)) e s = .ok out s') :
    ∃ w, P.make P.base (.ilist l us) (e.choice 0) = .ok w ∧
      abs s' = Spec.put (abs s) x ⟨oa.getD tr.dflt, some (P.base, w)⟩ := by
  have hc' : Polymorphic.call tr (plainP P) (.make x oa (.ilist P.base l us)) e s = .ok out s' := by
    rw [← hc, Polymorphic14.call_eq tr E P (.make x oa (.ilist ty l us)) e s trivial]; rfl
  obtain ⟨_, _, w, p, h1, _, h2⟩ := (C34_construct_args (c := .ilist P.base l us) S
    (Polymorphic14.reach_of E hq h) hx rfl).1 _ _ hc'
  exact ⟨w, h1, h2⟩

/-- So for every `U` other than `T` the object never owns a `U`. -/
theorem C42_violated (S : tr.Sound) (E : tr.Equality) (hq : tr.pocca = true → tr.alwaysEqual = true)
    (h : Polymorphic14.Reach tr P s) {oa : Option A} {l us : List X} (hx : Spec.Dead (abs s) x) (hty : ty ≠ P.base)
    (hc : Polymorphic14.call tr (plainP P) (.make x oa (.ilist ty l us)) e s = .ok out s') :
    ∀ w, Spec.valueOf (abs s') x ≠ some (ty, w) := by
  obtain ⟨w, _, h2⟩ := C42_creates_base S E hq h hx hc
  intro w' hw
  rw [h2] at hw
  simp [Spec.valueOf, Spec.put] at hw
  exact hty hw.1.symm

/-- `in_place_type<T>` with an initializer list makes the object own a `T` built from the list and the other
arguments.  Missing: `in_place_type<U>` for `U` derived from `T`, for which this is false: see `C42_violated`. -/
theorem C42_creates_requested_partial (S : tr.Sound) (E : tr.Equality) (hq : tr.pocca = true → tr.alwaysEqual = true)
    (h : Polymorphic14.Reach tr P s) {oa : Option A} {l us : List X} (hx : Spec.Dead (abs s) x) (hty : ty = P.base)
    (hc : Polymorphic14.call tr (plainP P) (.make x oa (.ilist ty l us)) e s = .ok out s') :
    ∃ w, P.make ty (.ilist l us) (e.choice 0) = .ok w ∧
      abs s' = Spec.put (abs s) x ⟨oa.getD tr.dflt, some (ty, w)⟩ := by
  subst hty; exact C42_creates_base S E hq h hx hc

/-! ## C55 -/

/-- For allocators that propagate on copy assignment only if they are always equal: no legal history has undefined
behaviour. -/
theorem C55_no_undefined_behaviour (S : tr.Sound) (E : tr.Equality) (hq : tr.pocca = true → tr.alwaysEqual = true)
    (cs : List (POp L A Ty V X × Env)) (hl : Polymorphic14.LegalRun tr P cs St.init) :
    (∃ log s, Polymorphic14.run tr P cs St.init = .done log s) ∨
    (∃ log, Polymorphic14.run tr P cs St.init = .terminated log) := by
  have := Polymorphic14.run_eq E hq P cs St.init
  rw [this.1]
  exact C31_history_no_undefined_behaviour S _ (this.2.1 hl)

/-- Different objects own different blocks. -/
theorem C55_exclusive_ownership (S : tr.Sound) (E : tr.Equality) (hq : tr.pocca = true → tr.alwaysEqual = true)
    (h : Polymorphic14.Reach tr P s) {p : Addr} (hx : addr s x = some p) (hy : addr s y = some p) : x = y :=
  C32_exclusive_ownership S (Polymorphic14.reach_of E hq h) hx hy

/-- Once no object is left, nothing is: every block has been freed as often as allocated and every owned object
destroyed as often as constructed. -/
theorem C55_no_leak (S : tr.Sound) (E : tr.Equality) (hq : tr.pocca = true → tr.alwaysEqual = true)
    (h : Polymorphic14.Reach tr P s) (hdead : ∀ x, Spec.Dead (abs s) x) (p : Addr) :
    s.heap p = none ∧ Spec.allocsAt p s.trace = Spec.deallocsAt p s.trace ∧
      Spec.constructsAt p s.trace = Spec.destroysAt p s.trace :=
  C32_no_leak S (Polymorphic14.reach_of E hq h) hdead p

/-- Storage goes back to the resource it came from. -/
theorem C55_deallocate_matches_allocate (S : tr.Sound) (E : tr.Equality)
    (hq : tr.pocca = true → tr.alwaysEqual = true) (h : Polymorphic14.Reach tr P s) {pre post : List (Ev R)} {r : R}
    {p : Addr} (ht : s.trace = pre ++ .dealloc r p :: post) :
    ∃ t₁ t₂, pre = t₁ ++ .alloc r p :: t₂ ∧ ∀ ev ∈ t₂, ¬ Spec.storageEvent p ev :=
  C32_deallocate_matches_allocate S (Polymorphic14.reach_of E hq h) ht

/-- A legal call other than an initializer-list construction of a `U` different from `T` has the result given by the
specification on values with a type tag. -/
theorem C55_call_is_value_call (S : tr.Sound) (E : tr.Equality) (hq : tr.pocca = true → tr.alwaysEqual = true)
    (h : Polymorphic14.Reach tr P s) (hl : Spec.PLegal tr (abs s) o)
    (ho : ∀ x a ty l us, o = .make x a (.ilist ty l us) → ty = P.base) (e : Env) :
    match Polymorphic14.call tr (plainP P) o e s with
    | .ok out s' => Spec.pstep tr P (available s e) (e.choice 0) (abs s) o = .ret out (abs s')
    | .threw x s' => Spec.pstep tr P (available s e) (e.choice 0) (abs s) o = .threw x (abs s')
    | .terminated => Spec.pstep tr P (available s e) (e.choice 0) (abs s) o = .terminated
    | _ => False := by
  have hf : Polymorphic14.fix P.base o = o := by
    cases o with
    | make x a k =>
      cases k with
      | ilist ty l us => rw [ho x a ty l us rfl]; rfl
      | _ => rfl
    | _ => rfl
  have := C40_call_is_value_call S (Polymorphic14.reach_of E hq h) hl e
  rwa [Polymorphic14.call_eq tr E P o e s (Polymorphic14.safe_of E hq s o), hf]

/-- Exactly when a legal call terminates the program: as with polymorphic.h (C39), only a move assignment between
unequal allocators; in particular the unconditional `noexcept` of the move constructor is kept. -/
theorem C55_terminates_iff (S : tr.Sound) (E : tr.Equality) (hq : tr.pocca = true → tr.alwaysEqual = true)
    (h : Polymorphic14.Reach tr P s) (hl : Spec.PLegal tr (abs s) o) (e : Env) :
    Polymorphic14.call tr (plainP P) o e s = .terminated ↔
      ∃ x y k b ty v, o = .assignMove x y ∧ x ≠ y ∧ abs s x = some k ∧ abs s y = some ⟨b, some (ty, v)⟩ ∧
        tr.eq k.alloc b = false ∧ tr.pocma = true ∧
        (available s e = false ∨ ∃ ex, (P.move ty v (e.choice 0)).1 = .error ex) := by
  rw [Polymorphic14.call_eq tr E P o e s (Polymorphic14.safe_of E hq s o),
    C39_terminates_iff S (Polymorphic14.reach_of E hq h) ((Polymorphic14.legal_fix P.base).2 hl) e]
  constructor
  · rintro ⟨x, y, k, b, ty, v, h0, h1, h2, h3, h4, h5, h6⟩
    refine ⟨x, y, k, b, ty, v, ?_, h1, h2, h3, h4, ?_, h6⟩
    · cases o <;> simp_all [Polymorphic14.fix]
    · rcases h5 with h5 | h5
      · exact h5
      · rw [E.always h5] at h4; cases h4
  · rintro ⟨x, y, k, b, ty, v, rfl, h1, h2, h3, h4, h5, h6⟩
    exact ⟨x, y, k, b, ty, v, rfl, h1, h2, h3, h4, .inl h5, h6⟩

end

/-! ## Instances -/

section
open Demo

theorem alloc_equality (a b c : Bool) : (alloc a b c).Equality := ⟨by simp [alloc], by simp [alloc]⟩

example : std.Equality ∧ (std.pocca = true → std.alwaysEqual = true) := ⟨⟨fun _ => rfl, fun _ _ _ => rfl⟩, fun _ => rfl⟩

instance (tr : ATraits Nat Nat) (cs : PDemo.Hist) (s : St Nat Nat Nat (PBody Nat Nat)) :
    Decidable (Polymorphic14.LegalRun tr PDemo.P cs s) :=
  decLegalWith (fun (c : POp Nat Nat Nat Nat Nat × Env) s => Polymorphic14.call tr (plainP PDemo.P) c.1 c.2 s)
    (fun s c => Spec.PLegal tr (abs s) c.1) cs s

/-- Reflexivity of `==`, which every allocator must have, is what keeps the `noexcept` of the move constructor: with an allocator
that is never equal to itself the constructor would allocate, and end the program if it got no storage. -/
theorem C55_noexcept_needs_reflexivity :
    let tr : ATraits Nat Nat := { alloc false false false with eq := fun _ _ => false }
    let cs : PDemo.Hist := [(.make 1 (some 5) (.from 1 (.arg 7)), fine 100), (.move 2 1, full)]
    tr.Sound ∧ Polymorphic14.LegalRun tr PDemo.P cs St.init ∧
      ∃ log, Polymorphic14.run tr PDemo.P cs St.init = .terminated log := by
  refine ⟨⟨by simp, by simp [alloc]⟩, ?_, ?_⟩
  · unfold Polymorphic14.LegalRun
    decide
  · exact ⟨_, rfl⟩

-- C43_same_history, C55_no_undefined_behaviour
example : (alloc false true false).Sound ∧ (alloc false true false).Equality ∧
    ((alloc false true false).pocca = true → (alloc false true false).alwaysEqual = true) ∧
    Polymorphic14.LegalRun (alloc false true false) PDemo.P [
      (.make 1 (some 5) (.from 1 (.arg 7)), fine 100), (.make 2 (some 6) (.ilist 0 [3] [5]), fine 101),
      (.moveA 3 6 1, fine 102), (.assignCopy 2 3, bad 103), (.assignMove 2 3, fine 104), (.destroy 2, full)] St.init :=
  ⟨alloc_sound _ _ _, alloc_equality _ _ _, by decide, by decide⟩

-- C41_steals_foreign_storage: object 1 has allocator 5, the new object is to have allocator 6
example : Polymorphic.Reach (alloc true false false) PDemo.P (PDemo.st true false false) ∧
    Spec.Dead (abs (PDemo.st true false false)) 7 ∧
    abs (PDemo.st true false false) 1 = some ⟨5, some (1, 1007)⟩ ∧
    (alloc true false false).res 6 ≠ (alloc true false false).res 5 :=
  ⟨PDemo.st_reach _ _ _, by decide, by decide, by decide⟩

-- C42: `in_place_type<2>` with an initializer list makes a 0
example : outcome (Polymorphic14.call (alloc false false false) (plainP PDemo.P)
    (.make 1 none (.ilist 2 [1, 2] [])) (fine 100) (St.init : St Nat Nat Nat (PBody Nat Nat))) = 0 := by decide

end
end Verif.Props
