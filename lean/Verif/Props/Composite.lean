import Verif.PDemo
import Verif.Proofs.CompositeLaws

/-!
# C47: classes with several `indirect` or `polymorphic` members

`Composite.Members`: the types of the members; member `k` of an object `x` is at `(x, k)`.  `Spec.Behaves`: what the
theorems use of a member type; `indirect` of both headers and `polymorphic` have it, for every owned type, so that the
owned types of the members can differ.  `Composite.Reach H K abs init s`: a program can get into state `s`.
`Ends r Q E D`: `r` is a normal end in a state with `Q`, an exception in a state with `E`, or `std::terminate` and `D`.
-/

set_option autoImplicit false
set_option linter.unusedSectionVars false

namespace Verif.Props
open Verif Spec Composite

/-! ## The member types -/

section
variable {L A R V X Ty : Type} [DecidableEq L] [DecidableEq R] [DecidableEq Ty] {tr : ATraits A R}

/-- indirect.h -/
theorem C47_indirect_members (S : tr.Sound) (Rf : tr.Reflexive) (T : TSpec V X) :
    Behaves tr T Indirect.abs (IOk tr) (Holder.indirect (L := L) tr T) := indirect_behaves S Rf T

/-- indirect_cxx14.h -/
theorem C47_indirect14_members (S : tr.Sound) (Rf : tr.Reflexive) (T : TSpec V X) :
    Behaves tr T.cxx14 Indirect.abs (IOk tr) (Holder.indirect14 (L := L) tr T) := indirect14_behaves S Rf T

/-- polymorphic.h -/
theorem C47_polymorphic_members (S : tr.Sound) (Rf : tr.Reflexive) (P : PSpec Ty V X) :
    Behaves tr P.owned Polymorphic.abs (POk tr) (Holder.polymorphic (L := L) tr P) := polymorphic_behaves S Rf P

end

/-! ## The enclosing class -/

section
variable {C S A R W X I F : Type} [DecidableEq C]
variable {H : Members C S W I F} {K : Nat} {abs : S → Comp C A W} {Ok : S → Prop} {init s : S}
variable {tr : ATraits A R} {T : Nat → TSpec W X} {x y : C}

/-- No legal operation in a reachable state is undefined behaviour. -/
theorem C47_no_undefined_behaviour (B : ∀ k, Behaves tr (T k) abs Ok (H k)) (h0 : Ok init) (hd : ∀ l, abs init l = none)
    (h : Reach H K abs init s) (o : COp C I F) (es : Nat → Env) (hl : CLegal K (abs s) o) :
    (∃ s', call H K o es s = .ok () s') ∨ (∃ e s', call H K o es s = .threw e s') ∨ call H K o es s = .terminated := by
  have := call_ends B o es (h.ok B h0 hd).1 (h.ok B h0 hd).2 hl
  cases hc : call H K o es s with
  | ok u s' => exact .inl ⟨s', rfl⟩
  | threw e s' => exact .inr (.inl ⟨e, s', rfl⟩)
  | terminated => exact .inr (.inr rfl)
  | ub u => rw [hc] at this; exact this.elim
  | diverged => rw [hc] at this; exact this.elim

/-- Between operations every object has all its members or none, whatever was thrown before. -/
theorem C47_all_members_or_none (B : ∀ k, Behaves tr (T k) abs Ok (H k)) (h0 : Ok init) (hd : ∀ l, abs init l = none)
    (h : Reach H K abs init s) (x : C) : CDead (abs s) x ∨ CLive K (abs s) x := (h.ok B h0 hd).2 x

/-- Construction: every member owns an object and nothing else changes; or an exception, and nothing changes. -/
theorem C47_make (B : ∀ k, Behaves tr (T k) abs Ok (H k)) (h0 : Ok init) (hd : ∀ l, abs init l = none)
    (h : Reach H K abs init s) (is : Nat → I) (es : Nat → Env) (hx : CDead (abs s) x) :
    Ends (call H K (.make x is) es s)
      (fun s' => (∀ k, k < K → ∃ a v, abs s' (x, k) = some ⟨a, some v⟩) ∧ CSame (abs s) (abs s') [x])
      (fun s' => abs s' = abs s) False :=
  (make_ends B is es (h.ok B h0 hd).1 hx).mono
    (fun _ h => ⟨h.2.1, fun z hz k => h.2.2 _ fun e => hz (List.mem_singleton.2 e.1)⟩) (fun _ h => h.2) (fun h => h)

/-- Copy construction: every member of `x` is a copy of that member of `y`, and nothing else changes, `y` neither; or
an exception, and nothing changes. -/
theorem C47_copy (B : ∀ k, Behaves tr (T k) abs Ok (H k)) (h0 : Ok init) (hd : ∀ l, abs init l = none)
    (h : Reach H K abs init s) (es : Nat → Env) (hx : CDead (abs s) x) (hy : CLive K (abs s) y) :
    Ends (call H K (.copy x y) es s)
      (fun s' => (∀ k, k < K → ∃ b b', abs s (y, k) = some b ∧ CopyOf tr (T k) b b' ∧ abs s' (x, k) = some b') ∧
        CSame (abs s) (abs s') [x])
      (fun s' => abs s' = abs s) False :=
  (copy_ends B es (h.ok B h0 hd).1 hx hy).mono
    (fun _ h => ⟨h.2.1, fun z hz k => h.2.2 _ fun e => hz (List.mem_singleton.2 e.1)⟩) (fun _ h => h.2) (fun h => h)

/-- Move construction never throws: every member of `x` has the allocator and value that member of `y` had, and `y` has
valueless members. -/
theorem C47_move (B : ∀ k, Behaves tr (T k) abs Ok (H k)) (h0 : Ok init) (hd : ∀ l, abs init l = none)
    (h : Reach H K abs init s) (es : Nat → Env) (hx : CDead (abs s) x) (hy : CLive K (abs s) y) :
    Ends (call H K (.move x y) es s)
      (fun s' => (∀ k, k < K → ∃ b, abs s (y, k) = some b ∧ abs s' (x, k) = some b ∧
          abs s' (y, k) = some ⟨b.alloc, none⟩) ∧ CSame (abs s) (abs s') [x, y])
      (fun _ => False) False :=
  (move_ends B es (h.ok B h0 hd).1 hx hy).mono
    (fun _ h => ⟨h.2.1, fun z hz k => h.2.2 _ (fun e => hz (by simp [show z = x from e.1]))
      (fun e => hz (by simp [show z = y from e.1]))⟩) (fun _ h => h) (fun h => h)

/-- Copy assignment between different objects: every member is assigned, and nothing else changes, `y` neither.  After
an exception the members before some member `j` are assigned, member `j` has its allocator and is valueless if it was
before, and nothing else changes. -/
theorem C47_assign_copy (B : ∀ k, Behaves tr (T k) abs Ok (H k)) (h0 : Ok init) (hd : ∀ l, abs init l = none)
    (h : Reach H K abs init s) (es : Nat → Env) (hx : CLive K (abs s) x) (hy : CLive K (abs s) y) (hne : x ≠ y) :
    Ends (call H K (.assignCopy x y) es s)
      (fun s' => CopyAssigned tr T (abs s) (abs s') x y K ∧ CSame (abs s) (abs s') [x])
      (fun s' => ∃ j, j < K ∧ CopyAssigned tr T (abs s) (abs s') x y j ∧
        (∃ a a', abs s (x, j) = some a ∧ abs s' (x, j) = some a' ∧ a'.alloc = a.alloc ∧ a'.val.isSome = a.val.isSome) ∧
        (∀ k, j < k → abs s' (x, k) = abs s (x, k)) ∧ CSame (abs s) (abs s') [x]) False :=
  (assignCopy_ends B es hne (h.ok B h0 hd).1 hx hy).mono
    (fun _ h => ⟨h.2.1, fun z hz k => h.2.2 _ fun e => hz (List.mem_singleton.2 e.1)⟩)
    (fun s' ⟨_, j, hj, h1, h2, h3⟩ => ⟨j, hj, h1, h2, fun k hk => h3 _ fun e => (by
        have : k < j + 1 := e.2
        omega), fun z hz k => h3 _ fun e => hz (List.mem_singleton.2 e.1)⟩) (fun h => h)

/-- Move assignment between different objects: every member is move-assigned, and nothing else changes.  An exception
comes from a member `j` whose allocator is not equal to that of the source: the members before it are moved, member `j`
of `x` and the members after it are as before.  `std::terminate` is called only if in addition the allocators propagate
or claim to be always equal. -/
theorem C47_assign_move (B : ∀ k, Behaves tr (T k) abs Ok (H k)) (h0 : Ok init) (hd : ∀ l, abs init l = none)
    (h : Reach H K abs init s) (es : Nat → Env) (hx : CLive K (abs s) x) (hy : CLive K (abs s) y) (hne : x ≠ y) :
    Ends (call H K (.assignMove x y) es s)
      (fun s' => MoveAssigned tr T (abs s) (abs s') x y K ∧ CSame (abs s) (abs s') [x, y])
      (fun s' => ∃ j, j < K ∧ MoveAssigned tr T (abs s) (abs s') x y j ∧
        (∃ a b b', abs s (x, j) = some a ∧ abs s (y, j) = some b ∧ tr.eq a.alloc b.alloc = false ∧
          abs s' (x, j) = some a ∧ abs s' (y, j) = some b' ∧ b'.alloc = b.alloc ∧ b'.val.isSome = b.val.isSome) ∧
        (∀ k, j < k → abs s' (x, k) = abs s (x, k) ∧ abs s' (y, k) = abs s (y, k)) ∧ CSame (abs s) (abs s') [x, y])
      ((tr.pocma || tr.alwaysEqual) = true ∧ ∃ j a b, j < K ∧ abs s (x, j) = some a ∧ abs s (y, j) = some b ∧
        tr.eq a.alloc b.alloc = false) :=
  (assignMove_ends B es hne (h.ok B h0 hd).1 hx hy).mono
    (fun _ h => ⟨h.2.1, fun z hz k => h.2.2 _ (fun e => hz (by simp [show z = x from e.1]))
      (fun e => hz (by simp [show z = y from e.1]))⟩)
    (fun s' ⟨_, j, hj, h1, h2, h3⟩ => ⟨j, hj, h1, h2, fun k hk =>
      have (z : C) : ∀ c, Outside c (j + 1) (z, k) := fun c e => by
        have : k < j + 1 := e.2
        omega
      ⟨h3 _ (this _ _) (this _ _), h3 _ (this _ _) (this _ _)⟩,
      fun z hz k => h3 _ (fun e => hz (by simp [show z = x from e.1])) (fun e => hz (by simp [show z = y from e.1]))⟩)
    (fun h => h)

/-- Self-assignment changes nothing and does not throw. -/
theorem C47_assign_self (B : ∀ k, Behaves tr (T k) abs Ok (H k)) (h0 : Ok init) (hd : ∀ l, abs init l = none)
    (h : Reach H K abs init s) (es : Nat → Env) (hx : CLive K (abs s) x) :
    Ends (call H K (.assignCopy x x) es s) (fun s' => abs s' = abs s) (fun _ => False) False ∧
    Ends (call H K (.assignMove x x) es s) (fun s' => abs s' = abs s) (fun _ => False) False :=
  ⟨(assignSelf_ends B es (h.ok B h0 hd).1 hx).1.mono (fun _ h => h.2) (fun _ h => h) (fun h => h),
   (assignSelf_ends B es (h.ok B h0 hd).1 hx).2.mono (fun _ h => h.2) (fun _ h => h) (fun h => h)⟩

/-- Destruction: `x` is gone, and nothing else changes. -/
theorem C47_destroy (B : ∀ k, Behaves tr (T k) abs Ok (H k)) (h0 : Ok init) (hd : ∀ l, abs init l = none)
    (h : Reach H K abs init s) (es : Nat → Env) (hx : CLive K (abs s) x) :
    Ends (call H K (.destroy x) es s) (fun s' => CDead (abs s') x ∧ CSame (abs s) (abs s') [x]) (fun _ => False) False :=
  (destroy_ends B es (h.ok B h0 hd).1 hx).mono (fun _ h => h.2) (fun _ h => h) (fun h => h)

/-- Copies are independent: changing what a member of one object owns changes no other object, and no other member. -/
theorem C47_independent (B : ∀ k, Behaves tr (T k) abs Ok (H k)) (h0 : Ok init) (hd : ∀ l, abs init l = none)
    (h : Reach H K abs init s) (es : Nat → Env) (f : F) {k : Nat} {a : A} {v : W}
    (hx : abs s (x, k) = some ⟨a, some v⟩) :
    Ends (call H K (.modify x k f) es s)
      (fun s' => abs s' (x, k) = some ⟨a, some ((H k).app f v)⟩ ∧ ∀ l, l ≠ (x, k) → abs s' l = abs s l)
      (fun _ => False) False :=
  (modify_ends B f es (h.ok B h0 hd).1 hx).mono (fun _ h => h.2) (fun _ h => h) (fun h => h)

end

/-! ## Storage -/

section
variable {C A R V X Ty : Type} [DecidableEq C] [DecidableEq R] [DecidableEq Ty] {tr : ATraits A R} {K : Nat}

/-- With `indirect` members: storage is allocated exactly if a member of some object owns it. -/
theorem C47_indirect_storage (S : tr.Sound) (Rf : tr.Reflexive) (T : Nat → TSpec V X) {s : St (C × Nat) A R (Obj V)}
    (h : Reach (fun k => Holder.indirect tr (T k)) K Indirect.abs St.init s) (p : Addr) :
    (∃ c, s.heap p = some c) ↔ ∃ x k, addr s (x, k) = some p := by
  have := (h.ok (fun k => indirect_behaves S Rf (T k)) iok_init (fun _ => rfl)).1
  rw [iok_owned this]
  exact ⟨fun ⟨l, h⟩ => ⟨l.1, l.2, h⟩, fun ⟨x, k, h⟩ => ⟨_, h⟩⟩

/-- With `indirect` members: a copy constructor that throws leaves every object as it was, and all storage that is allocated
then is owned by a member of one of these. -/
theorem C47_indirect_copy_throws (S : tr.Sound) (Rf : tr.Reflexive) (T : Nat → TSpec V X)
    {s s' : St (C × Nat) A R (Obj V)} {x y : C} (es : Nat → Env) (e : Exn)
    (h : Reach (fun k => Holder.indirect tr (T k)) K Indirect.abs St.init s)
    (hx : CDead (Indirect.abs s) x) (hy : CLive K (Indirect.abs s) y)
    (ht : call (fun k => Holder.indirect tr (T k)) K (.copy x y) es s = .threw e s') :
    Indirect.abs s' = Indirect.abs s ∧
      ∀ p c, s'.heap p = some c → ∃ z k, (Indirect.abs s (z, k)).isSome ∧ addr s' (z, k) = some p := by
  have := C47_copy (fun k => indirect_behaves S Rf (T k)) iok_init (fun _ => rfl) h es hx hy
  rw [ht] at this
  have hs : Indirect.abs s' = Indirect.abs s := this
  refine ⟨hs, fun p c hc => ?_⟩
  obtain ⟨z, k, hz⟩ := (C47_indirect_storage S Rf T (h.threw (.copy x y) es e ⟨hx, hy⟩ ht) p).1 ⟨c, hc⟩
  refine ⟨z, k, ?_, hz⟩
  rw [← hs]
  obtain ⟨b, hb, _⟩ := Indirect.addr_some hz
  simp [Indirect.abs, absWith, hb]

/-- With `indirect` members: once all objects are destroyed, all storage was returned, and all owned objects were
destroyed, each exactly once, whatever was thrown before. -/
theorem C47_indirect_no_leak (S : tr.Sound) (Rf : tr.Reflexive) (T : Nat → TSpec V X) {s : St (C × Nat) A R (Obj V)}
    (h : Reach (fun k => Holder.indirect tr (T k)) K Indirect.abs St.init s) (hd : ∀ x, CDead (Indirect.abs s) x)
    (p : Addr) : s.heap p = none ∧ Spec.allocsAt p s.trace = Spec.deallocsAt p s.trace ∧
      Spec.constructsAt p s.trace = Spec.destroysAt p s.trace :=
  iok_no_leak (h.ok (fun k => indirect_behaves S Rf (T k)) iok_init (fun _ => rfl)).1 (fun l => hd l.1 l.2) p

/-- With `polymorphic` members: storage is allocated exactly if a member of some object owns it. -/
theorem C47_polymorphic_storage (S : tr.Sound) (Rf : tr.Reflexive) (P : Nat → PSpec Ty V X)
    {s : St (C × Nat) A R (PBody Ty V)}
    (h : Reach (fun k => Holder.polymorphic tr (P k)) K Polymorphic.abs St.init s) (p : Addr) :
    (∃ c, s.heap p = some c) ↔ ∃ x k, addr s (x, k) = some p := by
  have := iok_owned (h.ok (fun k => polymorphic_behaves S Rf (P k)) pok_init (fun _ => rfl)).1.2 p
  rw [show (∃ x k, addr s (x, k) = some p) ↔ ∃ l, addr (Polymorphic.view s) l = some p from
    ⟨fun ⟨x, k, h⟩ => ⟨_, h⟩, fun ⟨l, h⟩ => ⟨l.1, l.2, h⟩⟩, ← this]
  simp only [Polymorphic.view]
  cases s.heap p <;> simp

/-- With `polymorphic` members: a copy constructor that throws leaves every object as it was, and all storage that is allocated
then is owned by a member of one of these. -/
theorem C47_polymorphic_copy_throws (S : tr.Sound) (Rf : tr.Reflexive) (P : Nat → PSpec Ty V X)
    {s s' : St (C × Nat) A R (PBody Ty V)} {x y : C} (es : Nat → Env) (e : Exn)
    (h : Reach (fun k => Holder.polymorphic tr (P k)) K Polymorphic.abs St.init s)
    (hx : CDead (Polymorphic.abs s) x) (hy : CLive K (Polymorphic.abs s) y)
    (ht : call (fun k => Holder.polymorphic tr (P k)) K (.copy x y) es s = .threw e s') :
    Polymorphic.abs s' = Polymorphic.abs s ∧
      ∀ p c, s'.heap p = some c → ∃ z k, (Polymorphic.abs s (z, k)).isSome ∧ addr s' (z, k) = some p := by
  have := C47_copy (fun k => polymorphic_behaves S Rf (P k)) pok_init (fun _ => rfl) h es hx hy
  rw [ht] at this
  have hs : Polymorphic.abs s' = Polymorphic.abs s := this
  refine ⟨hs, fun p c hc => ?_⟩
  obtain ⟨z, k, hz⟩ := (C47_polymorphic_storage S Rf P (h.threw (.copy x y) es e ⟨hx, hy⟩ ht) p).1 ⟨c, hc⟩
  refine ⟨z, k, ?_, hz⟩
  rw [← hs]
  obtain ⟨b, hb, _⟩ := Indirect.addr_some hz
  simp [Polymorphic.abs, absWith, hb]

/-- With `polymorphic` members: once all objects are destroyed, everything was returned and destroyed exactly once. -/
theorem C47_polymorphic_no_leak (S : tr.Sound) (Rf : tr.Reflexive) (P : Nat → PSpec Ty V X)
    {s : St (C × Nat) A R (PBody Ty V)}
    (h : Reach (fun k => Holder.polymorphic tr (P k)) K Polymorphic.abs St.init s)
    (hd : ∀ x, CDead (Polymorphic.abs s) x) (p : Addr) :
    s.heap p = none ∧ Spec.allocsAt p s.trace = Spec.deallocsAt p s.trace ∧
      Spec.constructsAt p s.trace = Spec.destroysAt p s.trace := by
  have := iok_no_leak (h.ok (fun k => polymorphic_behaves S Rf (P k)) pok_init (fun _ => rfl)).1.2
    (fun l => by rw [Polymorphic.abs_view]; exact hd l.1 l.2) p
  refine ⟨?_, this.2⟩
  simpa [Polymorphic.view] using this.1

end

/-! ## Concrete cases -/

namespace CompositeDemo
section
variable {C S A R W X I F : Type} [DecidableEq C]

/-- Is the operation legal, in a reachable state of a class with members? -/
def legal (σ : Comp C A W) : COp C I F → Bool
  | .make x _ => !(σ (x, 0)).isSome
  | .copy x y => !(σ (x, 0)).isSome && (σ (y, 0)).isSome
  | .move x y => !(σ (x, 0)).isSome && (σ (y, 0)).isSome
  | .destroy x => (σ (x, 0)).isSome
  | .assignCopy x y => (σ (x, 0)).isSome && (σ (y, 0)).isSome
  | .assignMove x y => (σ (x, 0)).isSome && (σ (y, 0)).isSome
  | .modify x k _ => ((σ (x, k)).bind Box.val).isSome

/-- The state after a history: an operation that is not legal is left out. -/
def after (H : Members C S W I F) (K : Nat) (abs : S → Comp C A W) : List (COp C I F × (Nat → Env)) → S → S
  | [], s => s
  | (o, es) :: cs, s => after H K abs cs (if legal (abs s) o then
      match call H K o es s with
      | .ok _ s' => s'
      | .threw _ s' => s'
      | _ => s
    else s)

variable {H : Members C S W I F} {K : Nat} {abs : S → Comp C A W} {Ok : S → Prop} {init s : S}
variable {tr : ATraits A R} {T : Nat → TSpec W X}

theorem dead (B : ∀ k, Behaves tr (T k) abs Ok (H k)) (h0 : Ok init) (hd : ∀ l, abs init l = none) (hK : 0 < K)
    (h : Reach H K abs init s) {x : C} (hx : (abs s (x, 0)).isSome = false) : CDead (abs s) x := by
  rcases C47_all_members_or_none B h0 hd h x with h | h
  · exact h
  · obtain ⟨b, hb⟩ := (h 0).1 hK
    simp [hb] at hx

theorem live (B : ∀ k, Behaves tr (T k) abs Ok (H k)) (h0 : Ok init) (hd : ∀ l, abs init l = none)
    (h : Reach H K abs init s) {x : C} (hx : (abs s (x, 0)).isSome = true) : CLive K (abs s) x := by
  rcases C47_all_members_or_none B h0 hd h x with h | h
  · simp [h 0] at hx
  · exact h

theorem legal_iff (B : ∀ k, Behaves tr (T k) abs Ok (H k)) (h0 : Ok init) (hd : ∀ l, abs init l = none) (hK : 0 < K)
    (h : Reach H K abs init s) {o : COp C I F} (ho : legal (abs s) o = true) : CLegal K (abs s) o := by
  cases o <;> simp only [legal, Bool.and_eq_true, Bool.not_eq_true'] at ho
  · exact dead B h0 hd hK h ho
  · exact ⟨dead B h0 hd hK h ho.1, live B h0 hd h ho.2⟩
  · exact ⟨dead B h0 hd hK h ho.1, live B h0 hd h ho.2⟩
  · exact live B h0 hd h ho
  · exact ⟨live B h0 hd h ho.1, live B h0 hd h ho.2⟩
  · exact ⟨live B h0 hd h ho.1, live B h0 hd h ho.2⟩
  · rename_i x k f
    cases hb : abs s (x, k) with
    | none => simp [hb] at ho
    | some b =>
      obtain ⟨a, v⟩ := b
      cases v with
      | none => simp [hb] at ho
      | some v => exact ⟨v, by simp [valueOf, hb]⟩

theorem reach (B : ∀ k, Behaves tr (T k) abs Ok (H k)) (h0 : Ok init) (hd : ∀ l, abs init l = none) (hK : 0 < K)
    (cs : List (COp C I F × (Nat → Env))) (h : Reach H K abs init s) : Reach H K abs init (after H K abs cs s) := by
  induction cs generalizing s with
  | nil => exact h
  | cons c cs ih =>
    obtain ⟨o, es⟩ := c
    refine ih ?_
    by_cases hl : legal (abs s) o = true
    · simp only [hl, if_true]
      have := legal_iff B h0 hd hK h hl
      cases hc : call H K o es s with
      | ok u s' => exact h.ret o es this hc
      | threw e s' => exact h.threw o es e this hc
      | terminated => exact h
      | ub u => exact h
      | diverged => exact h
    · simpa [hl] using h

end

/-- Allocators that stay with their objects. -/
abbrev tr := Demo.alloc false false false

/-- Addresses `p`, `p + 1`, … for the members; the function of member `j` throws. -/
def failing (j p : Nat) (k : Nat) : Env := if k = j then Demo.bad (p + k) else Demo.fine (p + k)

def good (p : Nat) (k : Nat) : Env := Demo.fine (p + k)

/-- A class with three members of type `indirect`. -/
def HI : Members (Fin 3) (St (Fin 3 × Nat) Nat Nat (Obj Nat)) Nat (Option Nat × TArgs Nat) (Nat → Nat) :=
  fun _ => Holder.indirect tr Demo.T

/-- Object 0 is made, a copy of it throws at its last member, object 1 is made with other allocators, and assigning
object 0 to it throws in the second member. -/
def history : List (COp (Fin 3) (Option Nat × TArgs Nat) (Nat → Nat) × (Nat → Env)) := [
  (.make 0 (fun k => (some 5, .pack [k, 7])), good 100),
  (.copy 1 0, failing 2 200),
  (.make 1 (fun k => (some 6, .pack [k, 50])), good 200),
  (.modify 0 2 (· + 1000), good 0),
  (.assignCopy 1 0, failing 1 300),
  (.assignMove 1 0, failing 2 400),
  (.move 2 1, good 0)]

def s : St (Fin 3 × Nat) Nat Nat (Obj Nat) := after HI 3 Indirect.abs history St.init

theorem demo_sound : tr.Sound := Demo.alloc_sound ..
theorem demo_reflexive : tr.Reflexive := Demo.alloc_refl ..

theorem hi_behaves (k : Nat) : Behaves tr Demo.T Indirect.abs (IOk tr) (HI k) :=
  indirect_behaves demo_sound demo_reflexive Demo.T

theorem s_reach : Reach HI 3 Indirect.abs St.init s := reach hi_behaves iok_init (fun _ => rfl) (by decide) _ .init

example : (∀ k, Behaves tr Demo.T Indirect.abs (IOk tr) (HI k)) ∧ IOk tr (St.init : St (Fin 3 × Nat) Nat Nat (Obj Nat)) ∧
    Reach HI 3 Indirect.abs St.init s ∧ CLive 3 (Indirect.abs s) 0 ∧ CLive 3 (Indirect.abs s) 1 ∧
    CLive 3 (Indirect.abs s) 2 ∧
    (List.range 4).map (fun k => Indirect.abs s (0, k)) =
      [some ⟨5, some 0⟩, some ⟨5, some 0⟩, some ⟨5, some 99⟩, none] ∧
    (List.range 4).map (fun k => Indirect.abs s (1, k)) = [some ⟨6, none⟩, some ⟨6, none⟩, some ⟨6, none⟩, none] ∧
    (List.range 4).map (fun k => Indirect.abs s (2, k)) =
      [some ⟨6, some 7⟩, some ⟨6, some 8⟩, some ⟨6, some 52⟩, none] :=
  ⟨hi_behaves, iok_init, s_reach, live hi_behaves iok_init (fun _ => rfl) s_reach (by decide +kernel),
    live hi_behaves iok_init (fun _ => rfl) s_reach (by decide +kernel),
    live hi_behaves iok_init (fun _ => rfl) s_reach (by decide +kernel), by decide +kernel, by decide +kernel,
    by decide +kernel⟩

def threw {S : Type} : Res S Unit → Bool
  | .threw _ _ => true
  | _ => false

theorem threw_iff {S : Type} {r : Res S Unit} (h : threw r = true) : ∃ e s, r = .threw e s := by
  cases r <;> simp_all [threw]

/-- `C47_indirect_copy_throws`: the second operation of the history, which had allocated for two members. -/
example : Reach (fun _ => Holder.indirect tr Demo.T) 3 Indirect.abs St.init (after HI 3 Indirect.abs (history.take 1) St.init) ∧
    (∃ e s', call (fun _ => Holder.indirect tr Demo.T) 3 (.copy 1 0) (failing 2 200)
      (after HI 3 Indirect.abs (history.take 1) St.init) = .threw e s') ∧
    Spec.allocsAt 200 (after HI 3 Indirect.abs (history.take 2) St.init).trace = 1 ∧
    Spec.allocsAt 201 (after HI 3 Indirect.abs (history.take 2) St.init).trace = 1 :=
  ⟨reach hi_behaves iok_init (fun _ => rfl) (by decide) _ .init, threw_iff (by decide +kernel), by decide +kernel,
    by decide +kernel⟩

/-- All objects destroyed. -/
def s' : St (Fin 3 × Nat) Nat Nat (Obj Nat) :=
  after HI 3 Indirect.abs [(.destroy 0, good 0), (.destroy 2, good 0), (.destroy 1, good 0)] s

/-- `C47_indirect_no_leak`: with exceptions in the past, and 12 blocks allocated. -/
example : Reach (fun _ => Holder.indirect tr Demo.T) 3 Indirect.abs St.init s' ∧ (∀ x, CDead (Indirect.abs s') x) ∧
    Spec.allocsAt 101 s'.trace = 1 ∧ Spec.allocsAt 200 s'.trace = 2 := by
  have h : Reach HI 3 Indirect.abs St.init s' := reach hi_behaves iok_init (fun _ => rfl) (by decide) _ s_reach
  refine ⟨h, fun x => dead hi_behaves iok_init (fun _ => rfl) (by decide) h ?_, by decide +kernel, by decide +kernel⟩
  revert x
  decide +kernel

/-- A class with three members of type `polymorphic`. -/
def HP : Members (Fin 3) (St (Fin 3 × Nat) Nat Nat (PBody Nat Nat)) (Nat × Nat)
    (Option Nat × Option Nat × TArgs Nat) (Nat → Nat → Nat) := fun _ => Holder.polymorphic tr PDemo.P

theorem hp_behaves (k : Nat) : Behaves tr PDemo.P.owned Polymorphic.abs (POk tr) (HP k) :=
  polymorphic_behaves demo_sound demo_reflexive PDemo.P

/-- As above, with members of dynamic types 0, 1, 2. -/
def phistory : List (COp (Fin 3) (Option Nat × Option Nat × TArgs Nat) (Nat → Nat → Nat) × (Nat → Env)) := [
  (.make 0 (fun k => (some 5, some k, .pack [k, 7])), good 100),
  (.copy 1 0, failing 2 200),
  (.make 1 (fun k => (some 6, some (k + 1), .pack [k, 50])), good 200),
  (.modify 0 2 (fun ty v => v + ty), good 0),
  (.assignCopy 1 0, failing 1 300),
  (.assignMove 1 0, failing 2 400),
  (.move 2 1, good 0)]

def sp : St (Fin 3 × Nat) Nat Nat (PBody Nat Nat) := after HP 3 Polymorphic.abs phistory St.init

theorem sp_reach : Reach HP 3 Polymorphic.abs St.init sp :=
  reach hp_behaves pok_init (fun _ => rfl) (by decide) _ .init

example : (∀ k, Behaves tr PDemo.P.owned Polymorphic.abs (POk tr) (HP k)) ∧
    POk tr (St.init : St (Fin 3 × Nat) Nat Nat (PBody Nat Nat)) ∧
    Reach HP 3 Polymorphic.abs St.init sp ∧ CLive 3 (Polymorphic.abs sp) 0 ∧ CLive 3 (Polymorphic.abs sp) 1 ∧
    CLive 3 (Polymorphic.abs sp) 2 ∧
    (List.range 4).map (fun k => Polymorphic.abs sp (0, k)) =
      [some ⟨5, some (0, 0)⟩, some ⟨5, some (1, 0)⟩, some ⟨5, some (2, 99)⟩, none] ∧
    (List.range 4).map (fun k => Polymorphic.abs sp (1, k)) = [some ⟨6, none⟩, some ⟨6, none⟩, some ⟨6, none⟩, none] ∧
    (List.range 4).map (fun k => Polymorphic.abs sp (2, k)) =
      [some ⟨6, some (0, 7)⟩, some ⟨6, some (1, 1008)⟩, some ⟨6, some (3, 3052)⟩, none] :=
  ⟨hp_behaves, pok_init, sp_reach, live hp_behaves pok_init (fun _ => rfl) sp_reach (by decide +kernel),
    live hp_behaves pok_init (fun _ => rfl) sp_reach (by decide +kernel),
    live hp_behaves pok_init (fun _ => rfl) sp_reach (by decide +kernel), by decide +kernel, by decide +kernel,
    by decide +kernel⟩

end CompositeDemo

end Verif.Props
