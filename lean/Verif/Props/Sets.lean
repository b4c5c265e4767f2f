import Verif.Proofs.Sets
import Verif.Props.Sorting

/-!
# C89: sets and hash tables with keys of type `indirect`

The operators and the hash of `indirect` are what `std::set` and `std::unordered_set` need: whatever programs do with a set, its keys are sorted and
no two are equivalent, and look-ups find what is there, valueless keys included.
-/

set_option autoImplicit false
set_option linter.unusedSectionVars false
set_option linter.unusedSimpArgs false

namespace Verif.Props
open Verif Verif.Sets

section
variable {L A R V X : Type} [DecidableEq L] [DecidableEq R]
open Indirect

/-- Programs with one `std::set<indirect<T>>`; `ks` are its keys, in order. -/
abbrev SetOf (tr : ATraits A R) (T : TSpec V X) (C : TCmp V) : St L A R (Obj V) → List L → Prop :=
  Spec.SetReach (Indirect.either tr T C) abs (Spec.ELegal tr) (Spec.echanges Spec.changes) ask20 (fun how n y => .call (how.op n y))
    (Indirect.Reach tr T)

/-- The same with indirect_cxx14.h. -/
abbrev SetOf14 (tr : ATraits A R) (T : TSpec V X) (C : TCmp V) : St L A R (Obj V) → List L → Prop :=
  Spec.SetReach (Indirect14.either tr T C) abs (Spec.ELegal14 tr) (Spec.echanges Spec.changes) ask14 (fun how n y => .call (how.op n y))
    (Indirect14.Reach tr T)

/-- Programs with one `std::unordered_set<indirect<T>>`; `t` are its nodes. -/
abbrev TableOf (tr : ATraits A R) (T : TSpec V X) (C : TCmp V) : St L A R (Obj V) → List (Sets.Node L) → Prop :=
  Spec.TableReach (Indirect.either tr T C) abs (Spec.ELegal tr) (Spec.echanges Spec.changes) hask20 (fun how n y => .call (how.op n y))
    (Indirect.Reach tr T)

/-- The same with indirect_cxx14.h. -/
abbrev TableOf14 (tr : ATraits A R) (T : TSpec V X) (C : TCmp V) : St L A R (Obj V) → List (Sets.Node L) → Prop :=
  Spec.TableReach (Indirect14.either tr T C) abs (Spec.ELegal14 tr) (Spec.echanges Spec.changes) hask14 (fun how n y => .call (how.op n y))
    (Indirect14.Reach tr T)

variable {tr : ATraits A R} {T : TSpec V X} {C : TCmp V} {s : St L A R (Obj V)} {ks : List L} {t : Tree L} {u : List (Sets.Node L)}
  {less : V → V → Bool} {eq : V → V → Bool} {hash : V → Nat} {n y : L} {how : Way A}

/-- What the header and the owned type give to a set, if comparisons are an order and copies and moves are equivalent to their source. -/
theorem set_facts20 (S : tr.Sound) (C : TCmp V) {Q : V → V → Prop} (hp : Spec.Preserves T Q) (hr : ∀ v, Q v v) {srt : Prop}
    (hA : srt → Spec.Compares C less ∧ Spec.StrictWeak less ∧ Q = fun v w => less v w = false ∧ less w v = false) (h : SetOf tr T C s ks) :
    IInv tr s ∧ Spec.KeysAlive (abs s) ks ∧ (srt → Spec.IsSet less (abs s) ks) := by
  unfold SetOf at h
  rw [Conc.either_eq] at h
  exact set_inv (Conc.queried tr T C S) (framed20 tr T C) (setDoes20 tr T C) (makes20 tr C hp hr)
    (fun h => ⟨Sorting.answers20 tr T (hA h).1, (hA h).2⟩) (fun _ h => h.inv S) h

theorem set_facts14 (S : tr.Sound) (C : TCmp V) {Q : V → V → Prop} (hp : Spec.Preserves T Q) (hr : ∀ v, Q v v) {srt : Prop}
    (hA : srt → Spec.Compares14 C less ∧ Spec.StrictWeak less ∧ Q = fun v w => less v w = false ∧ less w v = false) (h : SetOf14 tr T C s ks) :
    IInv tr s ∧ Spec.KeysAlive (abs s) ks ∧ (srt → Spec.IsSet less (abs s) ks) := by
  unfold SetOf14 at h
  rw [Conc.either14_eq] at h
  exact set_inv (Conc.queried14 tr T C S) (framed14 tr T C) (setDoes14 tr T C) (makes14 tr C hp hr)
    (fun h => ⟨Sorting.answers14 tr T (hA h).1, (hA h).2⟩) (fun _ h => ((Indirect14.reach_iff tr T _).1 h).inv S) h

theorem table_facts20 (S : tr.Sound) (C : TCmp V) {Q : V → V → Prop} (hp : Spec.Preserves T Q) (hr : ∀ v, Q v v) {srt : Prop}
    (hA : srt → Spec.Hashes C eq hash ∧ Spec.HashLaws eq hash ∧ Q = fun v w => eq v w = true) (h : TableOf tr T C s u) :
    IInv tr s ∧ Spec.KeysAlive (abs s) (u.map (·.2)) ∧ (srt → Spec.IsTable eq hash C.npos (abs s) u) := by
  unfold TableOf at h
  rw [Conc.either_eq] at h
  exact table_inv (Conc.queried tr T C S) (framed20 tr T C) (hashDoes20 tr T C) (makes20 tr C hp hr)
    (fun h => ⟨hashAnswers20 tr T (hA h).1, (hA h).2⟩) (fun _ h => h.inv S) h

theorem table_facts14 (S : tr.Sound) (C : TCmp V) {Q : V → V → Prop} (hp : Spec.Preserves T Q) (hr : ∀ v, Q v v) {srt : Prop}
    (hA : srt → Spec.Hashes C eq hash ∧ Spec.HashLaws eq hash ∧ Q = fun v w => eq v w = true) (h : TableOf14 tr T C s u) :
    IInv tr s ∧ Spec.KeysAlive (abs s) (u.map (·.2)) ∧ (srt → Spec.IsTable eq hash C.npos (abs s) u) := by
  unfold TableOf14 at h
  rw [Conc.either14_eq] at h
  exact table_inv (Conc.queried14 tr T C S) (framed14 tr T C) (hashDoes14 tr T C) (makes14 tr C hp hr)
    (fun h => ⟨hashAnswers14 tr T (hA h).1, (hA h).2⟩) (fun _ h => ((Indirect14.reach_iff tr T _).1 h).inv S) h

theorem weak_refl (hw : Spec.StrictWeak less) (v : V) : less v v = false ∧ less v v = false := ⟨hw.irrefl v, hw.irrefl v⟩

/-! ## Trees, indirect.h -/

/-- The copies and moves of values are equivalent to their sources. -/
abbrev Kind (T : TSpec V X) (less : V → V → Bool) : Prop := Spec.Preserves T fun v w => less v w = false ∧ less w v = false

/-- indirect.h: at any time the keys of a set are alive, sorted, and no two are equivalent. -/
theorem C89_keys_sorted (S : tr.Sound) (hw : Spec.StrictWeak less) (hc : Spec.Compares C less) (hp : Kind T less) (h : SetOf tr T C s ks) :
    Spec.IsSet less (abs s) ks :=
  (set_facts20 S C hp (weak_refl hw) (srt := True) (fun _ => ⟨hc, hw, rfl⟩) h).2.2 trivial

/-- indirect.h: at most one key of a set is valueless, and it is the first. -/
theorem C89_valueless_key (S : tr.Sound) (hw : Spec.StrictWeak less) (hc : Spec.Compares C less) (hp : Kind T less) (h : SetOf tr T C s ks) :
    ∀ k ∈ ks, Spec.valueOf (abs s) k = none → ks.head? = some k := by
  have hs := (C89_keys_sorted S hw hc hp h).sorted
  intro k hk hv
  cases ks with
  | nil => cases hk
  | cons a ks =>
    rcases List.mem_cons.1 hk with rfl | hk
    · rfl
    · have := (List.pairwise_cons.1 hs).1 k hk
      rw [hv] at this
      cases ha : Spec.valueOf (abs s) a <;> rw [ha] at this <;> cases this

/-- indirect.h: `find` returns, changes no object, and finds an equivalent key if there is one.  `t` is any tree of the keys. -/
theorem C89_find (S : tr.Sound) (hw : Spec.StrictWeak less) (hc : Spec.Compares C less) (hp : Kind T less) (h : SetOf tr T C s t.keys)
    (hy : Spec.Live (abs s) y) (es : Nat → Env) :
    ∃ r s', (find ask20 y t).run (Indirect.either tr T C) es s = .ok r s' ∧ Spec.Finds less (abs s) t.keys y r ∧ abs s' = abs s ∧
      Spec.OwnedOnce s' := by
  obtain ⟨ok, ha, hi⟩ := set_facts20 S C hp (weak_refl hw) (srt := True) (fun _ => ⟨hc, hw, rfl⟩) h
  rw [Conc.either_eq]
  obtain ⟨r, s', h1, ⟨h2, -, h3⟩, -, h4⟩ := run_ends (Conc.queried tr T C S) _ es ok
    (ends_find (setDoes20 tr T C) hy t ha.2 (srt := True) fun _ => ⟨Sorting.answers20 tr T hc, hw, (hi trivial).sorted⟩)
  exact ⟨r, s', h1, loc_finds (h3 trivial), h2, h4⟩

/-- indirect.h: `insert` returns (a `threw` outcome is an exception of the constructor); if there is an equivalent key it changes no object, else
there is a new key that is equivalent to the argument, with the allocator that the way of making it gives.  The keys are sorted again, and nothing leaks. -/
theorem C89_insert (S : tr.Sound) (hw : Spec.StrictWeak less) (hc : Spec.Compares C less) (hp : Kind T less) (h : SetOf tr T C s t.keys)
    (hn : Spec.Dead (abs s) n) (hy : Spec.Live (abs s) y) (hm : how.moves = true → y ∉ t.keys) (es : Nat → Env) :
    ∃ r s', (insert ask20 (fun n y => .call (how.op n y)) n y t).run (Indirect.either tr T C) es s = .ok r s' ∧
      Spec.Inserts (Spec.keyAlloc tr) less how (abs s) (abs s') t.keys n y r ∧ Spec.IsSet less (abs s') (inserted n t.keys r) ∧ Spec.OwnedOnce s' := by
  obtain ⟨ok, ha, hi⟩ := set_facts20 S C hp (weak_refl hw) (srt := True) (fun _ => ⟨hc, hw, rfl⟩) h
  rw [Conc.either_eq]
  obtain ⟨r, s', h1, ⟨-, h2⟩, -, h3⟩ := run_ends (Conc.queried tr T C S) _ es ok
    (ends_insert (add := fun how n y => .call (how.op n y)) (setDoes20 tr T C) (makes20 tr C hp (weak_refl hw)) hy t ha (srt := True)
      (fun _ => ⟨Sorting.answers20 tr T hc, hw, (hi trivial).sorted⟩) (fun _ => rfl) hn hm)
  exact ⟨r, s', h1, (h2 trivial).1, (h2 trivial).2, h3⟩

/-- indirect.h: `erase(y)` destroys the key that is equivalent to `y`, if there is one, even if `y` is that key; no other object changes. -/
theorem C89_erase (S : tr.Sound) (hw : Spec.StrictWeak less) (hc : Spec.Compares C less) (hp : Kind T less) (h : SetOf tr T C s t.keys)
    (hy : Spec.Live (abs s) y) (es : Nat → Env) :
    ∃ r s', (erase ask20 y t).run (Indirect.either tr T C) es s = .ok r s' ∧
      Spec.Erases less (abs s) (abs s') t.keys y r ∧ Spec.IsSet less (abs s') (erased t.keys r) ∧ Spec.OwnedOnce s' := by
  obtain ⟨ok, ha, hi⟩ := set_facts20 S C hp (weak_refl hw) (srt := True) (fun _ => ⟨hc, hw, rfl⟩) h
  rw [Conc.either_eq]
  obtain ⟨r, s', h1, ⟨-, h2⟩, -, h3⟩ := run_ends (Conc.queried tr T C S) _ es ok
    (ends_erase (setDoes20 tr T C) (makes20 tr C hp (weak_refl hw)) hy t ha (srt := True)
      (fun _ => ⟨Sorting.answers20 tr T hc, hw, (hi trivial).sorted⟩))
  exact ⟨r, s', h1, (h2 trivial).1, (h2 trivial).2, h3⟩

/-- Whatever copies and comparisons do. -/
theorem any_kind (T : TSpec V X) : Spec.Preserves T fun _ _ => True := fun _ _ _ => ⟨fun _ => trivial, fun _ => trivial⟩

/-- indirect.h: whatever the owned type does, even if comparisons contradict themselves or throw: the keys are alive, look-ups change no object,
operations end, never in undefined behaviour, and everything is owned once. -/
theorem C89_whatever_comparisons_do (S : tr.Sound) (C : TCmp V) (h : SetOf tr T C s t.keys) (hy : Spec.Live (abs s) y) (es : Nat → Env) :
    Spec.KeysAlive (abs s) t.keys ∧ Spec.OwnedOnce s ∧
    (∃ r s', (find ask20 y t).run (Indirect.either tr T C) es s = .ok r s' ∧ abs s' = abs s ∧ Spec.OwnedOnce s') ∧
    (Spec.Dead (abs s) n → (how.moves = true → y ∉ t.keys) →
      ∃ r s', (insert ask20 (fun n y => .call (how.op n y)) n y t).run (Indirect.either tr T C) es s = .ok r s' ∧
        Spec.KeysAlive (abs s') (inserted n t.keys r) ∧ Spec.OwnedOnce s') ∧
    ∃ r s', (erase ask20 y t).run (Indirect.either tr T C) es s = .ok r s' ∧ Spec.KeysAlive (abs s') (erased t.keys r) ∧
      Spec.OwnedOnce s' := by
  obtain ⟨ok, ha, -⟩ := set_facts20 (less := fun _ _ => false) S C (any_kind T) (fun _ => trivial) (srt := False) (fun h => h.elim) h
  have D := setDoes20 (L := L) tr T C
  have K := makes20 (L := L) tr C (any_kind T) (fun _ => trivial)
  rw [Conc.either_eq]
  refine ⟨ha, ⟨fun p c h => (Conc.queried tr T C S).owned s p c ok h, fun z h p h1 h2 => (Conc.queried tr T C S).own s z h p ok h1 h2,
    fun z z' h h' p h1 h2 h3 h4 => (Conc.queried tr T C S).uniq s z z' h h' p ok h1 h2 h3 h4⟩, ?_, fun hn hm => ?_, ?_⟩
  · obtain ⟨r, s', h1, ⟨h2, -⟩, -, h3⟩ := run_ends (Conc.queried tr T C S) _ es ok
      (ends_find D hy t ha.2 (srt := False) (less := fun _ _ => false) (fun h => h.elim))
    exact ⟨r, s', h1, h2, h3⟩
  · obtain ⟨r, s', h1, ⟨h2, -⟩, -, h3⟩ := run_ends (Conc.queried tr T C S) _ es ok
      (ends_insert (add := fun how n y => .call (how.op n y)) D K hy t ha (srt := False) (less := fun _ _ => false) (fun h => h.elim)
        (fun h => h.elim) hn hm)
    exact ⟨r, s', h1, h2, h3⟩
  · obtain ⟨r, s', h1, ⟨h2, -⟩, -, h3⟩ := run_ends (Conc.queried tr T C S) _ es ok
      (ends_erase D K hy t ha (srt := False) (less := fun _ _ => false) (fun h => h.elim))
    exact ⟨r, s', h1, h2, h3⟩

/-! ## Hash tables, indirect.h -/

/-- The copies and moves of values are equal to their sources. -/
abbrev Same (T : TSpec V X) (eq : V → V → Bool) : Prop := Spec.Preserves T fun v w => eq v w = true

/-- indirect.h: at any time the keys of a hash table are alive, no two are equal, and the stored hash codes are those of the keys. -/
theorem C89_hash_keys (S : tr.Sound) (hl : Spec.HashLaws eq hash) (hc : Spec.Hashes C eq hash) (hp : Same T eq) (h : TableOf tr T C s u) :
    Spec.IsTable eq hash C.npos (abs s) u :=
  (table_facts20 S C hp hl.refl (srt := True) (fun _ => ⟨hc, hl, rfl⟩) h).2.2 trivial

/-- indirect.h: `find` of a hash table finds the equal key, if there is one, whatever the number of buckets, and changes no object. -/
theorem C89_hash_find (S : tr.Sound) (hl : Spec.HashLaws eq hash) (hc : Spec.Hashes C eq hash) (hp : Same T eq) (h : TableOf tr T C s u)
    (hy : Spec.Live (abs s) y) (m : Nat) (codes : Bool) (es : Nat → Env) :
    ∃ r s', (hfind hask20 m codes y u).run (Indirect.either tr T C) es s = .ok r s' ∧ Spec.TFinds eq (abs s) u y r ∧ abs s' = abs s ∧
      Spec.OwnedOnce s' := by
  obtain ⟨ok, ha, hi⟩ := table_facts20 S C hp hl.refl (srt := True) (fun _ => ⟨hc, hl, rfl⟩) h
  rw [Conc.either_eq]
  obtain ⟨r, s', h1, ⟨h2, -, h3⟩, -, h4⟩ := run_ends (Conc.queried tr T C S) _ es ok
    (ends_hfind (hashDoes20 tr T C) hy u m codes (hi trivial).live (srt := True)
      fun _ => ⟨hashAnswers20 tr T hc, hl, (hi trivial).codes, (hi trivial).distinct⟩)
  exact ⟨r, s', h1, (h3 trivial).1, h2, h4⟩

/-- indirect.h: `insert` into a hash table. -/
theorem C89_hash_insert (S : tr.Sound) (hl : Spec.HashLaws eq hash) (hc : Spec.Hashes C eq hash) (hp : Same T eq) (h : TableOf tr T C s u)
    (hn : Spec.Dead (abs s) n) (hy : Spec.Live (abs s) y) (hm : how.moves = true → ∀ n ∈ u, n.2 ≠ y) (m : Nat) (codes : Bool)
    (es : Nat → Env) :
    ∃ r s', (hinsert hask20 (fun n y => .call (how.op n y)) m codes n y u).run (Indirect.either tr T C) es s = .ok r s' ∧
      Spec.TInserts (Spec.keyAlloc tr) eq how (abs s) (abs s') u n y r ∧ Spec.IsTable eq hash C.npos (abs s') (hinserted n u r) ∧ Spec.OwnedOnce s' := by
  obtain ⟨ok, ha, hi⟩ := table_facts20 S C hp hl.refl (srt := True) (fun _ => ⟨hc, hl, rfl⟩) h
  rw [Conc.either_eq]
  obtain ⟨r, s', h1, ⟨-, h2⟩, -, h3⟩ := run_ends (Conc.queried tr T C S) _ es ok
    (ends_hinsert (add := fun how n y => .call (how.op n y)) (hashDoes20 tr T C) (makes20 tr C hp hl.refl) hy u m codes ha (srt := True)
      (fun _ => ⟨hashAnswers20 tr T hc, hl, (hi trivial).codes, (hi trivial).distinct⟩) (fun _ => rfl) hn hm)
  exact ⟨r, s', h1, (h2 trivial).1, (h2 trivial).2, h3⟩

/-- indirect.h: `erase(y)` from a hash table. -/
theorem C89_hash_erase (S : tr.Sound) (hl : Spec.HashLaws eq hash) (hc : Spec.Hashes C eq hash) (hp : Same T eq) (h : TableOf tr T C s u)
    (hy : Spec.Live (abs s) y) (m : Nat) (codes : Bool) (es : Nat → Env) :
    ∃ r s', (herase hask20 m codes y u).run (Indirect.either tr T C) es s = .ok r s' ∧
      Spec.TErases eq (abs s) (abs s') u y r ∧ Spec.IsTable eq hash C.npos (abs s') (herased u r) ∧ Spec.OwnedOnce s' := by
  obtain ⟨ok, ha, hi⟩ := table_facts20 S C hp hl.refl (srt := True) (fun _ => ⟨hc, hl, rfl⟩) h
  rw [Conc.either_eq]
  obtain ⟨r, s', h1, ⟨-, h2⟩, -, h3⟩ := run_ends (Conc.queried tr T C S) _ es ok
    (ends_herase (hashDoes20 tr T C) (makes20 tr C hp hl.refl) hy u m codes ha (srt := True)
      (fun _ => ⟨hashAnswers20 tr T hc, hl, (hi trivial).codes, (hi trivial).distinct⟩))
  exact ⟨r, s', h1, (h2 trivial).1, (h2 trivial).2, h3⟩

/-- indirect.h: whatever `==` and the hash of the owned type do, even if they contradict each other or throw. -/
theorem C89_hash_whatever_comparisons_do (S : tr.Sound) (C : TCmp V) (h : TableOf tr T C s u) (hy : Spec.Live (abs s) y) (m : Nat)
    (codes : Bool) (es : Nat → Env) :
    Spec.KeysAlive (abs s) (u.map (·.2)) ∧
    (∃ r s', (hfind hask20 m codes y u).run (Indirect.either tr T C) es s = .ok r s' ∧ abs s' = abs s ∧ Spec.OwnedOnce s') ∧
    (Spec.Dead (abs s) n → (how.moves = true → ∀ n ∈ u, n.2 ≠ y) →
      ∃ r s', (hinsert hask20 (fun n y => .call (how.op n y)) m codes n y u).run (Indirect.either tr T C) es s = .ok r s' ∧
        Spec.KeysAlive (abs s') ((hinserted n u r).map (·.2)) ∧ Spec.OwnedOnce s') ∧
    ∃ r s', (herase hask20 m codes y u).run (Indirect.either tr T C) es s = .ok r s' ∧
      Spec.KeysAlive (abs s') ((herased u r).map (·.2)) ∧ Spec.OwnedOnce s' := by
  obtain ⟨ok, ha, -⟩ := table_facts20 (eq := fun _ _ => false) (hash := fun _ => 0) S C (any_kind T) (fun _ => trivial) (srt := False)
    (fun h => h.elim) h
  have D := hashDoes20 (L := L) tr T C
  have K := makes20 (L := L) tr C (any_kind T) (fun _ => trivial)
  rw [Conc.either_eq]
  refine ⟨ha, ?_, fun hn hm => ?_, ?_⟩
  · obtain ⟨r, s', h1, ⟨h2, -⟩, -, h3⟩ := run_ends (Conc.queried tr T C S) _ es ok
      (ends_hfind (eq := fun _ _ => false) (hash := fun _ => 0) (npos := 0) D hy u m codes (fun n hn => ha.2 _ (List.mem_map_of_mem hn))
        (srt := False) (fun h => h.elim))
    exact ⟨r, s', h1, h2, h3⟩
  · obtain ⟨r, s', h1, ⟨h2, -⟩, -, h3⟩ := run_ends (Conc.queried tr T C S) _ es ok
      (ends_hinsert (eq := fun _ _ => false) (hash := fun _ => 0) (npos := 0) (add := fun how n y => .call (how.op n y)) D K hy u m codes ha
        (srt := False) (fun h => h.elim) (fun h => h.elim) hn hm)
    exact ⟨r, s', h1, h2, h3⟩
  · obtain ⟨r, s', h1, ⟨h2, -⟩, -, h3⟩ := run_ends (Conc.queried tr T C S) _ es ok
      (ends_herase (eq := fun _ _ => false) (hash := fun _ => 0) (npos := 0) D K hy u m codes ha (srt := False) (fun h => h.elim))
    exact ⟨r, s', h1, h2, h3⟩

/-! ## indirect_cxx14.h -/

/-- indirect_cxx14.h: at any time the keys of a set are alive, sorted, and no two are equivalent. -/
theorem C89_cxx14_keys_sorted (S : tr.Sound) (hw : Spec.StrictWeak less) (hc : Spec.Compares14 C less) (hp : Kind T less) (h : SetOf14 tr T C s ks) :
    Spec.IsSet less (abs s) ks :=
  (set_facts14 S C hp (weak_refl hw) (srt := True) (fun _ => ⟨hc, hw, rfl⟩) h).2.2 trivial

/-- indirect_cxx14.h: at most one key of a set is valueless, and it is the first. -/
theorem C89_cxx14_valueless_key (S : tr.Sound) (hw : Spec.StrictWeak less) (hc : Spec.Compares14 C less) (hp : Kind T less) (h : SetOf14 tr T C s ks) :
    ∀ k ∈ ks, Spec.valueOf (abs s) k = none → ks.head? = some k := by
  have hs := (C89_cxx14_keys_sorted S hw hc hp h).sorted
  intro k hk hv
  cases ks with
  | nil => cases hk
  | cons a ks =>
    rcases List.mem_cons.1 hk with rfl | hk
    · rfl
    · have := (List.pairwise_cons.1 hs).1 k hk
      rw [hv] at this
      cases ha : Spec.valueOf (abs s) a <;> rw [ha] at this <;> cases this

/-- indirect_cxx14.h: `find` returns, changes no object, and finds an equivalent key if there is one.  `t` is any tree of the keys. -/
theorem C89_cxx14_find (S : tr.Sound) (hw : Spec.StrictWeak less) (hc : Spec.Compares14 C less) (hp : Kind T less) (h : SetOf14 tr T C s t.keys)
    (hy : Spec.Live (abs s) y) (es : Nat → Env) :
    ∃ r s', (find ask14 y t).run (Indirect14.either tr T C) es s = .ok r s' ∧ Spec.Finds less (abs s) t.keys y r ∧ abs s' = abs s ∧
      Spec.OwnedOnce s' := by
  obtain ⟨ok, ha, hi⟩ := set_facts14 S C hp (weak_refl hw) (srt := True) (fun _ => ⟨hc, hw, rfl⟩) h
  rw [Conc.either14_eq]
  obtain ⟨r, s', h1, ⟨h2, -, h3⟩, -, h4⟩ := run_ends (Conc.queried14 tr T C S) _ es ok
    (ends_find (setDoes14 tr T C) hy t ha.2 (srt := True) fun _ => ⟨Sorting.answers14 tr T hc, hw, (hi trivial).sorted⟩)
  exact ⟨r, s', h1, loc_finds (h3 trivial), h2, h4⟩

/-- indirect_cxx14.h: `insert` returns (a `threw` outcome is an exception of the constructor); if there is an equivalent key it changes no object, else
there is a new key that is equivalent to the argument, with the allocator that the way of making it gives.  The keys are sorted again, and nothing leaks. -/
theorem C89_cxx14_insert (S : tr.Sound) (hw : Spec.StrictWeak less) (hc : Spec.Compares14 C less) (hp : Kind T less) (h : SetOf14 tr T C s t.keys)
    (hn : Spec.Dead (abs s) n) (hy : Spec.Live (abs s) y) (hm : how.moves = true → y ∉ t.keys) (es : Nat → Env) :
    ∃ r s', (insert ask14 (fun n y => .call (how.op n y)) n y t).run (Indirect14.either tr T C) es s = .ok r s' ∧
      Spec.Inserts (Spec.keyAlloc tr) less how (abs s) (abs s') t.keys n y r ∧ Spec.IsSet less (abs s') (inserted n t.keys r) ∧ Spec.OwnedOnce s' := by
  obtain ⟨ok, ha, hi⟩ := set_facts14 S C hp (weak_refl hw) (srt := True) (fun _ => ⟨hc, hw, rfl⟩) h
  rw [Conc.either14_eq]
  obtain ⟨r, s', h1, ⟨-, h2⟩, -, h3⟩ := run_ends (Conc.queried14 tr T C S) _ es ok
    (ends_insert (add := fun how n y => .call (how.op n y)) (setDoes14 tr T C) (makes14 tr C hp (weak_refl hw)) hy t ha (srt := True)
      (fun _ => ⟨Sorting.answers14 tr T hc, hw, (hi trivial).sorted⟩) (fun _ => rfl) hn hm)
  exact ⟨r, s', h1, (h2 trivial).1, (h2 trivial).2, h3⟩

/-- indirect_cxx14.h: `erase(y)` destroys the key that is equivalent to `y`, if there is one, even if `y` is that key; no other object changes. -/
theorem C89_cxx14_erase (S : tr.Sound) (hw : Spec.StrictWeak less) (hc : Spec.Compares14 C less) (hp : Kind T less) (h : SetOf14 tr T C s t.keys)
    (hy : Spec.Live (abs s) y) (es : Nat → Env) :
    ∃ r s', (erase ask14 y t).run (Indirect14.either tr T C) es s = .ok r s' ∧
      Spec.Erases less (abs s) (abs s') t.keys y r ∧ Spec.IsSet less (abs s') (erased t.keys r) ∧ Spec.OwnedOnce s' := by
  obtain ⟨ok, ha, hi⟩ := set_facts14 S C hp (weak_refl hw) (srt := True) (fun _ => ⟨hc, hw, rfl⟩) h
  rw [Conc.either14_eq]
  obtain ⟨r, s', h1, ⟨-, h2⟩, -, h3⟩ := run_ends (Conc.queried14 tr T C S) _ es ok
    (ends_erase (setDoes14 tr T C) (makes14 tr C hp (weak_refl hw)) hy t ha (srt := True)
      (fun _ => ⟨Sorting.answers14 tr T hc, hw, (hi trivial).sorted⟩))
  exact ⟨r, s', h1, (h2 trivial).1, (h2 trivial).2, h3⟩

/-- indirect_cxx14.h: whatever the owned type does, even if comparisons contradict themselves or throw: the keys are alive, look-ups change no object,
operations end, never in undefined behaviour, and everything is owned once. -/
theorem C89_cxx14_whatever_comparisons_do (S : tr.Sound) (C : TCmp V) (h : SetOf14 tr T C s t.keys) (hy : Spec.Live (abs s) y) (es : Nat → Env) :
    Spec.KeysAlive (abs s) t.keys ∧ Spec.OwnedOnce s ∧
    (∃ r s', (find ask14 y t).run (Indirect14.either tr T C) es s = .ok r s' ∧ abs s' = abs s ∧ Spec.OwnedOnce s') ∧
    (Spec.Dead (abs s) n → (how.moves = true → y ∉ t.keys) →
      ∃ r s', (insert ask14 (fun n y => .call (how.op n y)) n y t).run (Indirect14.either tr T C) es s = .ok r s' ∧
        Spec.KeysAlive (abs s') (inserted n t.keys r) ∧ Spec.OwnedOnce s') ∧
    ∃ r s', (erase ask14 y t).run (Indirect14.either tr T C) es s = .ok r s' ∧ Spec.KeysAlive (abs s') (erased t.keys r) ∧
      Spec.OwnedOnce s' := by
  obtain ⟨ok, ha, -⟩ := set_facts14 (less := fun _ _ => false) S C (any_kind T) (fun _ => trivial) (srt := False) (fun h => h.elim) h
  have D := setDoes14 (L := L) tr T C
  have K := makes14 (L := L) tr C (any_kind T) (fun _ => trivial)
  rw [Conc.either14_eq]
  refine ⟨ha, ⟨fun p c h => (Conc.queried14 tr T C S).owned s p c ok h, fun z h p h1 h2 => (Conc.queried14 tr T C S).own s z h p ok h1 h2,
    fun z z' h h' p h1 h2 h3 h4 => (Conc.queried14 tr T C S).uniq s z z' h h' p ok h1 h2 h3 h4⟩, ?_, fun hn hm => ?_, ?_⟩
  · obtain ⟨r, s', h1, ⟨h2, -⟩, -, h3⟩ := run_ends (Conc.queried14 tr T C S) _ es ok
      (ends_find D hy t ha.2 (srt := False) (less := fun _ _ => false) (fun h => h.elim))
    exact ⟨r, s', h1, h2, h3⟩
  · obtain ⟨r, s', h1, ⟨h2, -⟩, -, h3⟩ := run_ends (Conc.queried14 tr T C S) _ es ok
      (ends_insert (add := fun how n y => .call (how.op n y)) D K hy t ha (srt := False) (less := fun _ _ => false) (fun h => h.elim)
        (fun h => h.elim) hn hm)
    exact ⟨r, s', h1, h2, h3⟩
  · obtain ⟨r, s', h1, ⟨h2, -⟩, -, h3⟩ := run_ends (Conc.queried14 tr T C S) _ es ok
      (ends_erase D K hy t ha (srt := False) (less := fun _ _ => false) (fun h => h.elim))
    exact ⟨r, s', h1, h2, h3⟩

/-- indirect_cxx14.h: at any time the keys of a hash table are alive, no two are equal, and the stored hash codes are those of the keys. -/
theorem C89_cxx14_hash_keys (S : tr.Sound) (hl : Spec.HashLaws eq hash) (hc : Spec.Hashes C eq hash) (hp : Same T eq) (h : TableOf14 tr T C s u) :
    Spec.IsTable eq hash C.npos (abs s) u :=
  (table_facts14 S C hp hl.refl (srt := True) (fun _ => ⟨hc, hl, rfl⟩) h).2.2 trivial

/-- indirect_cxx14.h: `find` of a hash table finds the equal key, if there is one, whatever the number of buckets, and changes no object. -/
theorem C89_cxx14_hash_find (S : tr.Sound) (hl : Spec.HashLaws eq hash) (hc : Spec.Hashes C eq hash) (hp : Same T eq) (h : TableOf14 tr T C s u)
    (hy : Spec.Live (abs s) y) (m : Nat) (codes : Bool) (es : Nat → Env) :
    ∃ r s', (hfind hask14 m codes y u).run (Indirect14.either tr T C) es s = .ok r s' ∧ Spec.TFinds eq (abs s) u y r ∧ abs s' = abs s ∧
      Spec.OwnedOnce s' := by
  obtain ⟨ok, ha, hi⟩ := table_facts14 S C hp hl.refl (srt := True) (fun _ => ⟨hc, hl, rfl⟩) h
  rw [Conc.either14_eq]
  obtain ⟨r, s', h1, ⟨h2, -, h3⟩, -, h4⟩ := run_ends (Conc.queried14 tr T C S) _ es ok
    (ends_hfind (hashDoes14 tr T C) hy u m codes (hi trivial).live (srt := True)
      fun _ => ⟨hashAnswers14 tr T hc, hl, (hi trivial).codes, (hi trivial).distinct⟩)
  exact ⟨r, s', h1, (h3 trivial).1, h2, h4⟩

/-- indirect_cxx14.h: `insert` into a hash table. -/
theorem C89_cxx14_hash_insert (S : tr.Sound) (hl : Spec.HashLaws eq hash) (hc : Spec.Hashes C eq hash) (hp : Same T eq) (h : TableOf14 tr T C s u)
    (hn : Spec.Dead (abs s) n) (hy : Spec.Live (abs s) y) (hm : how.moves = true → ∀ n ∈ u, n.2 ≠ y) (m : Nat) (codes : Bool)
    (es : Nat → Env) :
    ∃ r s', (hinsert hask14 (fun n y => .call (how.op n y)) m codes n y u).run (Indirect14.either tr T C) es s = .ok r s' ∧
      Spec.TInserts (Spec.keyAlloc tr) eq how (abs s) (abs s') u n y r ∧ Spec.IsTable eq hash C.npos (abs s') (hinserted n u r) ∧ Spec.OwnedOnce s' := by
  obtain ⟨ok, ha, hi⟩ := table_facts14 S C hp hl.refl (srt := True) (fun _ => ⟨hc, hl, rfl⟩) h
  rw [Conc.either14_eq]
  obtain ⟨r, s', h1, ⟨-, h2⟩, -, h3⟩ := run_ends (Conc.queried14 tr T C S) _ es ok
    (ends_hinsert (add := fun how n y => .call (how.op n y)) (hashDoes14 tr T C) (makes14 tr C hp hl.refl) hy u m codes ha (srt := True)
      (fun _ => ⟨hashAnswers14 tr T hc, hl, (hi trivial).codes, (hi trivial).distinct⟩) (fun _ => rfl) hn hm)
  exact ⟨r, s', h1, (h2 trivial).1, (h2 trivial).2, h3⟩

/-- indirect_cxx14.h: `erase(y)` from a hash table. -/
theorem C89_cxx14_hash_erase (S : tr.Sound) (hl : Spec.HashLaws eq hash) (hc : Spec.Hashes C eq hash) (hp : Same T eq) (h : TableOf14 tr T C s u)
    (hy : Spec.Live (abs s) y) (m : Nat) (codes : Bool) (es : Nat → Env) :
    ∃ r s', (herase hask14 m codes y u).run (Indirect14.either tr T C) es s = .ok r s' ∧
      Spec.TErases eq (abs s) (abs s') u y r ∧ Spec.IsTable eq hash C.npos (abs s') (herased u r) ∧ Spec.OwnedOnce s' := by
  obtain ⟨ok, ha, hi⟩ := table_facts14 S C hp hl.refl (srt := True) (fun _ => ⟨hc, hl, rfl⟩) h
  rw [Conc.either14_eq]
  obtain ⟨r, s', h1, ⟨-, h2⟩, -, h3⟩ := run_ends (Conc.queried14 tr T C S) _ es ok
    (ends_herase (hashDoes14 tr T C) (makes14 tr C hp hl.refl) hy u m codes ha (srt := True)
      (fun _ => ⟨hashAnswers14 tr T hc, hl, (hi trivial).codes, (hi trivial).distinct⟩))
  exact ⟨r, s', h1, (h2 trivial).1, (h2 trivial).2, h3⟩

/-- indirect_cxx14.h: whatever `==` and the hash of the owned type do, even if they contradict each other or throw. -/
theorem C89_cxx14_hash_whatever_comparisons_do (S : tr.Sound) (C : TCmp V) (h : TableOf14 tr T C s u) (hy : Spec.Live (abs s) y) (m : Nat)
    (codes : Bool) (es : Nat → Env) :
    Spec.KeysAlive (abs s) (u.map (·.2)) ∧
    (∃ r s', (hfind hask14 m codes y u).run (Indirect14.either tr T C) es s = .ok r s' ∧ abs s' = abs s ∧ Spec.OwnedOnce s') ∧
    (Spec.Dead (abs s) n → (how.moves = true → ∀ n ∈ u, n.2 ≠ y) →
      ∃ r s', (hinsert hask14 (fun n y => .call (how.op n y)) m codes n y u).run (Indirect14.either tr T C) es s = .ok r s' ∧
        Spec.KeysAlive (abs s') ((hinserted n u r).map (·.2)) ∧ Spec.OwnedOnce s') ∧
    ∃ r s', (herase hask14 m codes y u).run (Indirect14.either tr T C) es s = .ok r s' ∧
      Spec.KeysAlive (abs s') ((herased u r).map (·.2)) ∧ Spec.OwnedOnce s' := by
  obtain ⟨ok, ha, -⟩ := table_facts14 (eq := fun _ _ => false) (hash := fun _ => 0) S C (any_kind T) (fun _ => trivial) (srt := False)
    (fun h => h.elim) h
  have D := hashDoes14 (L := L) tr T C
  have K := makes14 (L := L) tr C (any_kind T) (fun _ => trivial)
  rw [Conc.either14_eq]
  refine ⟨ha, ?_, fun hn hm => ?_, ?_⟩
  · obtain ⟨r, s', h1, ⟨h2, -⟩, -, h3⟩ := run_ends (Conc.queried14 tr T C S) _ es ok
      (ends_hfind (eq := fun _ _ => false) (hash := fun _ => 0) (npos := 0) D hy u m codes (fun n hn => ha.2 _ (List.mem_map_of_mem hn))
        (srt := False) (fun h => h.elim))
    exact ⟨r, s', h1, h2, h3⟩
  · obtain ⟨r, s', h1, ⟨h2, -⟩, -, h3⟩ := run_ends (Conc.queried14 tr T C S) _ es ok
      (ends_hinsert (eq := fun _ _ => false) (hash := fun _ => 0) (npos := 0) (add := fun how n y => .call (how.op n y)) D K hy u m codes ha
        (srt := False) (fun h => h.elim) (fun h => h.elim) hn hm)
    exact ⟨r, s', h1, h2, h3⟩
  · obtain ⟨r, s', h1, ⟨h2, -⟩, -, h3⟩ := run_ends (Conc.queried14 tr T C S) _ es ok
      (ends_herase (eq := fun _ _ => false) (hash := fun _ => 0) (npos := 0) D K hy u m codes ha (srt := False) (fun h => h.elim))
    exact ⟨r, s', h1, h2, h3⟩

end

/-! ## Non-vacuity -/

namespace SetsDemo
open Indirect
open Verif.Demo (alloc st st_reach)

theorem weak : Spec.StrictWeak natLess := by
  refine ⟨?_, ?_, ?_⟩
  · intro a; simp [natLess]
  · intro a b c; simp only [natLess, decide_eq_true_eq]; omega
  · intro a b c; simp only [natLess, decide_eq_false_iff_not]; omega

theorem compares : Spec.Compares natCmp natLess := by
  intro f v w
  simp only [Spec.qthree, natCmp, natLess]
  by_cases h : v < w
  · exact ⟨.less, by simp [h], by simp [h]⟩
  · by_cases h' : w < v
    · exact ⟨.greater, by simp [h, h'], by simp [h]⟩
    · exact ⟨.equivalent, by simp [h, h'], by simp [h]⟩

/-- The hash of numbers modulo 4, so that there are collisions. -/
def modCmp : TCmp Nat := { natCmp with hash := fun v _ => .ok (v % 4) }

theorem keeps {Q : Nat → Nat → Prop} (hr : ∀ v, Q v v) : Spec.Preserves Demo.T Q := by
  intro v n w
  simp only [Demo.T]
  constructor
  · intro h
    split at h
    · cases h
    · cases h; exact hr _
  · intro h
    split at h
    · cases h
    · cases h; exact hr _

/-- The hypotheses hold for numbers. -/
example : Spec.StrictWeak natLess ∧ Spec.Compares natCmp natLess ∧ Spec.Compares14 natCmp natLess ∧ Kind Demo.T natLess ∧
    Spec.HashLaws (fun v w : Nat => v == w) (· % 4) ∧ Spec.Hashes modCmp (fun v w : Nat => v == w) (· % 4) ∧
    Same Demo.T (fun v w : Nat => v == w) :=
  ⟨weak, compares, fun _ _ _ => rfl, keeps (weak_refl weak), 
    ⟨by simp, fun v w h => by simpa using (by simpa using h : v = w).symm, by simp +contextual, by simp +contextual⟩,
    ⟨fun _ _ _ => rfl, fun _ _ => rfl⟩, keeps (by simp)⟩

/-- Operations on a set. -/
inductive SOp where
  | ins (how : Way Nat) (n y : Nat)
  | era (y : Nat)

/-- A tree of the keys that leans to the left. -/
def left : List Nat → Tree Nat := List.foldl (fun t k => .node t k .leaf) .leaf

theorem left_keys (ks : List Nat) : (left ks).keys = ks := by
  suffices h : ∀ (ks : List Nat) (t : Tree Nat), (ks.foldl (fun t k => .node t k .leaf) t).keys = t.keys ++ ks by
    exact (h ks .leaf).trans (by simp [Tree.keys])
  intro ks
  induction ks with
  | nil => intro t; simp
  | cons k ks ih => intro t; simp [ih, Tree.keys]

/-- A tree that leans to the right. -/
def right : List Nat → Tree Nat
  | [] => .leaf
  | k :: ks => .node .leaf k (right ks)

theorem right_keys (ks : List Nat) : (right ks).keys = ks := by
  induction ks with
  | nil => rfl
  | cons k ks ih => simp [right, Tree.keys, ih]

abbrev M := St Nat Nat Nat (Obj Nat)

section
variable {C : Type} (call : C → Env → M → Res M (Out Nat Nat Nat)) (q : Ask C (Out Nat Nat Nat) Nat) (p : HAsk C (Out Nat Nat Nat) Nat)
  (add : Way Nat → Nat → Nat → C) (es : Nat → Env)

/-- One operation; nothing happens if it is not allowed. -/
def act (w : M × List Nat) : SOp → M × List Nat
  | .ins how n y =>
    if (abs w.1 n).isNone ∧ (abs w.1 y).isSome ∧ (how.moves = true → y ∉ w.2) then
      match (insert q (add how) n y (left w.2)).run call es w.1 with
      | .ok r s => (s, inserted n w.2 r)
      | _ => w
    else w
  | .era y =>
    if (abs w.1 y).isSome then
      match (erase q y (right w.2)).run call es w.1 with
      | .ok r s => (s, erased w.2 r)
      | _ => w
    else w

/-- One operation of a hash table with 3 buckets. -/
def hact (w : M × List (Sets.Node Nat)) : SOp → M × List (Sets.Node Nat)
  | .ins how n y =>
    if (abs w.1 n).isNone ∧ (abs w.1 y).isSome ∧ (how.moves = true → ∀ a ∈ w.2, a.2 ≠ y) then
      match (hinsert p (add how) 3 false n y w.2).run call es w.1 with
      | .ok r s => (s, hinserted n w.2 r)
      | _ => w
    else w
  | .era y =>
    if (abs w.1 y).isSome then
      match (herase p 3 true y w.2).run call es w.1 with
      | .ok r s => (s, herased w.2 r)
      | _ => w
    else w

variable {call} {q} {p} {add} {es} {legal : Spec.Boxes Nat Nat Nat → C → Prop} {changes : C → List Nat} {start : M → Prop}

theorem act_reach (w : M × List Nat) (o : SOp) (h : Spec.SetReach call abs legal changes q add start w.1 w.2) :
    Spec.SetReach call abs legal changes q add start (act call q add es w o).1 (act call q add es w o).2 := by
  obtain ⟨s, ks⟩ := w
  cases o with
  | ins how n y =>
    simp only [act]
    split
    · rename_i hc
      split
      · rename_i r s' hr
        have := Spec.SetReach.insert (t := left ks) (n := n) (y := y) (how := how) (by rw [left_keys]; exact h) (Option.isNone_iff_eq_none.1 hc.1)
          (Option.isSome_iff_exists.1 hc.2.1) (by rw [left_keys]; exact hc.2.2) hr
        rw [left_keys] at this
        exact this
      · exact h
    · exact h
  | era y =>
    simp only [act]
    split
    · rename_i hc
      split
      · rename_i r s' hr
        have := Spec.SetReach.erase (t := right ks) (y := y) (by rw [right_keys]; exact h) (Option.isSome_iff_exists.1 hc) hr
        rw [right_keys] at this
        exact this
      · exact h
    · exact h

theorem hact_reach (w : M × List (Sets.Node Nat)) (o : SOp) (h : Spec.TableReach call abs legal changes p add start w.1 w.2) :
    Spec.TableReach call abs legal changes p add start (hact call p add es w o).1 (hact call p add es w o).2 := by
  obtain ⟨s, t⟩ := w
  cases o with
  | ins how n y =>
    simp only [hact]
    split
    · rename_i hc
      split
      · rename_i r s' hr
        exact Spec.TableReach.insert h (Option.isNone_iff_eq_none.1 hc.1) (Option.isSome_iff_exists.1 hc.2.1) hc.2.2 hr
      · exact h
    · exact h
  | era y =>
    simp only [hact]
    split
    · rename_i hc
      split
      · rename_i r s' hr
        exact Spec.TableReach.erase h (Option.isSome_iff_exists.1 hc) hr
      · exact h
    · exact h

theorem foldl_reach {α σ : Type} {P : σ → Prop} {f : σ → α → σ} (h : ∀ w o, P w → P (f w o)) : ∀ (os : List α) (w : σ), P w → P (os.foldl f w)
  | [], _, hw => hw
  | o :: os, w, hw => foldl_reach h os (f w o) (h w o hw)

end

/-- Storage is always available. -/
def plenty (b i : Nat) : Env := ⟨fun _ => false, fun j => b + 10 * i + j, fun _ => 0⟩

/-- Operations, in their order: 9, 7 and a valueless key come in; 9 again does not; 8 is moved in; 9 goes, by its own key. -/
def ops : List (SOp × Nat) := [(.ins .copy 20 3, 1000), (.ins .copy 21 1, 1100), (.ins (.copyA 8) 22 4, 1200), (.ins .copy 23 20, 1300), (.ins .move 24 2, 1400),
  (.era 20, 1500)]

abbrev tr := alloc false true false

abbrev made : M × List Nat := ops.foldl (fun w o => act (Indirect.either tr Demo.T natCmp) ask20 (fun how n y => .call (how.op n y)) (plenty o.2) w o.1)
  (st false true false, [])

abbrev made14 : M × List Nat :=
  ops.foldl (fun w o => act (Indirect14.either tr Demo.T natCmp) ask14 (fun how n y => .call (how.op n y)) (plenty o.2) w o.1) (st false true false, [])

abbrev hashed : M × List (Sets.Node Nat) :=
  ops.foldl (fun w o => hact (Indirect.either tr Demo.T modCmp) hask20 (fun how n y => .call (how.op n y)) (plenty o.2) w o.1) (st false true false, [])

abbrev hashed14 : M × List (Sets.Node Nat) :=
  ops.foldl (fun w o => hact (Indirect14.either tr Demo.T modCmp) hask14 (fun how n y => .call (how.op n y)) (plenty o.2) w o.1) (st false true false, [])

theorem start14 : Indirect14.Reach tr Demo.T (st false true false) := (Indirect14.reach_iff tr Demo.T _).2 (st_reach _ _ _)

/-- A set of three keys, the first valueless; object 2 was moved from, and objects 1 and 3 are as they were. -/
example : SetOf tr Demo.T natCmp made.1 made.2 ∧ made.2 = [22, 21, 24] ∧
    made.2.map (Spec.valueOf (abs made.1)) = [none, some 7, some 8] ∧
    [1, 2, 3, 4].map (Spec.valueOf (abs made.1)) = [some 7, none, some 9, none] :=
  ⟨foldl_reach (P := fun w : M × List Nat => SetOf tr Demo.T natCmp w.1 w.2) (fun w o h => act_reach w o.1 h) ops _ (.new (st_reach _ _ _)),
    by decide +kernel, by decide +kernel, by decide +kernel⟩

example : SetOf14 tr Demo.T natCmp made14.1 made14.2 ∧ made14.2 = [22, 21, 24] ∧
    made14.2.map (Spec.valueOf (abs made14.1)) = [none, some 7, some 8] ∧
    [1, 2, 3, 4].map (Spec.valueOf (abs made14.1)) = [some 7, none, some 9, none] :=
  ⟨foldl_reach (P := fun w : M × List Nat => SetOf14 tr Demo.T natCmp w.1 w.2) (fun w o h => act_reach w o.1 h) ops _ (.new start14),
    by decide +kernel, by decide +kernel, by decide +kernel⟩

/-- A hash table; its keys are all in one bucket of three. -/
example : TableOf tr Demo.T modCmp hashed.1 hashed.2 ∧ hashed.2 = [(0, 24), (999, 22), (3, 21)] ∧
    hashed.2.map (fun n => Spec.valueOf (abs hashed.1) n.2) = [some 8, none, some 7] :=
  ⟨foldl_reach (P := fun w : M × List (Sets.Node Nat) => TableOf tr Demo.T modCmp w.1 w.2) (fun w o h => hact_reach w o.1 h) ops _
    (.new (st_reach _ _ _)), by decide +kernel, by decide +kernel⟩

example : TableOf14 tr Demo.T modCmp hashed14.1 hashed14.2 ∧ hashed14.2 = [(0, 24), (999, 22), (3, 21)] ∧
    hashed14.2.map (fun n => Spec.valueOf (abs hashed14.1) n.2) = [some 8, none, some 7] :=
  ⟨foldl_reach (P := fun w : M × List (Sets.Node Nat) => TableOf14 tr Demo.T modCmp w.1 w.2) (fun w o h => hact_reach w o.1 h) ops _
    (.new start14), by decide +kernel, by decide +kernel⟩

/-- A new key cannot be made because there is no storage: the set stays as it is. -/
abbrev failed : M × List Nat :=
  act (Indirect.either tr Demo.T natCmp) ask20 (fun how n y => .call (how.op n y)) (fun _ => ⟨fun _ => true, fun _ => 0, fun _ => 0⟩) made (.ins .copy 30 3)

example : failed.2 = [22, 21, 24] ∧ failed.2.map (Spec.valueOf (abs failed.1)) = [none, some 7, some 8] ∧ (abs failed.1 30).isNone :=
  ⟨by decide +kernel, by decide +kernel, by decide +kernel⟩

end SetsDemo
end Verif.Props
