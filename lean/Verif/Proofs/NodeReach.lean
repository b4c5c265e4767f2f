import Verif.Proofs.NodeSet
import Verif.Proofs.NodeLife
import Verif.Spec.NodeRun

set_option autoImplicit false
set_option linter.unusedSectionVars false
set_option linter.unusedSimpArgs false

/-! Histories of programs with recursive nodes. -/

namespace Verif.Node
open Verif

section
variable {N A R V X : Type} [DecidableEq N] [DecidableEq R]
variable {res : A → R} {K : Nat}

/-- A state determines the blocks of the tree held at a place. -/
theorem Holds.mem_iff {s : NSt N A R V} : ∀ {t t' : Tree A V} {o : Option (Handle A)},
    Holds res K s o t → Holds res K s o t' → ∀ q, t.Mem K q ↔ t'.Mem K q := by
  intro t
  induction t with
  | absent =>
    intro t' o h h' q
    have h : o = none := h
    subst h
    cases t' with
    | absent => exact Iff.rfl
    | hollow b => exact nomatch (show (none : Option (Handle A)) = _ from h')
    | node p b v ks => exact nomatch h'.1
  | hollow a =>
    intro t' o h h' q
    have h : o = _ := h
    subst h
    cases t' with
    | absent => exact nomatch (show some (⟨none, a⟩ : Handle A) = _ from h')
    | hollow b => exact Iff.rfl
    | node p b v ks => exact absurd h'.1 (by simp)
  | node p a v ks ih =>
    intro t' o h h' q
    obtain ⟨rfl, hp, hk⟩ := h
    cases t' with
    | absent => exact nomatch (show some (⟨some p, a⟩ : Handle A) = _ from h')
    | hollow b => exact absurd (show some (⟨some p, a⟩ : Handle A) = _ from h') (by simp)
    | node p' b v' ks' =>
      obtain ⟨e, hp', hk'⟩ := h'
      have e : p = p' := by simp at e; exact e.1
      subst e
      constructor
      · rintro (e | ⟨k, hlt, hm⟩)
        · exact Or.inl e
        · exact Or.inr ⟨k, hlt, (ih k (hk k hlt) (hk' k hlt) q).1 hm⟩
      · rintro (e | ⟨k, hlt, hm⟩)
        · exact Or.inl e
        · exact Or.inr ⟨k, hlt, (ih k (hk k hlt) (hk' k hlt) q).2 hm⟩

theorem Holds.sep_of {s : NSt N A R V} : ∀ {t t' : Tree A V} {o : Option (Handle A)},
    Holds res K s o t → Holds res K s o t' → t.Sep K → t'.Sep K := by
  intro t
  induction t with
  | absent =>
    intro t' o h h' _
    have h : o = none := h
    subst h
    cases t' with
    | absent => exact trivial
    | hollow b => exact trivial
    | node p b v ks => exact nomatch h'.1
  | hollow a =>
    intro t' o h h' _
    have h : o = _ := h
    subst h
    cases t' with
    | absent => exact trivial
    | hollow b => exact trivial
    | node p b v ks => exact absurd h'.1 (by simp)
  | node p a v ks ih =>
    intro t' o h h' hs
    obtain ⟨rfl, hp, hk⟩ := h
    cases t' with
    | absent => exact trivial
    | hollow b => exact trivial
    | node p' b v' ks' =>
      obtain ⟨e, hp', hk'⟩ := h'
      have e : p = p' := by simp at e; exact e.1
      subst e
      obtain ⟨s1, s2, s3⟩ := hs
      refine ⟨fun k hlt hm => s1 k hlt (((hk k hlt).mem_iff (hk' k hlt) _).2 hm), ?_,
        fun k hlt => ih k (hk k hlt) (hk' k hlt) (s3 k hlt)⟩
      intro i j hi hj hne q hm hm'
      exact s2 i j hi hj hne q (((hk i hi).mem_iff (hk' i hi) _).2 hm) (((hk j hj).mem_iff (hk' j hj) _).2 hm')

theorem World.of_shows {W W' : N → Tree A V} {s : NSt N A R V} (w : World res K W s)
    (h : Shows res K W' s) : World res K W' s where
  holds := h
  sep x := (w.holds x).sep_of (h x) (w.sep x)
  disj x y hne q hm hm' := w.disj x y hne q (((w.holds x).mem_iff (h x) q).2 hm)
    (((w.holds y).mem_iff (h y) q).2 hm')
  cover q hq := by
    obtain ⟨x, hx⟩ := w.cover q hq
    exact ⟨x, ((w.holds x).mem_iff (h x) q).1 hx⟩
  clean := w.clean

/-- Two states holding the same tree agree on its blocks. -/
theorem Holds.agree {s s' : NSt N A R V} : ∀ {t : Tree A V} {o o' : Option (Handle A)},
    Holds res K s o t → Holds res K s' o' t → o = o' ∧ ∀ q, t.Mem K q → s.heap q = s'.heap q ∧
      ∀ k, k < K → s.hs (.field q k) = s'.hs (.field q k) := by
  intro t
  induction t with
  | absent =>
    intro o o' h h'
    exact ⟨Eq.trans h (Eq.symm h'), fun q hm => hm.elim⟩
  | hollow a =>
    intro o o' h h'
    exact ⟨Eq.trans h (Eq.symm h'), fun q hm => hm.elim⟩
  | node p a v ks ih =>
    intro o o' h h'
    refine ⟨h.1.trans h'.1.symm, ?_⟩
    rintro q (rfl | ⟨k, hk, hm⟩)
    · exact ⟨h.2.1.trans h'.2.1.symm, fun k hk => (ih k (h.2.2 k hk) (h'.2.2 k hk)).1⟩
    · exact (ih k (h.2.2 k hk) (h'.2.2 k hk)).2 q hm

/-- A world determines storage and objects. -/
theorem World.same {W : N → Tree A V} {s s' : NSt N A R V} (w : World res K W s)
    (w' : World res K W s') : s.heap = s'.heap ∧ s.hs = s'.hs := by
  have hheap : ∀ q, s.heap q = s'.heap q := by
    intro q
    by_cases h : ∃ x, (W x).Mem K q
    · obtain ⟨x, hx⟩ := h
      exact (((w.holds x).agree (w'.holds x)).2 q hx).1
    · have h1 : s.heap q = none := Classical.byContradiction fun hn => h (w.cover q hn)
      have h2 : s'.heap q = none := Classical.byContradiction fun hn => h (w'.cover q hn)
      rw [h1, h2]
  refine ⟨funext hheap, funext fun l => ?_⟩
  cases l with
  | var x => exact ((w.holds x).agree (w'.holds x)).1
  | field q k =>
    by_cases hk : k < K
    · by_cases h : ∃ x, (W x).Mem K q
      · obtain ⟨x, hx⟩ := h
        exact (((w.holds x).agree (w'.holds x)).2 q hx).2 k hk
      · have h1 : s.heap q = none := Classical.byContradiction fun hn => h (w.cover q hn)
        rw [w.clean q k (Or.inl h1), w'.clean q k (Or.inl (hheap q ▸ h1))]
    · rw [w.clean q k (Or.inr (Nat.le_of_not_lt hk)), w'.clean q k (Or.inr (Nat.le_of_not_lt hk))]

theorem World.start (e : Env) : World res K (fun _ => .absent : N → Tree A V) (start e : NSt N A R V) where
  holds _ := rfl
  sep _ := trivial
  disj _ _ _ _ h := h.elim
  cover q h := absurd rfl h
  clean _ _ _ := rfl

theorem World.enter {W : N → Tree A V} {s : NSt N A R V} (w : World res K W s) (e : Env) :
    World res K W (s.enter e) :=
  w.congr rfl rfl

variable {tr : ATraits A R} {T : TSpec V X}

theorem Reach.exists_world (hS : tr.Sound) (hR : tr.Reflexive) {s : NSt N A R V} (h : Reach tr T K s) :
    ∃ W, World tr.res K W s := by
  induction h with
  | start e => exact ⟨_, World.start e⟩
  | @ok s s' W c h hW hL hr ih =>
    obtain ⟨W₀, w⟩ := ih
    have := exec_spec tr T hS hR ((w.of_shows hW).enter c.env) c.depth c.op hL
    have hr : exec tr T K c.depth c.op (s.enter c.env) = _ := hr
    rw [hr] at this
    obtain ⟨W', _, w'⟩ := this
    exact ⟨W', w'⟩
  | @threw s s' W c e h hW hL hr ih =>
    obtain ⟨W₀, w⟩ := ih
    have := exec_spec tr T hS hR ((w.of_shows hW).enter c.env) c.depth c.op hL
    have hr : exec tr T K c.depth c.op (s.enter c.env) = _ := hr
    rw [hr] at this
    obtain ⟨W', _, w'⟩ := this
    exact ⟨W', w'⟩

theorem Reach.world (hS : tr.Sound) (hR : tr.Reflexive) {s : NSt N A R V} (h : Reach tr T K s)
    {W : N → Tree A V} (hW : Shows tr.res K W s) : World tr.res K W s := by
  obtain ⟨W₀, w⟩ := h.exists_world hS hR
  exact w.of_shows hW

/-- A call extends the trace according to the protocol. -/
theorem life_call (c : NCall N A X) {s : NSt N A R V} (h : LifeOk [] s) :
    (call tr T K c s).All (LifeOk s.trace) :=
  life_exec (t₀ := s.trace) tr T K c.depth c.op (s.enter c.env) ⟨List.prefix_rfl, h.2⟩

theorem Reach.life {s : NSt N A R V} (h : Reach tr T K s) : LifeOk [] s := by
  induction h with
  | start e => exact ⟨List.prefix_rfl, rfl⟩
  | @ok s s' W c h hW hL hr ih =>
    have := life_exec tr T K c.depth c.op (s.enter c.env) ih
    have hr : exec tr T K c.depth c.op (s.enter c.env) = _ := hr
    rw [hr] at this; exact this
  | @threw s s' W c e h hW hL hr ih =>
    have := life_exec tr T K c.depth c.op (s.enter c.env) ih
    have hr : exec tr T K c.depth c.op (s.enter c.env) = _ := hr
    rw [hr] at this; exact this

/-! ### Places apart from a change -/

/-- A completed statement leaves alone what is apart from the places it changes. -/
theorem Step.apart {W W' : N → Tree A V} {o : NOp N A X} (h : Step tr T K W o W') {Z : Path N}
    (hZ : ∀ P ∈ changes o, P.Apart Z) : treeAt W' Z = treeAt W Z := by
  cases o <;> simp only [changes, List.mem_cons, List.not_mem_nil, or_false, forall_eq_or_imp, forall_eq] at hZ <;>
    simp only [Step] at h
  case make P a us => obtain ⟨_, _, _, _, _, rfl⟩ := h; exact treeAt_putAt_apart hZ
  case copy P Q => obtain ⟨_, _, _, rfl⟩ := h; exact treeAt_putAt_apart hZ
  case copyA P a Q => obtain ⟨_, _, _, rfl⟩ := h; exact treeAt_putAt_apart hZ
  case moveA P a Q =>
    obtain ⟨_, _, _, _, _, _, rfl⟩ := h
    rw [treeAt_putAt_apart hZ.2, treeAt_putAt_apart hZ.1]
  case move P Q => rw [h, treeAt_putAt_apart hZ.2, treeAt_putAt_apart hZ.1]
  case drop P => rw [h, treeAt_putAt_apart hZ]
  case assign P Q =>
    split at h
    · rw [h]
    · obtain ⟨_, _, _, _, _, rfl⟩ := h; exact treeAt_putAt_apart hZ
  case moveAssign P Q =>
    split at h
    · rw [h]
    · obtain ⟨_, _, _, _, _, _, rfl⟩ := h
      rw [treeAt_putAt_apart hZ.2, treeAt_putAt_apart hZ.1]
  case swap P Q =>
    split at h
    · rw [h]
    · rw [h, treeAt_putAt_apart hZ.2, treeAt_putAt_apart hZ.1]
  case set P x =>
    rcases h with ⟨_, _, _, _, _, _, _, _, rfl⟩ | ⟨_, _, _, _, _, _, _, rfl⟩ <;> exact treeAt_putAt_apart hZ
  case setCopy P Q =>
    split at h
    · obtain ⟨_, _, _, _, _, _, _, _, rfl⟩ := h; exact treeAt_putAt_apart hZ
    · rcases h with ⟨_, _, _, _, _, _, _, _, _, _, _, _, _, _, _, rfl⟩ | ⟨_, _, _, _, _, rfl⟩ <;>
        exact treeAt_putAt_apart hZ
  case setMove P Q =>
    split at h
    · obtain ⟨_, _, _, _, _, _, _, _, _, rfl⟩ := h; exact treeAt_putAt_apart hZ.1
    · rcases h with ⟨_, _, _, _, _, _, _, _, _, _, _, _, _, _, _, _, _, rfl⟩ | ⟨_, _, _, _, _, _, _, _, _, _, _, _, _, rfl⟩ <;>
        rw [treeAt_putAt_apart hZ.2, treeAt_putAt_apart hZ.1]

theorem Failed.apart {W W' : N → Tree A V} {o : NOp N A X} (h : Failed tr T W o W') {Z : Path N}
    (hZ : ∀ P ∈ changes o, P.Apart Z) : treeAt W' Z = treeAt W Z := by
  cases o <;> simp only [changes, List.mem_cons, List.not_mem_nil, or_false, forall_eq_or_imp, forall_eq] at hZ <;>
    simp only [Failed] at h
  case make P a us => rw [h]
  case copy P Q => rw [h]
  case copyA P a Q => rw [h]
  case moveA P a Q =>
    obtain ⟨_, _, _, _, _, _, rfl⟩ := h
    exact treeAt_putAt_apart hZ.2
  case assign P Q => obtain ⟨⟨_, _, rfl⟩, _⟩ := h; exact treeAt_putAt_apart hZ
  case moveAssign P Q =>
    obtain ⟨_, _, _, _, _, _, rfl⟩ := h
    exact treeAt_putAt_apart hZ.2
  case set P x =>
    rcases h with rfl | ⟨_, _, _, _, _, _, rfl⟩
    · rfl
    · exact treeAt_putAt_apart hZ
  case setCopy P Q =>
    rcases h with rfl | ⟨_, _, _, _, _, _, _, rfl⟩
    · rfl
    · exact treeAt_putAt_apart hZ
  case setMove P Q =>
    split at h
    · obtain ⟨_, _, _, _, _, _, rfl⟩ := h; exact treeAt_putAt_apart hZ.1
    · obtain ⟨_, _, _, _, _, _, _, ⟨rfl, _⟩ | ⟨_, _, _, _, _, _, _, rfl⟩⟩ := h
      · exact treeAt_putAt_apart hZ.2
      · rw [treeAt_putAt_apart hZ.2, treeAt_putAt_apart hZ.1]

end
end Verif.Node
