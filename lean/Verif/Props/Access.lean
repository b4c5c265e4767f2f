import Verif.Access

/-!
# C70: constness propagates to owned objects

An expression is given by its constness and its value category, a chain of accesses by its steps.  `Careful` chains use
only `*` and `->` of `indirect` and `polymorphic`, members that are neither `mutable` nor references, `std::move` and
`std::as_const`; they may be of any length, through any mixture of the two templates.
-/

set_option autoImplicit false
set_option linter.unusedSimpArgs false

namespace Verif.Props
open Verif.Access

/-- Steps that do not go through pointers and `mutable` members. -/
def Careful (ss : List Step) : Prop := Step.mutableMember ∉ ss ∧ Step.pointer ∉ ss

/-- The step names something const: a const member, a `T` that is const, or `std::as_const`. -/
def namesConst : Step → Bool
  | .star _ c => c
  | .arrow _ c => c
  | .member c => c
  | .asConst => true
  | .move => false
  | .mutableMember => false
  | .pointer => false

private theorem star_eq (k : Kind) (c : Bool) (e : Expr) :
    (Step.star k c).apply e = some ⟨e.isConst || c, match k with
      | .indirect => e.isLvalue
      | .polymorphic => true⟩ := by
  obtain ⟨a, b⟩ := e
  cases k <;> cases a <;> cases b <;> rfl

private theorem arrow_eq (k : Kind) (c : Bool) (e : Expr) :
    (Step.arrow k c).apply e = some ⟨e.isConst || c, true⟩ := by
  obtain ⟨a, b⟩ := e
  cases k <;> cases a <;> cases b <;> rfl

/-- `*e` and the object of `e->` are const exactly if `e` or the owned type is const; `*` and `->` can be used on every
expression. -/
theorem C70_one_access (k : Kind) (c : Bool) (e : Expr) :
    (∃ e', (Step.star k c).apply e = some e' ∧ e'.isConst = (e.isConst || c)) ∧
    (∃ e', (Step.arrow k c).apply e = some e' ∧ e'.isConst = (e.isConst || c)) :=
  ⟨⟨_, star_eq k c e, rfl⟩, ⟨_, arrow_eq k c e, rfl⟩⟩

private theorem step_const {s : Step} (h1 : s ≠ .mutableMember) (h2 : s ≠ .pointer) {e e' : Expr}
    (h : s.apply e = some e') : e'.isConst = (e.isConst || namesConst s) := by
  cases s with
  | star k c => rw [star_eq] at h; cases h; rfl
  | arrow k c => rw [arrow_eq] at h; cases h; rfl
  | member c => cases h; rfl
  | move => cases h; simp [namesConst]
  | asConst =>
    simp only [Step.apply] at h
    split at h
    · cases h; simp [namesConst]
    · cases h
  | mutableMember => exact absurd rfl h1
  | pointer => exact absurd rfl h2

/-- Whatever is reached is const exactly if the chain starts with something const or names something const on the way. -/
theorem C70_const_exactly (ss : List Step) (h : Careful ss) (e e' : Expr) (hf : follow ss e = some e') :
    e'.isConst = (e.isConst || ss.any namesConst) := by
  induction ss generalizing e with
  | nil => cases hf; simp
  | cons s ss ih =>
    simp only [follow] at hf
    split at hf
    · rename_i e1 he
      have hs := step_const (fun c => h.1 (by simp [c])) (fun c => h.2 (by simp [c])) he
      rw [ih ⟨fun c => h.1 (List.mem_cons_of_mem _ c), fun c => h.2 (List.mem_cons_of_mem _ c)⟩ e1 hf, hs]
      simp [Bool.or_assoc]
    · cases hf

/-- Constness propagates: everything that is reached from a const object is const. -/
theorem C70_const_propagates (ss : List Step) (h : Careful ss) (e e' : Expr) (he : e.isConst = true)
    (hf : follow ss e = some e') : e'.isConst = true := by
  rw [C70_const_exactly ss h e e' hf, he]; rfl

/-- So nothing that is reached from a const object can be assigned to or swapped, at any depth; what can be called is
`valueless_after_move` and `get_allocator`. -/
theorem C70_only_observers (ss : List Step) (h : Careful ss) (e e' : Expr) (he : e.isConst = true)
    (hf : follow ss e = some e') (m : Member) :
    callable e' m = true ↔ m = .valuelessAfterMove ∨ m = .getAllocator := by
  have := C70_const_propagates ss h e e' he hf
  cases m <;> simp [callable, viable, Member.quals, this]

/-- Without constness on the way everything can be called. -/
theorem C70_all_members (ss : List Step) (h : Careful ss) (e e' : Expr) (he : e.isConst = false)
    (hn : ss.any namesConst = false) (hf : follow ss e = some e') (m : Member) : callable e' m = true := by
  have : e'.isConst = false := by rw [C70_const_exactly ss h e e' hf, he, hn]; rfl
  cases m <;> simp [callable, viable, Member.quals, this]

/-- Every chain compiles whose `as_const` are applied to lvalues; in particular every chain without `as_const`. -/
theorem C70_access_compiles (ss : List Step) (h : Step.asConst ∉ ss) (e : Expr) : ∃ e', follow ss e = some e' := by
  induction ss generalizing e with
  | nil => exact ⟨e, rfl⟩
  | cons s ss ih =>
    have hs : ∃ e1, s.apply e = some e1 := by
      cases s with
      | star k c => exact ⟨_, star_eq k c e⟩
      | arrow k c => exact ⟨_, arrow_eq k c e⟩
      | asConst => exact absurd (List.mem_cons_self ..) h
      | _ => exact ⟨_, rfl⟩
    obtain ⟨e1, h1⟩ := hs
    obtain ⟨e2, h2⟩ := ih (fun c => h (List.mem_cons_of_mem _ c)) e1
    exact ⟨e2, by simp only [follow, h1]; exact h2⟩

/-- Nothing is moved from by accident: without `std::move`, what is reached from an lvalue is an lvalue, so that only
constructors and assignments that copy are selected for it. -/
theorem C70_lvalues_stay (ss : List Step) (h : Step.move ∉ ss) (e e' : Expr) (he : e.isLvalue = true)
    (hf : follow ss e = some e') : e'.isLvalue = true := by
  induction ss generalizing e with
  | nil => cases hf; exact he
  | cons s ss ih =>
    simp only [follow] at hf
    split at hf
    · rename_i e1 h1
      refine ih (fun c => h (List.mem_cons_of_mem _ c)) e1 ?_ hf
      cases s with
      | star k c => rw [star_eq] at h1; cases h1; cases k <;> simp [he]
      | arrow k c => rw [arrow_eq] at h1; cases h1; rfl
      | move => exact absurd (List.mem_cons_self ..) h
      | asConst =>
        simp only [Step.apply, he, if_true] at h1
        cases h1; rfl
      | _ => cases h1; first | exact he | rfl
    · cases hf

/-- Moving from an `indirect` moves from what it owns: `*` on an rvalue of `indirect`, at any depth of members and further
`indirect`s, is an rvalue. -/
theorem C70_rvalues_propagate (ss : List Step)
    (h : ∀ s ∈ ss, (∃ c, s = .star .indirect c) ∨ ∃ c, s = .member c) (e e' : Expr) (hf : follow ss e = some e') :
    e'.isLvalue = e.isLvalue := by
  induction ss generalizing e with
  | nil => cases hf; rfl
  | cons s ss ih =>
    simp only [follow] at hf
    split at hf
    · rename_i e1 h1
      rw [ih (fun s hs => h s (List.mem_cons_of_mem _ hs)) e1 hf]
      rcases h s (List.mem_cons_self ..) with ⟨c, rfl⟩ | ⟨c, rfl⟩
      · rw [star_eq] at h1; cases h1; rfl
      · cases h1; rfl
    · cases hf

/-- What a `polymorphic` owns, and what is reached by `->`, is an lvalue, even if the `polymorphic` or `indirect` is an rvalue:
it is moved from only by a further `std::move`. -/
theorem C70_polymorphic_gives_lvalues (k : Kind) (c : Bool) (e e' : Expr) :
    ((Step.star .polymorphic c).apply e = some e' → e'.isLvalue = true) ∧
    ((Step.arrow k c).apply e = some e' → e'.isLvalue = true) := by
  rw [star_eq, arrow_eq]
  exact ⟨fun h => by cases h; rfl, fun h => by cases h; rfl⟩

/-- Is the value category of the result that of the expression?  That is so for members and for `*` of `indirect`. -/
def keepsCategory : Step → Bool
  | .star .indirect _ => true
  | .member _ => true
  | .mutableMember => true
  | _ => false

/-- What is reached is an rvalue exactly if the chain ends with steps that keep the value category, and before them comes a
`std::move`, or nothing and the chain starts with an rvalue. -/
theorem C70_rvalues_exactly (ss : List Step) (e e' : Expr) (hf : follow ss e = some e') :
    e'.isLvalue = false ↔ ∃ pre post, ss = pre ++ post ∧ post.all keepsCategory = true ∧
      ((pre = [] ∧ e.isLvalue = false) ∨ ∃ p, pre = p ++ [.move]) := by
  induction ss generalizing e with
  | nil =>
    cases hf
    constructor
    · exact fun h => ⟨[], [], rfl, rfl, .inl ⟨rfl, h⟩⟩
    · rintro ⟨pre, post, hs, -, h⟩
      rcases h with ⟨-, h⟩ | ⟨p, rfl⟩
      · exact h
      · simp at hs
  | cons s ss ih =>
    simp only [follow] at hf
    split at hf
    case h_2 => cases hf
    rename_i e1 h1
    rw [ih e1 hf]
    have hs : e1.isLvalue = false ↔ (keepsCategory s = true ∧ e.isLvalue = false) ∨ s = .move := by
      cases s with
      | star k c => rw [star_eq] at h1; cases h1; cases k <;> simp [keepsCategory]
      | arrow k c => rw [arrow_eq] at h1; cases h1; simp [keepsCategory]
      | asConst =>
        simp only [Step.apply] at h1
        split at h1
        · cases h1; simp [keepsCategory]
        · cases h1
      | _ => cases h1; simp [keepsCategory]
    constructor
    · rintro ⟨pre, post, rfl, hp, ⟨rfl, h⟩ | ⟨p, rfl⟩⟩
      · rcases hs.1 h with ⟨h2, h3⟩ | rfl
        · exact ⟨[], s :: post, rfl, by simp [h2] at hp ⊢; exact hp, .inl ⟨rfl, h3⟩⟩
        · exact ⟨[.move], post, rfl, hp, .inr ⟨[], rfl⟩⟩
      · exact ⟨s :: (p ++ [.move]), post, rfl, hp, .inr ⟨s :: p, rfl⟩⟩
    · rintro ⟨pre, post, hss, hp, ⟨rfl, h⟩ | ⟨p, rfl⟩⟩
      · cases hss
        simp only [List.all_cons, Bool.and_eq_true] at hp
        exact ⟨[], ss, rfl, hp.2, .inl ⟨rfl, hs.2 (.inl ⟨hp.1, h⟩)⟩⟩
      · cases p with
        | nil => cases hss; exact ⟨[], post, rfl, hp, .inl ⟨rfl, hs.2 (.inr rfl)⟩⟩
        | cons q p => cases hss; exact ⟨p ++ [.move], post, rfl, hp, .inr ⟨p, rfl⟩⟩

/-- Does the step lead to an object that is not const, whatever it starts from? -/
def escapes : Step → Bool
  | .mutableMember => true
  | .pointer => true
  | _ => false

/-- For all chains: what is reached is const exactly if, after the last pointer or `mutable` member (or from the start if
there is none), something const is named, or the chain has none and starts with something const. -/
theorem C70_const_exactly_all (ss : List Step) (e e' : Expr) (hf : follow ss e = some e') :
    e'.isConst = true ↔ ∃ pre post, ss = pre ++ post ∧ post.any escapes = false ∧
      ((pre = [] ∧ e.isConst = true) ∨ ∃ p s, pre = p ++ [s] ∧ namesConst s = true) := by
  induction ss generalizing e with
  | nil =>
    cases hf
    constructor
    · exact fun h => ⟨[], [], rfl, rfl, .inl ⟨rfl, h⟩⟩
    · rintro ⟨pre, post, hs, -, h⟩
      rcases h with ⟨-, h⟩ | ⟨p, s, rfl, -⟩
      · exact h
      · simp at hs
  | cons s ss ih =>
    simp only [follow] at hf
    split at hf
    case h_2 => cases hf
    rename_i e1 h1
    rw [ih e1 hf]
    have hs : e1.isConst = true ↔ (escapes s = false ∧ e.isConst = true) ∨ namesConst s = true := by
      cases s with
      | mutableMember => cases h1; simp [escapes, namesConst]
      | pointer => cases h1; simp [escapes, namesConst]
      | _ => rw [step_const (by simp) (by simp) h1]; simp [escapes]
    constructor
    · rintro ⟨pre, post, rfl, hp, ⟨rfl, h⟩ | ⟨p, q, rfl, hq⟩⟩
      · rcases hs.1 h with ⟨h2, h3⟩ | h2
        · exact ⟨[], s :: post, rfl, by simp [h2] at hp ⊢; exact hp, .inl ⟨rfl, h3⟩⟩
        · exact ⟨[s], post, rfl, hp, .inr ⟨[], s, rfl, h2⟩⟩
      · exact ⟨s :: (p ++ [q]), post, rfl, hp, .inr ⟨s :: p, q, rfl, hq⟩⟩
    · rintro ⟨pre, post, hss, hp, ⟨rfl, h⟩ | ⟨p, q, rfl, hq⟩⟩
      · cases hss
        simp only [List.any_cons, Bool.or_eq_false_iff] at hp
        exact ⟨[], ss, rfl, hp.2, .inl ⟨rfl, hs.2 (.inl ⟨hp.1, h⟩)⟩⟩
      · cases p with
        | nil => cases hss; exact ⟨[], post, rfl, hp, .inl ⟨rfl, hs.2 (.inr hq)⟩⟩
        | cons r p => cases hss; exact ⟨p ++ [q], post, rfl, hp, .inr ⟨p, q, rfl, hq⟩⟩

/-- `Careful` is needed: through a pointer (as with `std::unique_ptr` in place of `indirect`), something that is not const is
reached from something const. -/
theorem C70_pointers_do_not_propagate : ∃ e' : Expr, follow [.member false, .pointer] ⟨true, true⟩ = some e' ∧
    e'.isConst = false ∧ callable e' .copyAssign = true := ⟨⟨false, true⟩, by decide⟩

/-! ### The hypotheses are met -/

/-- `(*(*x).m)->n` for a const variable `x` of type `indirect<Node>`, `Node` with a member of type
`indirect<polymorphic<Base>>`. -/
private def chain : List Step :=
  [.star .indirect false, .member false, .star .indirect false, .arrow .polymorphic false, .member false]

example : Careful chain := ⟨by decide, by decide⟩
example : follow chain ⟨true, true⟩ = some ⟨true, true⟩ := by decide
example : follow chain ⟨false, true⟩ = some ⟨false, true⟩ := by decide
example : follow chain ⟨false, false⟩ = some ⟨false, true⟩ := by decide
example : follow [.move, .star .indirect false, .member false, .star .indirect false] ⟨false, true⟩ =
    some ⟨false, false⟩ := by decide
example : follow [.star .indirect true, .member false] ⟨false, true⟩ = some ⟨true, true⟩ := by decide
example : follow [.move, .asConst] ⟨false, true⟩ = none := by decide
/-- `std::move((*x).m)`, and its `mutable` member. -/
example : follow [.star .indirect false, .member false, .move, .mutableMember] ⟨true, true⟩ = some ⟨false, false⟩ := by decide
example : follow [.pointer, .member true, .arrow .indirect false] ⟨false, false⟩ = some ⟨true, true⟩ := by decide

end Verif.Props
