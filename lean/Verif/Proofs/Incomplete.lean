import Verif.Spec.Incomplete

/-!
# Lemmas on questions about incomplete types
-/

set_option autoImplicit false
set_option linter.unusedSimpArgs false
set_option linter.unusedSectionVars false

namespace Verif.Incomplete
open Overload

section
variable {B : Type} [DecidableEq B] {α β : Type}

theorem Ask.run_bind (know : Question B → Option Bool) (t : Ask B α) (f : α → Ask B β) :
    (t >>= f).run know = (t.run know).bind fun a => (f a).run know := by
  show (t.bind f).run know = _
  induction t with
  | ret a => rfl
  | ask q k ih =>
    simp only [Ask.bind, Ask.run]
    cases know q with
    | none => rfl
    | some b => exact ih b

@[simp] theorem Ask.run_ret (know : Question B → Option Bool) (a : α) : (Ask.ret a).run know = some a := rfl

@[simp] theorem run_question (know : Question B → Option Bool) (q : Question B) : (question q).run know = know q := by
  simp only [question, Ask.run]
  cases know q <;> rfl

theorem run_inOrder_cons (know : Question B → Option Bool) (c : Ask B Bool) (cs : List (Ask B Bool)) :
    (inOrder (c :: cs)).run know = (c.run know).bind fun b => if b then (inOrder cs).run know else some false := by
  simp only [inOrder, Ask.run_bind]
  cases c.run know with
  | none => rfl
  | some b => cases b <;> rfl

theorem run_together_cons (know : Question B → Option Bool) (c : Ask B Bool) (cs : List (Ask B Bool)) :
    (together (c :: cs)).run know =
      (c.run know).bind fun a => ((together cs).run know).bind fun b => some (a && b) := by
  simp only [together, Ask.run_bind, Ask.run_ret]

@[simp] theorem run_inOrder_nil (know : Question B → Option Bool) : (inOrder ([] : List (Ask B Bool))).run know = some true := rfl
@[simp] theorem run_together_nil (know : Question B → Option Bool) : (together ([] : List (Ask B Bool))).run know = some true := rfl

/-- More knowledge does not change results. -/
theorem Ask.run_mono {know know' : Question B → Option Bool} (h : ∀ q b, know q = some b → know' q = some b) (t : Ask B α) {a : α}
    (ht : t.run know = some a) : t.run know' = some a := by
  induction t with
  | ret a' => exact ht
  | ask q k ih =>
    simp only [Ask.run] at ht ⊢
    cases hq : know q with
    | none => rw [hq] at ht; exact nomatch ht
    | some b =>
      rw [hq] at ht
      rw [h q b hq]
      exact ih b ht

theorem known_mono {n : Names B} {c c' : B → Bool} (h : Spec.More c c') {answer : Question B → Bool} (q : Question B) (b : Bool)
    (hq : known n c answer q = some b) : known n c' answer q = some b := by
  unfold known at hq ⊢
  split at hq
  · next h1 =>
    rw [if_pos]
    · exact hq
    · rw [List.all_eq_true] at h1 ⊢
      exact fun x hx => h x (h1 x hx)
  · exact nomatch hq

theorem known_all {n : Names B} {c : B → Bool} (h : ∀ b, c b = true) {answer : Question B → Bool} (q : Question B) :
    known n c answer q = some (answer q) := by
  unfold known
  rw [if_pos]
  rw [List.all_eq_true]
  exact fun x _ => h x

/-- An unanswered question about the owned type. -/
theorem known_none {n : Names B} {c : B → Bool} (h : c n.owned = false) {answer : Question B → Bool} {q : Question B}
    (hq : n.owned ∈ about n q) : known n c answer q = none := by
  unfold known
  rw [if_neg]
  intro h1
  rw [List.all_eq_true] at h1
  rw [h1 _ hq] at h
  exact nomatch h

/-- Overload resolution does not depend on more than it is given. -/
theorem viable_congr {t t' : Types B} {x : Arg B} (h1 : t.self = t'.self) (h2 : t.inPlace = t'.inPlace)
    (h3 : x.ty = t.self ∨ t.fromSelf x.ty = t'.fromSelf x.ty) (f i : Bool) (g : Fn) : viable t f i x g = viable t' f i x g := by
  cases g with
  | copy =>
    simp only [viable, bindCopy, ← h1]
    cases h3 with
    | inl h => simp [h]
    | inr h => rw [h]
  | move =>
    simp only [viable, bindMove, ← h1]
    cases h3 with
    | inl h => simp [h]
    | inr h => rw [h]
  | forward => rfl
  | inPlace => simp only [viable, bindInPlace, h2]

theorem select_congr {t t' : Types B} {x : Arg B} (h1 : t.self = t'.self) (h2 : t.inPlace = t'.inPlace)
    (h3 : x.ty = t.self ∨ t.fromSelf x.ty = t'.fromSelf x.ty) (f i : Bool) : select t f i x = select t' f i x := by
  unfold select
  congr 1
  funext g
  simp only [isBest, viable_congr h1 h2 h3]

/-- A template that accepts a tag does not matter for other arguments. -/
theorem select_noTag {t : Types B} {x : Arg B} (h : ¬ (x.ty = t.inPlace ∧ x.isVolatile = false)) (f i : Bool) :
    select t f i x = select t f false x := by
  unfold select
  congr 1
  funext g
  have hv : ∀ g, viable t f i x g = viable t f false x g := by
    intro g
    cases g <;> simp [viable, bindInPlace, h]
  simp only [isBest, hv]

theorem isTag_iff {n : Names B} {x : Arg B} : isTag n x = true ↔ x.ty = n.inPlace ∧ x.isVolatile = false := by
  simp [isTag]

/-- Only the copy and move functions compete for an owner. -/
theorem select_owner {n : Names B} (h : Spec.Apart n) {x : Arg B} (hx : Spec.IsOwner n x) (d i : Bool) :
    select (types n d) false i x = some (Spec.copiesOrMoves x) := by
  obtain ⟨ty, c, v, l⟩ := x
  obtain ⟨h1, h2⟩ := hx
  simp only at h1 h2
  subst h1 h2
  have := h.tag
  cases c <;> cases l <;> cases i <;>
    simp [select, all, isBest, viable, bindCopy, bindMove, bindInPlace, beats, better, nonTemplate, types, this,
      List.find?, Spec.copiesOrMoves]

theorem run_resolve_owner {n : Names B} (h : Spec.Apart n) {x : Arg B} (hx : Spec.IsOwner n x) (i : Bool)
    (know : Question B → Option Bool) : (resolve n x false i).run know = some (some (Spec.copiesOrMoves x)) := by
  simp only [resolve, if_pos hx.ty, Ask.run_ret]
  rw [select_owner h hx]

theorem notSelf_owner {n : Names B} {x : Arg B} (hx : Spec.IsOwner n x) : notSelf n (deduce x) = .ret false := by
  simp [notSelf, deduce, removeCvref, plain, hx.ty]

theorem isTag_owner {n : Names B} (h : Spec.Apart n) {x : Arg B} (hx : Spec.IsOwner n x) : isTag n x = false := by
  simp [isTag, hx.ty, h.tag]

theorem run_forward_owner {n : Names B} (h : Spec.Apart n) {x : Arg B} (hx : Spec.IsOwner n x) (hd : Header)
    (know : Question B → Option Bool) : (forward n (deduce x) hd).run know = some false := by
  cases hd
  · simp [forward, notSelf_owner hx, run_inOrder_cons]
  · simp [forward, run_inOrder_cons, plain, removeCvref, deduce, hx.ty, Ne.symm h.owned]
  · simp [forward, notSelf_owner hx, run_inOrder_cons]
  · simp [forward, notSelf_owner hx, run_inOrder_cons]

theorem run_forwardA_owner {n : Names B} (h : Spec.Apart n) {x : Arg B} (hx : Spec.IsOwner n x) (hd : Header)
    (know : Question B → Option Bool) : (forwardA n (deduce x) hd).run know = some false := by
  cases hd
  · simp [forwardA, notSelf_owner hx, run_inOrder_cons]
  · simp [forwardA, run_inOrder_cons, plain, removeCvref, deduce, hx.ty, Ne.symm h.owned]
  · simp [forwardA, notSelf_owner hx, run_inOrder_cons]
  · simp [forwardA, notSelf_owner hx, run_inOrder_cons]

end
end Verif.Incomplete
