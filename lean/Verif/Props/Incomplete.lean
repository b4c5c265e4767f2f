import Verif.Proofs.Incomplete

/-!
# C85: incomplete types

Whether owners can be copied, moved, assigned, destroyed and swapped can be asked while the owned type is incomplete, the
answers do not change when it is completed, and the owned type has to be complete only where a function that looks at the owned
object is used.  The headers for C++14 do not keep this everywhere, see the end.
-/

set_option autoImplicit false
set_option linter.unusedSimpArgs false
set_option linter.unusedSectionVars false

namespace Verif.Props
open Verif.Overload Verif.Incomplete Verif.Spec

section
variable {B : Type} [DecidableEq B]

/-! ### Questions that need no complete type -/

/-- An owner can be constructed from an owner, by copy or by move: this is so whatever is known about the owned type. -/
theorem C85_construct {r : Rules} {n : Names B} {h : Header} (ha : Apart n) (hr : Early r h) {x : Arg B} (hx : IsOwner n x) :
    Settled (Incomplete.constructs r n h x) (some (copiesOrMoves x)) := by
  intro know
  simp only [Incomplete.constructs, Ask.run_bind, run_forward_owner ha hx, Option.bind_some]
  rw [show (withTag r n (isTag n x) [] h).run know = some false by
    rw [isTag_owner ha hx]
    cases h <;> simp_all [withTag, tagged, Early]]
  exact run_resolve_owner ha hx _ know

/-- The same with an allocator. -/
theorem C85_construct_with_allocator {r : Rules} {n : Names B} {h : Header} (ha : Apart n) (hr : Early r h) (a : Arg B) {x : Arg B}
    (hx : IsOwner n x) : Settled (Incomplete.constructsA r n h a x) (some (copiesOrMoves x)) := by
  intro know
  simp only [Incomplete.constructsA, Ask.run_bind, run_forwardA_owner ha hx, Option.bind_some]
  rw [show (withTagA r (isTag n x) [] h).run know = some false by
      rw [isTag_owner ha hx]
      cases h <;> simp_all [withTagA, tagged, Early],
    show (withTag r n false [deduce a, deduce x] h).run know = some false by
      cases h <;> simp_all [withTag, tagged, Early]]
  exact run_resolve_owner ha hx _ know

/-- An owner can be assigned to an owner, by copy or by move.  Missing: `indirect` for C++14 (`C85_assign_violation`). -/
theorem C85_assign_partial {n : Names B} {h : Header} (ha : Apart n) (h14 : h ≠ .indirect14) {x : Arg B} (hx : IsOwner n x) :
    Settled (Incomplete.assigns n h x) (some (copiesOrMoves x)) := by
  intro know
  simp only [Incomplete.assigns, Ask.run_bind]
  rw [show (forwardAssign n (deduce x) h).run know = some false by
    cases h with
    | indirect20 => simp [forwardAssign, notSelf_owner hx, run_inOrder_cons]
    | indirect14 => exact absurd rfl h14
    | polymorphic20 => rfl
    | polymorphic14 => rfl]
  exact run_resolve_owner ha hx _ know

/-- Default construction can be asked for as well, the answer depends on the allocator.  Missing: `polymorphic` for C++14
(`C85_default_violation`). -/
theorem C85_default_partial {n : Names B} {h : Header} (h14 : h ≠ .polymorphic14) : Settled (makes n h) n.allocDefault := by
  intro know
  cases h <;> first | rfl | exact absurd rfl h14

/-- And with an allocator. -/
theorem C85_default_with_allocator_partial {r : Rules} {n : Names B} {h : Header} (h14 : h ≠ .polymorphic14) (hr : Early r h)
    (a : Arg B) : Settled (makesA r n a h) true := by
  intro know
  simp only [makesA, Ask.run_bind]
  cases h with
  | indirect20 => simp_all [withTag, tagged, Early]
  | indirect14 => simp_all [withTag, tagged, Early]
  | polymorphic20 => rfl
  | polymorphic14 => exact absurd rfl h14

/-- A class with owners as members can be copied and moved: this is so whatever is known about the owned types. -/
theorem C85_member_construct {r : Rules} (c l : Bool) {ms : List (Header × Names B)} (h : ∀ m ∈ ms, Apart m.2 ∧ Early r m.1) :
    Settled (composite r (fun n => .construct ⟨n.self, c, false, l⟩) ms) true := by
  intro know
  induction ms with
  | nil => rfl
  | cons m ms ih =>
    have hm := h m (List.mem_cons_self ..)
    simp only [composite, asks, Ask.run_bind]
    rw [C85_construct hm.1 hm.2 ⟨rfl, rfl⟩ know, ih (fun m' hm' => h m' (List.mem_cons_of_mem _ hm'))]
    rfl

/-- And assigned, if they are not `indirect` for C++14. -/
theorem C85_member_assign_partial {r : Rules} (c l : Bool) {ms : List (Header × Names B)}
    (h : ∀ m ∈ ms, Apart m.2 ∧ m.1 ≠ .indirect14) :
    Settled (composite r (fun n => .assign ⟨n.self, c, false, l⟩) ms) true := by
  intro know
  induction ms with
  | nil => rfl
  | cons m ms ih =>
    have hm := h m (List.mem_cons_self ..)
    simp only [composite, asks, Ask.run_bind]
    rw [C85_assign_partial hm.1 hm.2 ⟨rfl, rfl⟩ know, ih (fun m' hm' => h m' (List.mem_cons_of_mem _ hm'))]
    rfl

/-- In general such a class can do what all its members can do. -/
theorem C85_member_exactly {r : Rules} {t : Names B → Trait B} {ms : List (Header × Names B)} {know : Question B → Option Bool} {b : Bool}
    (h : (composite r t ms).run know = some b) :
    b = true ↔ ∀ m ∈ ms, (asks r m.2 m.1 (t m.2)).run know = some true := by
  induction ms generalizing b with
  | nil =>
    cases h
    exact ⟨fun _ _ hm => (nomatch hm), fun _ => rfl⟩
  | cons m ms ih =>
    simp only [composite, Ask.run_bind, Ask.run_ret, Option.bind_eq_some_iff, Option.some.injEq] at h
    obtain ⟨a, ha, b', hb, rfl⟩ := h
    rw [Bool.and_eq_true, ih hb, List.forall_mem_cons, ha, Option.some.injEq]

/-! ### Answers do not change -/

/-- An answer given while some classes are incomplete is the answer given when more are complete: for every question, constructors from any
argument included. -/
theorem C85_stable {r : Rules} {n : Names B} {h : Header} {t : Trait B} {c c' : B → Bool} (hc : More c c')
    {answer : Question B → Bool} {a : Bool} (ha : (asks r n h t).run (known n c answer) = some a) :
    (asks r n h t).run (known n c' answer) = some a :=
  Ask.run_mono (known_mono hc) _ ha

/-- So it does not matter whether the compiler remembers answers. -/
theorem C85_remembering {r : Rules} {n : Names B} {h : Header} {t : Trait B} {answer : Question B → Bool} {cs : List (B → Bool)}
    (hc : cs.Pairwise More)
    (hs : ∀ c ∈ cs, ((asks r n h t).run (known n c answer)).isSome = true) :
    replies (fun c => (asks r n h t).run (known n c answer)) true none cs =
      cs.map fun c => (asks r n h t).run (known n c answer) := by
  have step : ∀ (cs : List (B → Bool)) (a : Bool), (∀ c ∈ cs, (asks r n h t).run (known n c answer) = some a) →
      replies (fun c => (asks r n h t).run (known n c answer)) true (some a) cs =
        cs.map fun c => (asks r n h t).run (known n c answer) := by
    intro cs
    induction cs with
    | nil => intro _ _; rfl
    | cons c cs ih =>
      intro a h1
      simp only [replies, List.map_cons, if_true]
      rw [ih a (fun c' h' => h1 c' (List.mem_cons_of_mem _ h')), h1 c (List.mem_cons_self ..)]
  cases cs with
  | nil => rfl
  | cons c cs =>
    obtain ⟨a, ha⟩ := Option.isSome_iff_exists.mp (hs c (List.mem_cons_self ..))
    simp only [replies, List.map_cons]
    rw [ha, step cs a fun c' h' => C85_stable ((List.pairwise_cons.mp hc).1 c' h') ha]

private theorem compile_last {r : Rules} {answer : Names B → Question B → Bool} {h : Header} {n : Names B} {t : Trait B} {a : Bool} :
    ∀ (ps : List (Part B)) (c c' : B → Bool), More c c' → (asks r n h t).run (known n c (answer n)) = some a →
      ∀ as, compile r answer c' (ps ++ [.trait h n t]) = some as → as.getLast? = some a := by
  intro ps
  induction ps with
  | nil =>
    intro c c' hc ha as has
    simp only [List.nil_append, compile, C85_stable hc ha, Option.map_some, Option.some.injEq] at has
    subst has
    rfl
  | cons p ps ih =>
    intro c c' hc ha as has
    cases p with
    | define b =>
      refine ih c _ ?_ ha as has
      intro d hd
      show (d == b || c' d) = true
      rw [hc d hd, Bool.or_true]
    | trait h' n' t' =>
      simp only [List.cons_append, compile] at has
      split at has
      · exact nomatch has
      · rw [Option.map_eq_some_iff] at has
        obtain ⟨bs, hb, rfl⟩ := has
        have := ih c c' hc ha bs hb
        rw [List.getLast?_cons, this]
        rfl
    | use h' n' e u =>
      simp only [List.cons_append, compile] at has
      split at has
      · exact ih c c' hc ha as has
      · exact nomatch has

/-- In a translation unit that is accepted, the same question has the same answer at the beginning and at the end, whatever is
defined in between. -/
theorem C85_unit_stable {r : Rules} {answer : Names B → Question B → Bool} {h : Header} {n : Names B} {t : Trait B}
    {ps : List (Part B)} {c : B → Bool} {as : List Bool}
    (has : compile r answer c (.trait h n t :: ps ++ [.trait h n t]) = some as) : as.head? = as.getLast? := by
  simp only [List.cons_append, compile] at has
  split at has
  · exact nomatch has
  · next a ha =>
    rw [Option.map_eq_some_iff] at has
    obtain ⟨bs, hb, rfl⟩ := has
    have := compile_last ps c c (fun _ h => h) ha bs hb
    rw [List.getLast?_cons, this]
    rfl

/-! ### Complete types: the answers are those of overload resolution -/

private theorem select_facts {n : Names B} {answer : Question B → Bool} {know : Question B → Option Bool} {x : Arg B}
    (hk : x.ty = n.self ∨ know (.fromSelf x.ty) = some (answer (.fromSelf x.ty))) (f i : Bool) :
    (resolve n x f i).run know = some (select (facts n answer) f i x) := by
  unfold resolve
  split
  · next h =>
    rw [Ask.run_ret]
    congr 1
    exact select_congr (t := types n false) (t' := facts n answer) rfl rfl (Or.inl h) f i
  · next h =>
    rw [Ask.run_bind, run_question, hk.resolve_left h]
    simp only [Option.bind_some, Ask.run_ret]
    exact congrArg some
      (select_congr (t := types n (answer (.fromSelf x.ty))) (t' := facts n answer) rfl rfl (Or.inr rfl) f i)

private theorem select_tag {n : Names B} {answer : Question B → Bool} {x : Arg B} (f i : Bool) (e : Bool) :
    select (facts n answer) f (if e && !isTag n x then false else i) x = select (facts n answer) f i x := by
  cases e
  · rfl
  · cases ht : isTag n x
    · rw [select_noTag (t := facts n answer) (i := i)]
      · rfl
      · intro h
        rw [isTag_iff.mpr h] at ht
        exact nomatch ht
    · rfl

variable {r : Rules} {n : Names B} {c : B → Bool} {answer : Question B → Bool}

/-- When all classes are complete, constructions select what the model of overload resolution selects (C49): indirect.h. -/
theorem C85_complete_construct (hc : ∀ b, c b = true) (x : Arg B) :
    (Incomplete.constructs r n .indirect20 x).run (known n c answer) = some (Overload.constructs (facts n answer) x) := by
  have hk := fun q => known_all (n := n) hc (answer := answer) q
  have hf : (forward n (deduce x) .indirect20).run (known n c answer) = some (indirectCtor (facts n answer) (deduce x)) := by
    simp only [forward, notSelf, notTag, run_inOrder_cons, Ask.run_ret, run_question, run_inOrder_nil, Option.bind_some, hk]
    simp only [indirectCtor, facts]
    cases (removeCvref (deduce x) == plain n.self) <;> cases (removeCvref (deduce x) == plain n.inPlace) <;>
      cases answer (.constructible [deduce x]) <;> cases n.allocDefault <;> rfl
  have hi : (withTag r n (isTag n x) [] .indirect20).run (known n c answer) =
      some (if r.beforeConstraints && !isTag n x then false else (answer (.constructible []) && n.allocDefault)) := by
    simp only [withTag, tagged]
    split
    · rfl
    · simp only [run_inOrder_cons, Ask.run_ret, run_question, run_inOrder_nil, Option.bind_some, hk]
      cases answer (.constructible []) <;> cases n.allocDefault <;> rfl
  simp only [Incomplete.constructs, Ask.run_bind, hf, hi, Option.bind_some, select_facts (answer := answer) (Or.inr (hk _))]
  rw [select_tag]
  rfl

/-- With an allocator. -/
theorem C85_complete_construct_with_allocator (hc : ∀ b, c b = true) (a x : Arg B) :
    (Incomplete.constructsA r n .indirect20 a x).run (known n c answer) = some (Overload.constructsA (facts n answer) x) := by
  have hk := fun q => known_all (n := n) hc (answer := answer) q
  have hf : (forwardA n (deduce x) .indirect20).run (known n c answer) = some (indirectCtorA (facts n answer) (deduce x)) := by
    simp only [forwardA, notSelf, notTag, run_inOrder_cons, Ask.run_ret, run_question, run_inOrder_nil, Option.bind_some, hk]
    simp only [indirectCtorA, facts]
    cases (removeCvref (deduce x) == plain n.self) <;> cases (removeCvref (deduce x) == plain n.inPlace) <;>
      cases answer (.constructible [deduce x]) <;> rfl
  have hi : (withTagA r (isTag n x) [] .indirect20).run (known n c answer) =
      some (if r.beforeConstraints && !isTag n x then false else answer (.constructible [])) := by
    simp only [withTagA, tagged]
    split
    · rfl
    · simp only [run_question, hk]
  have hj : ∃ b, (withTag r n false [deduce a, deduce x] .indirect20).run (known n c answer) = some b := by
    simp only [withTag, tagged]
    split
    · exact ⟨_, rfl⟩
    · simp only [run_inOrder_cons, Ask.run_ret, run_question, run_inOrder_nil, Option.bind_some, hk]
      cases answer (.constructible [deduce a, deduce x]) <;> cases n.allocDefault <;> exact ⟨_, rfl⟩
  obtain ⟨b, hj⟩ := hj
  simp only [Incomplete.constructsA, Ask.run_bind, hf, hi, hj, Option.bind_some, select_facts (answer := answer) (Or.inr (hk _))]
  rw [select_tag]
  rfl

/-- Assignment. -/
theorem C85_complete_assign (hc : ∀ b, c b = true) (x : Arg B) :
    (Incomplete.assigns n .indirect20 x).run (known n c answer) = some (Overload.assigns (facts n answer) x) := by
  have hk := fun q => known_all (n := n) hc (answer := answer) q
  have hf : (forwardAssign n (deduce x) .indirect20).run (known n c answer) = some (indirectAssign (facts n answer) (deduce x)) := by
    simp only [forwardAssign, notSelf, run_inOrder_cons, Ask.run_ret, run_question, run_inOrder_nil, Option.bind_some, hk]
    simp only [indirectAssign, facts]
    cases (removeCvref (deduce x) == plain n.self) <;> cases answer (.constructible [deduce x]) <;>
      cases answer (.assignable (deduce x)) <;> rfl
  simp only [Incomplete.assigns, Ask.run_bind, hf, Option.bind_some, select_facts (answer := answer) (Or.inr (hk _))]
  rfl

/-- indirect_cxx14.h. -/
theorem C85_complete_construct14 (hc : ∀ b, c b = true) (x : Arg B) :
    (Incomplete.constructs r n .indirect14 x).run (known n c answer) = some (Overload.constructs14 (facts n answer) x) := by
  have hk := fun q => known_all (n := n) hc (answer := answer) q
  have hf : (forward n (deduce x) .indirect14).run (known n c answer) = some (indirectCtor14 (facts n answer) (deduce x)) := by
    simp only [forward, notTag, run_inOrder_cons, Ask.run_ret, run_question, run_inOrder_nil, Option.bind_some, hk]
    simp only [indirectCtor14, facts]
    cases (plain n.owned == removeCvref (deduce x)) <;> cases (removeCvref (deduce x) == plain n.inPlace) <;> rfl
  have hi : (withTag r n (isTag n x) [] .indirect14).run (known n c answer) =
      some (if r.beforeDefaults && !isTag n x then false else (answer (.constructible []) && n.allocDefault)) := by
    simp only [withTag, tagged]
    split
    · rfl
    · simp only [run_inOrder_cons, Ask.run_ret, run_question, run_inOrder_nil, Option.bind_some, hk]
      cases answer (.constructible []) <;> cases n.allocDefault <;> rfl
  simp only [Incomplete.constructs, Ask.run_bind, hf, hi, Option.bind_some, select_facts (answer := answer) (Or.inr (hk _))]
  rw [select_tag]
  rfl

/-- Assignment, indirect_cxx14.h. -/
theorem C85_complete_assign14 (hc : ∀ b, c b = true) (x : Arg B) :
    (Incomplete.assigns n .indirect14 x).run (known n c answer) = some (Overload.assigns14 (facts n answer) x) := by
  have hk := fun q => known_all (n := n) hc (answer := answer) q
  have hf : (forwardAssign n (deduce x) .indirect14).run (known n c answer) =
      some (indirectAssign14 (facts n answer) (deduce x)) := by
    simp only [forwardAssign, run_together_cons, Ask.run_ret, run_question, run_together_nil, Option.bind_some, hk]
    simp only [indirectAssign14, facts]
    cases answer (.constructible [deduce x]) <;> cases answer (.assignable (deduce x)) <;>
      cases (removeCv (deduce x) == plain n.self) <;> rfl
  simp only [Incomplete.assigns, Ask.run_bind, hf, Option.bind_some, select_facts (answer := answer) (Or.inr (hk _))]
  rfl

/-- `polymorphic` asks only about the class of the argument: it can be constructed from an object of a complete class, and which
constructor is selected does not depend on what else is complete.  polymorphic.h. -/
theorem C85_polymorphic_from {x : Arg B} (hx : c x.ty = true) :
    (Incomplete.constructs r n .polymorphic20 x).run (known n c answer) = some (Overload.constructsP (facts n answer) x) := by
  have h1 : known n c answer (.copyConstructible x.ty) = some (answer (.copyConstructible x.ty)) := by
    simp [known, about, hx]
  have h2 : known n c answer (.baseOf x.ty) = some (answer (.baseOf x.ty)) := by
    simp only [known, about]
    split <;> simp [hx]
  have h3 : known n c answer (.fromSelf x.ty) = some (answer (.fromSelf x.ty)) := by
    simp [known, about, hx]
  have hf : (forward n (deduce x) .polymorphic20).run (known n c answer) = some (polymorphicCtor (facts n answer) (deduce x)) := by
    simp only [forward, notSelf, run_inOrder_cons, Ask.run_ret, run_question, run_inOrder_nil, Option.bind_some, deduce, h1, h2]
    simp only [polymorphicCtor, facts, removeCvref, plain, BEq.comm (a := (⟨x.ty, false, false, false⟩ : UType B))]
    cases ((⟨n.self, false, false, false⟩ : UType B) == ⟨x.ty, false, false, false⟩) <;>
      cases answer (.copyConstructible x.ty) <;> cases answer (.baseOf x.ty) <;> cases n.allocDefault <;> rfl
  simp only [Incomplete.constructs, Ask.run_bind, hf, withTag, Ask.run_ret, Option.bind_some,
    select_facts (answer := answer) (Or.inr h3)]
  rfl

/-- polymorphic_cxx14.h. -/
theorem C85_polymorphic_from14 {x : Arg B} (hx : c x.ty = true) :
    (Incomplete.constructs r n .polymorphic14 x).run (known n c answer) = some (Overload.constructsPA (facts n answer) x) := by
  have h1 : known n c answer (.copyConstructible x.ty) = some (answer (.copyConstructible x.ty)) := by
    simp [known, about, hx]
  have h2 : known n c answer (.baseOf x.ty) = some (answer (.baseOf x.ty)) := by
    simp only [known, about]
    split <;> simp [hx]
  have h3 : known n c answer (.fromSelf x.ty) = some (answer (.fromSelf x.ty)) := by
    simp [known, about, hx]
  have hf : (forward n (deduce x) .polymorphic14).run (known n c answer) = some (polymorphicCtorA (facts n answer) (deduce x)) := by
    simp only [forward, notSelf, run_inOrder_cons, Ask.run_ret, run_question, run_inOrder_nil, Option.bind_some, deduce, h1, h2]
    simp only [polymorphicCtorA, facts, removeCvref, plain, BEq.comm (a := (⟨x.ty, false, false, false⟩ : UType B))]
    cases ((⟨n.self, false, false, false⟩ : UType B) == ⟨x.ty, false, false, false⟩) <;>
      cases answer (.copyConstructible x.ty) <;> cases answer (.baseOf x.ty) <;> rfl
  simp only [Incomplete.constructs, Ask.run_bind, hf, withTag, Ask.run_ret, Option.bind_some,
    select_facts (answer := answer) (Or.inr h3)]
  rfl

/-! ### Values need a complete type -/

/-- Whether an `indirect` can be constructed from something that is neither an owner nor a tag cannot be asked while the owned type is
incomplete. -/
theorem C85_value_needs_complete (h : c n.owned = false) {x : Arg B} (h1 : x.ty ≠ n.self) (h2 : x.ty ≠ n.inPlace) :
    (Incomplete.constructs r n .indirect20 x).run (known n c answer) = none := by
  have hq : known n c answer (.constructible [deduce x]) = none := known_none h (List.mem_cons_self ..)
  have h3 : (removeCvref (deduce x) == plain n.self) = false := by simp [removeCvref, plain, deduce, h1]
  have h4 : (removeCvref (deduce x) == plain n.inPlace) = false := by simp [removeCvref, plain, deduce, h2]
  simp only [Incomplete.constructs, Ask.run_bind]
  rw [show (forward n (deduce x) .indirect20).run (known n c answer) = none by
    simp [forward, notSelf, notTag, run_inOrder_cons, hq, h3, h4]]
  rfl

/-! ### Translation units -/

private theorem asks_basic {h : Header} (ha : Apart n) (hr : Early r h) (h14 : h ≠ .indirect14) {t : Trait B} (ht : Basic n t) :
    Settled (asks r n h t) true := by
  intro know
  cases ht with
  | construct hx => simp only [asks, Ask.run_bind, C85_construct ha hr hx know]; rfl
  | constructA a hx => simp only [asks, Ask.run_bind, C85_construct_with_allocator ha hr a hx know]; rfl
  | assign hx => simp only [asks, Ask.run_bind, C85_assign_partial ha h14 hx know]; rfl
  | destroy => rfl
  | swap => rfl

/-- A translation unit that uses `polymorphic` without creating objects from nothing is accepted, and every question about copies, moves,
destruction and swap has the answer yes - whatever is complete, and whatever the classes offer. -/
theorem C85_polymorphic_unit {answers : Names B → Question B → Bool} {ps : List (Part B)} (hp : ∀ p ∈ ps, PolymorphicPart p) :
    ∀ c : B → Bool, compile r answers c ps = some (List.replicate (questions ps) true) := by
  induction ps with
  | nil => intro c; rfl
  | cons p ps ih =>
    intro c
    have h1 := hp p (List.mem_cons_self ..)
    have h2 := ih fun q hq => hp q (List.mem_cons_of_mem _ hq)
    cases p with
    | define b => exact h2 _
    | trait h n t =>
      obtain ⟨hh, ha, hb⟩ := h1
      have hs : Settled (asks r n h t) true := by
        rcases hh with rfl | rfl
        · exact asks_basic (h := .polymorphic20) ha trivial (by decide) hb
        · exact asks_basic (h := .polymorphic14) ha trivial (by decide) hb
      simp only [compile, hs (known n c (answers n)), h2, Option.map_some, questions, List.replicate_succ]
    | use h n e u =>
      obtain ⟨hh, hu⟩ := h1
      have : needs n e h u = [] := by
        rcases hh with rfl | rfl <;> cases u <;> first | rfl | exact nomatch hu
      simp only [compile, this, compiles, List.all_nil, if_true, questions, h2]

private theorem known_owned {q : Question B} (hq : about n q = [n.owned]) :
    (known n c answer q == some true) = (c n.owned && answer q) := by
  simp only [known, hq, List.all_cons, List.all_nil, Bool.and_true]
  cases c n.owned <;> cases answer q <;> rfl

/-- What the definitions of `indirect` need is what the paper mandates, of a complete type. -/
private theorem compiles_iff (hs : Sensible answer) {h : Header} (hh : h = .indirect20 ∨ h = .indirect14) (e : Bool) (u : Use) :
    compiles (known n c answer) (needs n e h u) = true ↔
      (handles u = true ∨ c n.owned = true ∧ ∀ q, mandates n u q → answer q = true) := by
  have k1 := known_owned (c := c) (n := n) (answer := answer) (q := .constructible []) rfl
  have k2 := known_owned (c := c) (n := n) (answer := answer) (q := .copyConstructible n.owned) rfl
  have k3 := known_owned (c := c) (n := n) (answer := answer) (q := .moveConstructible) rfl
  have k4 := known_owned (c := c) (n := n) (answer := answer) (q := .destructible) rfl
  have k5 := known_owned (c := c) (n := n) (answer := answer) (q := .size) rfl
  have k6 := known_owned (c := c) (n := n) (answer := answer) (q := .defaultInitializable) rfl
  have k7 := known_owned (c := c) (n := n) (answer := answer) (q := .assignable (constRef n)) rfl
  have hd := hs.default
  rw [hs.size, Bool.and_true] at k5
  rcases hh with rfl | rfl <;> cases e <;> cases u <;>
    simp [compiles, needs, destroyNeeds, handles, mandates, k1, k2, k3, k4, k5, k6, k7, hd, constRef] <;>
    grind [constRef]

/-- A translation unit that uses a specialization of `indirect` is accepted exactly if it is in order: the owned type is complete, and offers what the
paper mandates, wherever a function that looks at the owned object is used.  Then every question about copies, moves, destruction
and swap has the answer yes, before and after the owned type is complete.  indirect.h. -/
theorem C85_indirect_unit {answers : Names B → Question B → Bool} (ha : Apart n) (hr : r.beforeConstraints = true)
    (hs : Sensible (answers n)) {ps : List (Part B)} (hp : ∀ p ∈ ps, IndirectPart n p) :
    ∀ c : B → Bool, (InOrder n (answers n) c ps → compile r answers c ps = some (List.replicate (questions ps) true)) ∧
      (¬ InOrder n (answers n) c ps → compile r answers c ps = none) := by
  induction ps with
  | nil => intro c; exact ⟨fun _ => rfl, fun h => absurd trivial h⟩
  | cons p ps ih =>
    intro c
    have h1 := hp p (List.mem_cons_self ..)
    have h2 := ih fun q hq => hp q (List.mem_cons_of_mem _ hq)
    cases p with
    | define b => exact h2 _
    | trait h n' t =>
      obtain ⟨rfl, rfl, hb⟩ := h1
      have hs' := asks_basic (r := r) (h := .indirect20) ha hr (by decide) hb (known n' c (answers n'))
      simp only [compile, hs', InOrder, questions, List.replicate_succ]
      exact ⟨fun h => by rw [(h2 c).1 h]; rfl, fun h => by rw [(h2 c).2 h]; rfl⟩
    | use h n' e u =>
      obtain ⟨rfl, rfl⟩ := h1
      have hi := compiles_iff (c := c) (n := n') hs (Or.inl rfl) e u
      simp only [compile, InOrder, questions]
      constructor
      · rintro ⟨h3, h4⟩
        rw [if_pos (hi.mpr h3), (h2 c).1 h4]
      · intro h3
        split
        · next h4 => exact (h2 c).2 fun h5 => h3 ⟨hi.mp h4, h5⟩
        · rfl

/-- The same for indirect_cxx14.h.  Missing: questions about assignments, see `C85_assign_violation`. -/
theorem C85_indirect_unit14_partial {answers : Names B → Question B → Bool} (ha : Apart n) (hr : r.beforeDefaults = true)
    (hs : Sensible (answers n)) {ps : List (Part B)} (hp : ∀ p ∈ ps, IndirectPart14 n p) :
    ∀ c : B → Bool, (InOrder n (answers n) c ps → compile r answers c ps = some (List.replicate (questions ps) true)) ∧
      (¬ InOrder n (answers n) c ps → compile r answers c ps = none) := by
  induction ps with
  | nil => intro c; exact ⟨fun _ => rfl, fun h => absurd trivial h⟩
  | cons p ps ih =>
    intro c
    have h1 := hp p (List.mem_cons_self ..)
    have h2 := ih fun q hq => hp q (List.mem_cons_of_mem _ hq)
    cases p with
    | define b => exact h2 _
    | trait h n' t =>
      obtain ⟨rfl, rfl, hb, hn⟩ := h1
      have hs' : (asks r n' .indirect14 t).run (known n' c (answers n')) = some true := by
        cases hb with
        | construct hx => simp only [asks, Ask.run_bind, C85_construct (h := .indirect14) ha hr hx (known n' c (answers n'))]; rfl
        | constructA a hx =>
          simp only [asks, Ask.run_bind, C85_construct_with_allocator (h := .indirect14) ha hr a hx (known n' c (answers n'))]; rfl
        | assign _ => exact absurd rfl (hn _)
        | destroy => rfl
        | swap => rfl
      simp only [compile, hs', InOrder, questions, List.replicate_succ]
      exact ⟨fun h => by rw [(h2 c).1 h]; rfl, fun h => by rw [(h2 c).2 h]; rfl⟩
    | use h n' e u =>
      obtain ⟨rfl, rfl⟩ := h1
      have hi := compiles_iff (c := c) (n := n') hs (Or.inr rfl) e u
      simp only [compile, InOrder, questions]
      constructor
      · rintro ⟨h3, h4⟩
        rw [if_pos (hi.mpr h3), (h2 c).1 h4]
      · intro h3
        split
        · next h4 => exact (h2 c).2 fun h5 => h3 ⟨hi.mp h4, h5⟩
        · rfl

/-! ### What the headers do not keep -/

/-- indirect_cxx14.h: whether an `indirect` can be assigned cannot be asked while the owned type is incomplete, not even for copies and moves: the
constraints of `operator=(U&&)` are operands of `&&` in one template argument. -/
theorem C85_assign_violation (h : c n.owned = false) (x : Arg B) :
    (Incomplete.assigns n .indirect14 x).run (known n c answer) = none := by
  have hq : known n c answer (.constructible [deduce x]) = none := known_none h (List.mem_cons_self ..)
  simp [Incomplete.assigns, Ask.run_bind, forwardAssign, run_together_cons, hq]

/-- polymorphic_cxx14.h: whether a `polymorphic` can be default constructed cannot be asked while the owned type is incomplete. -/
theorem C85_default_violation (h : c n.owned = false) (a : Arg B) :
    (makes n .polymorphic14).run (known n c answer) = none ∧ (makesA r n a .polymorphic14).run (known n c answer) = none := by
  have hq : known n c answer (.constructible []) = none := known_none h (List.mem_cons_self ..)
  exact ⟨by simp [makes, run_inOrder_cons, hq], by simp [makesA, Ask.run_bind, withTag, hq]⟩

/-- indirect.h relies on the order of CWG 2369, and indirect_cxx14.h on more: with a compiler that evaluates the constraints first, whether an `indirect`
can be copied cannot be asked while the owned type is incomplete. -/
theorem C85_construct_relies_on_order (ha : Apart n) (h : c n.owned = false) {x : Arg B} (hx : IsOwner n x) :
    (r.beforeConstraints = false → (Incomplete.constructs r n .indirect20 x).run (known n c answer) = none) ∧
      (r.beforeDefaults = false → (Incomplete.constructs r n .indirect14 x).run (known n c answer) = none) := by
  have hq : known n c answer (.constructible []) = none := known_none h (List.mem_cons_self ..)
  constructor <;> intro hr <;>
    simp [Incomplete.constructs, Ask.run_bind, run_forward_owner ha hx, withTag, tagged, hr, run_inOrder_cons, hq]

/-! ### exploration -/

/-- A copy constructor without constraints can be asked for while the owned type is incomplete, one with constraints cannot: `wrapper` and
`constrained_wrapper`, exploration/wrapper.h. -/
theorem C85_wrappers (h : c n.owned = false) :
    Settled (wrapperCopies : Ask B Bool) true ∧ (constrainedCopies n).run (known n c answer) = none :=
  ⟨fun _ => rfl, by
    simp only [constrainedCopies, run_question]
    exact known_none h (List.mem_cons_self ..)⟩

/-- Questions that are answered with no for an incomplete class do not have this stability: the answer changes when the class is
completed, and then it does matter whether the compiler remembers it.  exploration/traits_and_concepts.cc:25-40. -/
theorem C85_soft_questions (h : answer (.copyConstructible n.owned) = true) {c c' : B → Bool} (h1 : c n.owned = false)
    (h2 : c' n.owned = true) :
    replies (fun c => softly n c answer (.copyConstructible n.owned)) false none [c, c'] = [some false, some true] ∧
      replies (fun c => softly n c answer (.copyConstructible n.owned)) true none [c, c'] = [some false, some false] := by
  simp [replies, softly, about, h, h1, h2]

end

/-! ### The hypotheses are met -/

section Examples

/-- The classes of the examples. -/
private inductive Class where
  | tag | alloc | impl | indirectImpl | polymorphicImpl | derived | other
  deriving DecidableEq

open Class

private def indirectNames : Names Class := ⟨indirectImpl, impl, tag, true⟩
private def polymorphicNames : Names Class := ⟨polymorphicImpl, impl, tag, true⟩

/-- Everything is offered, but nothing else is an owner. -/
private def yes : Question Class → Bool
  | .fromSelf _ => false
  | .constructible [u] => u.ty = impl
  | .assignable u => u.ty = impl
  | .baseOf b => b = impl || b = derived
  | _ => true

/-- A compiler of today, and one without CWG 2369. -/
private def today : Rules := ⟨true, true⟩
private def before2369 : Rules := ⟨false, false⟩

private def implIncomplete : Class → Bool
  | impl => false
  | derived => false
  | _ => true

private def lvalueOf (b : Class) : Arg Class := ⟨b, true, false, true⟩
private def rvalueOf (b : Class) : Arg Class := ⟨b, false, false, false⟩

example : Apart indirectNames ∧ Apart polymorphicNames ∧ Early today .indirect20 ∧ Early today .indirect14 ∧
    IsOwner indirectNames (lvalueOf indirectImpl) ∧ IsOwner indirectNames (rvalueOf indirectImpl) ∧ Sensible yes :=
  ⟨⟨by decide, by decide⟩, ⟨by decide, by decide⟩, rfl, rfl, ⟨rfl, rfl⟩, ⟨rfl, rfl⟩, ⟨rfl, by decide⟩⟩

/-- compile_checks/indirect_pimpl.h and compile_checks/indirect_pimpl.cc: the class is declared with a member `indirect<Impl>` and asked about,
`Impl` is defined, and then the functions of the member are used. -/
private def pimpl (h : Header) (n : Names Class) : List (Part Class) :=
  [.trait h n (.construct (lvalueOf n.self)), .trait h n (.construct (rvalueOf n.self)), .trait h n (.assign (lvalueOf n.self)),
   .define impl,
   .use h n true .make, .use h n true .move, .use h n true .destroy, .use h n true .copy, .use h n true .copyAssign,
   .use h n true .moveAssign, .use h n true .access,
   .trait h n (.construct (lvalueOf n.self))]

example : compile today (fun _ => yes) implIncomplete (pimpl .indirect20 indirectNames) = some [true, true, true, true] := by decide
example : compile today (fun _ => yes) implIncomplete (pimpl .polymorphic20 polymorphicNames) = some [true, true, true, true] := by
  decide
example : compile today (fun _ => yes) implIncomplete (pimpl .polymorphic14 polymorphicNames) = some [true, true, true, true] := by
  decide
/-- For C++14 the question about the assignment comes too early. -/
example : compile today (fun _ => yes) implIncomplete (pimpl .indirect14 indirectNames) = none := by decide
example : compile before2369 (fun _ => yes) implIncomplete (pimpl .indirect20 indirectNames) = none := by decide

/-- The parts of the example are about one specialization of `indirect`. -/
example : ∀ p ∈ pimpl .indirect20 indirectNames, IndirectPart indirectNames p := by
  intro p hp
  simp only [pimpl, List.mem_cons, List.not_mem_nil, or_false] at hp
  rcases hp with rfl | rfl | rfl | rfl | rfl | rfl | rfl | rfl | rfl | rfl | rfl | rfl <;>
    first
    | exact ⟨rfl, rfl, .construct ⟨rfl, rfl⟩⟩
    | exact ⟨rfl, rfl, .assign ⟨rfl, rfl⟩⟩
    | exact trivial
    | exact ⟨rfl, rfl⟩

/-- A destructor used before `Impl` is complete (one that is defaulted in the header): rejected for `indirect`, accepted for `polymorphic`. -/
example : compile today (fun _ => yes) implIncomplete [.use .indirect20 indirectNames true .destroy, .define impl] = none ∧
    compile today (fun _ => yes) implIncomplete [.use .polymorphic20 polymorphicNames true .destroy, .define impl] = some [] := by
  decide

/-- compile_checks/indirect_as_member.cc and compile_checks/polymorphic_as_member.cc: a class with both. -/
example : (∀ m ∈ [(Header.indirect20, indirectNames), (.polymorphic20, polymorphicNames)], Apart m.2 ∧ Early today m.1) := by
  intro m hm
  simp only [List.mem_cons, List.not_mem_nil, or_false] at hm
  rcases hm with rfl | rfl
  · exact ⟨⟨by decide, by decide⟩, rfl⟩
  · exact ⟨⟨by decide, by decide⟩, trivial⟩

/-- A class with a member that cannot be constructed from the argument. -/
example : (composite today (fun n => .construct (rvalueOf n.owned)) [(.polymorphic20, polymorphicNames), (.indirect20, indirectNames)]).run
      (known polymorphicNames (fun _ => true) yes) = some true ∧
    (composite today (fun n => .construct (rvalueOf (if n.self = indirectImpl then n.owned else other)))
      [(.indirect20, indirectNames), (.polymorphic20, polymorphicNames)]).run (known indirectNames (fun _ => true) yes) = some false := by
  decide

/-- Arguments that are not owners: a complete class that does not fit is refused by `polymorphic<Impl>` while `Impl` is incomplete,
`indirect<Impl>` cannot say. -/
example : ((Incomplete.constructs today polymorphicNames .polymorphic20 (rvalueOf other)).run (known polymorphicNames implIncomplete yes)
      = some none) ∧
    ((Incomplete.constructs today polymorphicNames .polymorphic20 (rvalueOf derived)).run (known polymorphicNames (fun _ => true) yes)
      = some (some .forward)) ∧
    ((Incomplete.constructs today indirectNames .indirect20 (rvalueOf impl)).run (known indirectNames (fun _ => true) yes)
      = some (some .forward)) ∧
    ((Incomplete.constructs today indirectNames .indirect20 (rvalueOf other)).run (known indirectNames implIncomplete yes) = none) := by
  decide

/-- Completeness grows. -/
example : [implIncomplete, fun _ => true].Pairwise More := by
  refine List.pairwise_cons.mpr ⟨fun c hc => ?_, List.pairwise_singleton ..⟩
  rw [List.mem_singleton] at hc
  subst hc
  exact fun _ _ => rfl

end Examples
end Verif.Props
