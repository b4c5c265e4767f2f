import Verif.Spec.Allocators
import Verif.Proofs.SpecFacts
import Verif.Proofs.PolyTransfer

/-!
# Proofs about allocators of objects
-/

set_option autoImplicit false
set_option linter.unusedSectionVars false
set_option linter.unusedSimpArgs false

namespace Verif
open Spec

section
variable {L A R Ty V X : Type} [DecidableEq L]
variable {tr : ATraits A R} {T : TSpec V X} {P : PSpec Ty V X} {m : Bool} {n : Nat}
variable {σ σ' : Boxes L A V} {o : Op L A V X} {out : Out L A V} {ex : Exn}

theorem allocOf_put {x : L} {b : Box A V} : allocOf (put σ x b) = give (allocOf σ) x (some b.alloc) := by
  funext z; simp only [allocOf, put, give]; split <;> rfl

theorem allocOf_setVal {x : L} {v : Option V} : allocOf (setVal σ x v) = allocOf σ := by
  funext z
  simp only [allocOf, setVal]
  split
  · rename_i h; subst h; cases σ z <;> rfl
  · rfl

theorem allocOf_drop {x : L} : allocOf (drop σ x) = give (allocOf σ) x none := by
  funext z; simp only [allocOf, drop, give]; split <;> rfl

theorem give_self {al : Allocs L A} {x : L} {a : Option A} (h : al x = a) : give al x a = al := by
  funext z; simp only [give]; split
  · rename_i hz; rw [hz, h]
  · rfl

theorem allocOf_some {x : L} {b : Box A V} (h : σ x = some b) : allocOf σ x = some b.alloc := by simp [allocOf, h]

theorem buildFrom_alloc (u : Src L X) : allocOf (buildFrom T m n σ u).2 = allocOf σ := by
  cases u <;> simp only [buildFrom] <;> (repeat' split) <;> simp [allocOf_setVal]

theorem buildCtor_alloc (c : Ctor L X) : allocOf (buildCtor T m n σ c).2 = allocOf σ := by
  cases c <;> simp only [buildCtor] <;> exact buildFrom_alloc _

/-- A result is as said for allocators. -/
def AllocResult (al al' : Allocs L A) : Result L A V → Prop
  | .ret _ σ' => allocOf σ' = al'
  | .threw _ σ' => allocOf σ' = al
  | _ => True

theorem AllocResult.store {al al' : Allocs L A} {σ₁ : Boxes L A V} {x : L} {a : A} {r : Except Exn V} (h : allocOf σ₁ = al)
    (h' : give al x (some a) = al') : AllocResult al al' (Spec.store σ₁ out x a r) := by
  cases r with
  | ok v =>
    change allocOf (put σ₁ x _) = al'
    rw [allocOf_put, h, h']
  | error e => exact h

theorem AllocResult.noexceptIf {al al' : Allocs L A} {b : Bool} {r : Result L A V} (h : AllocResult al al' r) :
    AllocResult al al' (Spec.noexceptIf b r) := by
  cases r <;> cases b <;> first | exact h | trivial

theorem copyA_alloc {x y : L} {a : A} : AllocResult (allocOf σ) (give (allocOf σ) x (some a)) (Spec.copyA T m n σ x a y) := by
  simp only [Spec.copyA]
  split
  · trivial
  · split
    · exact allocOf_put
    · exact .store rfl rfl

theorem moveA_alloc {x y : L} {a : A} : AllocResult (allocOf σ) (give (allocOf σ) x (some a)) (Spec.moveA tr T m n σ x a y) := by
  simp only [Spec.moveA]
  split
  · trivial
  · rename_i b hb
    split
    · exact allocOf_put.trans (by rw [allocOf_put, give_self (allocOf_some hb)])
    · split
      · exact allocOf_put
      · split
        · exact .store allocOf_setVal rfl
        · rfl

theorem swap_alloc {x y : L} : AllocResult (allocOf σ)
    (if tr.pocs then give (give (allocOf σ) x (allocOf σ y)) y (allocOf σ x) else allocOf σ) (Spec.swap tr σ x y) := by
  simp only [Spec.swap]
  cases hx : σ x with
  | none => trivial
  | some bx =>
    cases hy : σ y with
    | none => trivial
    | some bcy =>
      by_cases hp : tr.pocs = true
      · simp only [hp, if_true]
        change allocOf _ = _
        rw [allocOf_put, allocOf_put, allocOf_some hx, allocOf_some hy]
      · simp only [hp, if_false]
        change allocOf _ = if false = true then _ else allocOf σ
        rw [allocOf_put, allocOf_put, give_self (x := x) (allocOf_some hx), give_self (allocOf_some hy)]
        rfl

theorem step_alloc (o : Op L A V X) : AllocResult (allocOf σ) (allocAfter tr (allocOf σ) o) (Spec.step tr T m n σ o) := by
  cases o with
  | make x a c => exact .store (buildCtor_alloc c) rfl
  | copy x y =>
    simp only [Spec.step, allocAfter]
    cases hy : σ y with
    | none => trivial
    | some b => rw [allocOf_some hy]; exact copyA_alloc
  | copyA x a y => exact copyA_alloc
  | move x y =>
    simp only [Spec.step, allocAfter]
    cases hy : σ y with
    | none => trivial
    | some b => rw [allocOf_some hy]; exact .noexceptIf moveA_alloc
  | moveA x a y => exact .noexceptIf moveA_alloc
  | destroy x => exact allocOf_drop
  | assignCopy x y =>
    simp only [Spec.step, Spec.assignCopy, allocAfter]
    generalize hA : (if tr.pocca = true then give (allocOf σ) x (allocOf σ y) else allocOf σ) = al'
    split
    · rename_i h; subst h
      simp only [AllocResult]
      rw [← hA]
      split
      · rw [give_self rfl]
      · rfl
    · split
      · rename_i bx bcy hx hy
        have key : give (allocOf σ) x (some (if tr.pocca = true then bcy.alloc else bx.alloc)) =
            al' := by
          rw [← hA]
          split
          · rw [allocOf_some hy]
          · exact give_self (allocOf_some hx)
        split
        · exact allocOf_put.trans key
        · split
          · split
            · exact allocOf_put.trans key
            · exact (allocOf_put (b := ⟨bx.alloc, _⟩)).trans (give_self (show allocOf σ x = some bx.alloc from allocOf_some hx))
          · exact .store rfl key
        · exact .store rfl key
      · trivial
  | assignMove x y =>
    simp only [Spec.step, Spec.assignMove, allocAfter]
    generalize hA : (if tr.pocma = true then give (allocOf σ) x (allocOf σ y) else allocOf σ) = al'
    split
    · rename_i h; subst h
      simp only [AllocResult]
      rw [← hA]
      split
      · rw [give_self rfl]
      · rfl
    · split
      · rename_i bx bcy hx hy
        have key : give (allocOf σ) x (some (if tr.pocma = true then bcy.alloc else bx.alloc)) =
            al' := by
          rw [← hA]
          split
          · rw [allocOf_some hy]
          · exact give_self (allocOf_some hx)
        split
        · exact allocOf_put.trans key
        · split
          · refine allocOf_put.trans ?_
            rw [allocOf_put, give_self (x := y) (allocOf_some hy)]
            exact key
          · split
            · exact .noexceptIf (.store allocOf_setVal key)
            · exact .noexceptIf rfl
      · trivial
  | assignFrom x u =>
    simp only [Spec.step, Spec.assignFrom, allocAfter]
    split
    · trivial
    · rename_i b hb
      split
      · exact .store (buildFrom_alloc u) (give_self (allocOf_some hb))
      · cases u <;> simp only [Spec.assignValue] <;> (repeat' split) <;> simp [AllocResult, allocOf_setVal]
  | modify x f => simp only [Spec.step, allocAfter]; split <;> simp [AllocResult, allocOf_setVal]
  | swap x y => exact swap_alloc
  | friendSwap x y => exact swap_alloc
  | _ => simp only [Spec.step, allocAfter]; split <;> simp [AllocResult]

theorem pallocAfter_toOp (al : Allocs L A) (o : POp L A Ty V X) :
    pallocAfter tr al o = allocAfter tr al (Polymorphic.toOp o) := by
  cases o <;> rfl

theorem pstep_alloc [DecidableEq R] [DecidableEq Ty] {σ : Boxes L A (Ty × V)} (o : POp L A Ty V X) :
    AllocResult (allocOf σ) (pallocAfter tr (allocOf σ) o) (Spec.pstep tr P m n σ o) := by
  rw [pallocAfter_toOp, ← Polymorphic.step_toOp]
  exact step_alloc _

/-- Histories, for any of the headers. -/
theorem history_alloc {S O C W : Type} {call : C → S → Res S O} {legal : S → C → Prop} {abs : S → Boxes L A W} {Re : S → Prop}
    {after : Allocs L A → C → Allocs L A}
    (hret : ∀ s s' c out, Re s → legal s c → call c s = .ok out s' → Re s' ∧ allocOf (abs s') = after (allocOf (abs s)) c)
    (hthrew : ∀ s s' c e, Re s → legal s c → call c s = .threw e s' → Re s' ∧ allocOf (abs s') = allocOf (abs s))
    {cs : List C} {log : List (Seen O)} {s s' : S} (h : Re s) (hl : LegalWith call legal cs s)
    (hr : runWith call cs s = .done log s') : allocOf (abs s') = allocsAfter after cs log (allocOf (abs s)) := by
  induction cs generalizing s log with
  | nil => simp only [runWith, Run.done.injEq] at hr; rw [← hr.1, hr.2]; rfl
  | cons c cs ih =>
    simp only [runWith, LegalWith] at hr hl
    obtain ⟨h3, h4⟩ := hl
    cases hc : call c s with
    | ok out s₁ =>
      simp only [hc] at hr h4
      have h5 := hret _ _ _ _ h h3 hc
      cases hd : runWith call cs s₁ <;> rw [hd] at hr <;> simp [Run.cons] at hr
      obtain ⟨rfl, rfl⟩ := hr
      rw [ih h5.1 h4 hd, h5.2]; rfl
    | threw x s₁ =>
      simp only [hc] at hr h4
      have h5 := hthrew _ _ _ _ h h3 hc
      cases hd : runWith call cs s₁ <;> rw [hd] at hr <;> simp [Run.cons] at hr
      obtain ⟨rfl, rfl⟩ := hr
      rw [ih h5.1 h4 hd, h5.2]; rfl
    | terminated => simp [hc] at hr
    | ub u => simp [hc] at hr
    | diverged => simp [hc] at hr

/-- What is kept by single legal calls is kept by histories. -/
theorem history_keeps {S O C : Type} {call : C → S → Res S O} {legal : S → C → Prop} {K : S → Prop} {ok : C → Prop}
    (hret : ∀ s s' c out, K s → legal s c → ok c → call c s = .ok out s' → K s')
    (hthrew : ∀ s s' c e, K s → legal s c → ok c → call c s = .threw e s' → K s')
    {cs : List C} {log : List (Seen O)} {s s' : S} (h : K s) (hl : LegalWith call legal cs s) (hok : ∀ c ∈ cs, ok c)
    (hr : runWith call cs s = .done log s') : K s' := by
  induction cs generalizing s log with
  | nil => simp only [runWith, Run.done.injEq] at hr; rw [← hr.2]; exact h
  | cons c cs ih =>
    simp only [runWith, LegalWith] at hr hl
    obtain ⟨h3, h4⟩ := hl
    have h5 : ∀ c ∈ cs, ok c := fun c hc => hok c (by simp [hc])
    cases hc : call c s with
    | ok out s₁ =>
      simp only [hc] at hr h4
      cases hd : runWith call cs s₁ <;> rw [hd] at hr <;> simp [Run.cons] at hr
      obtain ⟨rfl, rfl⟩ := hr
      exact ih (hret _ _ _ _ h h3 (hok c (by simp)) hc) h4 h5 hd
    | threw x s₁ =>
      simp only [hc] at hr h4
      cases hd : runWith call cs s₁ <;> rw [hd] at hr <;> simp [Run.cons] at hr
      obtain ⟨rfl, rfl⟩ := hr
      exact ih (hthrew _ _ _ _ h h3 (hok c (by simp)) hc) h4 h5 hd
    | terminated => simp [hc] at hr
    | ub u => simp [hc] at hr
    | diverged => simp [hc] at hr

/-- What is kept by single calls is kept by histories. -/
theorem allocsAfter_keeps {O C : Type} {after : Allocs L A → C → Allocs L A} {Q : Allocs L A → Prop} {ok : C → Prop}
    (hQ : ∀ al c, Q al → ok c → Q (after al c)) {cs : List C} (hcs : ∀ c ∈ cs, ok c) (log : List (Seen O)) {al : Allocs L A}
    (h : Q al) : Q (allocsAfter after cs log al) := by
  induction cs generalizing log al with
  | nil => exact h
  | cons c cs ih =>
    have h1 : ∀ c ∈ cs, ok c := fun c hc => hcs c (by simp [hc])
    match log with
    | [] => exact h
    | .ret _ :: log => exact ih h1 log (hQ al c h (hcs c (by simp)))
    | .exn _ :: log => exact ih h1 log h

/-- No allocator that did not come from the program. -/
theorem brings_after {Q : A → Prop} (hd : Q tr.dflt) (hs : ∀ a, Q a → Q (tr.socc a)) {al : Allocs L A}
    (h : ∀ x a, al x = some a → Q a) (hb : Brings Q o) : ∀ x a, allocAfter tr al o x = some a → Q a := by
  have hg : ∀ (al : Allocs L A) x (b : Option A), (∀ x a, al x = some a → Q a) → (∀ a, b = some a → Q a) →
      ∀ z a, give al x b z = some a → Q a := by
    intro al x b h1 h2 z a hz
    simp only [give] at hz
    split at hz
    · exact h2 a hz
    · exact h1 z a hz
  cases o with
  | make x a c =>
    refine hg _ _ _ h fun b hb' => ?_
    cases hb'
    cases a with
    | none => exact hd
    | some a => exact hb
  | copy x y =>
    refine hg _ _ _ h fun b hb' => ?_
    cases hy : al y with
    | none => rw [hy] at hb'; cases hb'
    | some c => rw [hy] at hb'; cases hb'; exact hs c (h y c hy)
  | copyA x a y => refine hg _ _ _ h fun b hb' => ?_; cases hb'; exact hb
  | move x y => exact hg _ _ _ h fun b hb' => h y b hb'
  | moveA x a y => refine hg _ _ _ h fun b hb' => ?_; cases hb'; exact hb
  | destroy x => exact hg _ _ _ h fun b hb' => by cases hb'
  | assignCopy x y =>
    simp only [allocAfter]; split
    · exact hg _ _ _ h fun b hb' => h y b hb'
    · exact h
  | assignMove x y =>
    simp only [allocAfter]; split
    · exact hg _ _ _ h fun b hb' => h y b hb'
    · exact h
  | swap x y =>
    simp only [allocAfter]; split
    · exact hg _ _ _ (hg _ _ _ h fun b hb' => h y b hb') fun b hb' => h x b hb'
    · exact h
  | friendSwap x y =>
    simp only [allocAfter]; split
    · exact hg _ _ _ (hg _ _ _ h fun b hb' => h y b hb') fun b hb' => h x b hb'
    · exact h
  | _ => exact h

/-- Without propagation, only construction and destruction of an object give it an allocator. -/
theorem fixed_after (hp : tr.pocca = false ∧ tr.pocma = false ∧ tr.pocs = false) {al : Allocs L A} {z : L} {a : A}
    (hz : al z = some a) (hl : Legal tr σ o) (hal : al = allocOf σ) : allocAfter tr al o z = some a ∨ o = .destroy z := by
  have hne : ∀ x, Dead σ x → z ≠ x := by
    rintro x hx rfl
    rw [hal, allocOf, show σ z = none from hx] at hz; cases hz
  cases o with
  | make x b c => exact .inl (by simp [allocAfter, give, hne x hl.1, hz])
  | copy x y => exact .inl (by simp [allocAfter, give, hne x hl.1, hz])
  | copyA x b y => exact .inl (by simp [allocAfter, give, hne x hl.1, hz])
  | move x y => exact .inl (by simp [allocAfter, give, hne x hl.1, hz])
  | moveA x b y => exact .inl (by simp [allocAfter, give, hne x hl.1, hz])
  | destroy x =>
    by_cases h : z = x
    · subst h; exact .inr rfl
    · exact .inl (by simp [allocAfter, give, h, hz])
  | assignCopy x y => exact .inl (by simp [allocAfter, hp, hz])
  | assignMove x y => exact .inl (by simp [allocAfter, hp, hz])
  | swap x y => exact .inl (by simp [allocAfter, hp, hz])
  | friendSwap x y => exact .inl (by simp [allocAfter, hp, hz])
  | _ => exact .inl hz

end
end Verif
