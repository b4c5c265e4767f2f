import Verif.Proofs.AwareHome
import Verif.Proofs.Block

/-! Owned types that use the allocator: what programs reach. -/

set_option autoImplicit false
set_option linter.unusedSectionVars false
set_option linter.unusedSimpArgs false

namespace Verif

theorem Spec.ReachedBy.inv {S C O : Type} {call : C → Env → S → Res S O} {legal : S → C → Prop} {init s : S} {P : S → Prop}
    (h0 : P init) (hs : ∀ s c e, P s → legal s c → (call c e s).All P) (h : ReachedBy call legal init s) : P s := by
  induction h with
  | init => exact h0
  | ret c e out _ hl hc ih => have := hs _ c e ih hl; rw [hc] at this; exact this
  | threw c e x _ hl hc ih => have := hs _ c e ih hl; rw [hc] at this; exact this

/-- What a history of legal calls reaches. -/
theorem Spec.ReachedBy.hist {S C O : Type} {call : C → Env → S → Res S O} {legal : S → C → Prop} {init s s' : S} {cs : List (C × Env)}
    {log : List (Seen O)} (h : ReachedBy call legal init s)
    (hl : LegalWith (fun c s => call c.1 c.2 s) (fun s c => legal s c.1) cs s)
    (hr : runWith (fun c s => call c.1 c.2 s) cs s = .done log s') : ReachedBy call legal init s' := by
  induction cs generalizing s log with
  | nil => simp only [runWith] at hr; cases hr; exact h
  | cons c cs ih =>
    simp only [runWith, LegalWith] at hr hl
    obtain ⟨h0, h1⟩ := hl
    cases hc : call c.1 c.2 s with
    | ok out s₁ =>
      simp only [hc] at hr h1
      cases hd : runWith (fun c s => call c.1 c.2 s) cs s₁ <;> rw [hd] at hr <;> simp [Run.cons] at hr
      obtain ⟨_, rfl⟩ := hr
      exact ih (.ret _ _ _ h h0 hc) h1 hd
    | threw x s₁ =>
      simp only [hc] at hr h1
      cases hd : runWith (fun c s => call c.1 c.2 s) cs s₁ <;> rw [hd] at hr <;> simp [Run.cons] at hr
      obtain ⟨_, rfl⟩ := hr
      exact ih (.threw _ _ _ h h0 hc) h1 hd
    | ub u => simp [hc] at hr
    | terminated => simp [hc] at hr
    | diverged => simp [hc] at hr

/-- Every call of a history is legal, and every call satisfies `ok`. -/
theorem LegalWith.with {σ O C : Type} {call : C → σ → Res σ O} {legal : σ → C → Prop} {ok : C → Prop} {cs : List C} {s : σ}
    (hl : LegalWith call legal cs s) (hk : ∀ c ∈ cs, ok c) : LegalWith call (fun s c => legal s c ∧ ok c) cs s := by
  induction cs generalizing s with
  | nil => trivial
  | cons c cs ih =>
    simp only [LegalWith] at hl ⊢
    refine ⟨⟨hl.1, hk c (by simp)⟩, ?_⟩
    have := hl.2
    cases hc : call c s <;> simp only [hc] at this ⊢
    · exact ih this (fun c hc => hk c (by simp [hc]))
    · exact ih this (fun c hc => hk c (by simp [hc]))

/-- A call that does what the specification says keeps what the specification keeps. -/
theorem Spec.Does.keeps {L A V S : Type} [DecidableEq L] {val : S → Spec.Boxes L A V} {r : Res S (Out L A V)} {q : Spec.Result L A V}
    {P : Spec.Boxes L A V → Prop} (h : Spec.Does val r q) (hq : q.All P) : r.All (fun s => P (val s)) := by
  cases r <;> cases q <;> simp only [Spec.Does] at h <;> try trivial
  · rw [← h.2] at hq; exact hq
  · rw [← h.2] at hq; exact hq

theorem Res.All.both {S O : Type} {P Q : S → Prop} {r : Res S O} (h : r.All P) (h' : r.All Q) : r.All (fun s => P s ∧ Q s) := by
  cases r <;> first | trivial | exact ⟨h, h'⟩

section
variable {L A R V X Ty : Type} [DecidableEq L] [DecidableEq R] [DecidableEq Ty] {tr : ATraits A R}
open Composite (IOk POk)

namespace Indirect

theorem plain_does (S : tr.Sound) {s : St L A R (Obj V)} (hs : IOk tr s) (T : TSpec V X) (o : Op L A V X) (e : Env)
    (hl : Spec.Legal tr (abs s) o) :
    (call tr (plain T) o e s).All (IOk tr) ∧
      Spec.Does abs (call tr (plain T) o e s) (Spec.step tr T (available s e) (e.choice 0) (abs s) o) := by
  have h := call_refines' (T := T) (e := e) S hs.1 hl
  have t := traceOk_call (tr := tr) (T := T) o e s hs.2
  cases hc : call tr (plain T) o e s <;> rw [hc] at h t <;>
    cases hr : Spec.step tr T (available s e) (e.choice 0) (abs s) o <;> rw [hr] at h <;> simp only [Refines] at h <;>
      try exact ⟨trivial, trivial⟩
  · exact ⟨⟨h.2.2, t⟩, h.1, h.2.1⟩
  · exact ⟨⟨h.2.2, t⟩, h.1, h.2.1⟩

theorem aware_does (S : tr.Sound) {s : St L A R (Obj V)} (hs : IOk tr s) (T : AwareSpec A V X) (o : Op L A V X) (e : Env)
    (hl : Spec.Legal tr (abs s) o) :
    (call tr (aware T) o e s).All (IOk tr) ∧
      Spec.Does abs (call tr (aware T) o e s)
        (Spec.step tr (T.at (Spec.home tr (abs s) o)) (available s e) (e.choice 0) (abs s) o) := by
  have := aware_step tr T o (s.enter e) hl
  unfold call
  rw [this]
  exact plain_does S hs _ o e hl

end Indirect

namespace Indirect14

theorem aware_call (T : AwareSpec A V X) (o : Op L A V X) (e : Env) (s : St L A R (Obj V)) :
    call tr (aware T) o e s = Indirect.call tr (aware T.cxx14) o e s := by
  unfold call Indirect.call
  rw [step_eq]; rfl

theorem home_cxx14 (T : AwareSpec A V X) (a : A) : T.cxx14.at a = (T.at a).cxx14 := rfl

end Indirect14

namespace Polymorphic

theorem plain_does (S : tr.Sound) {s : St L A R (PBody Ty V)} (hs : POk tr s) (P : PSpec Ty V X) (o : POp L A Ty V X) (e : Env)
    (hl : Spec.PLegal tr (abs s) o) :
    (call tr (plainP P) o e s).All (POk tr) ∧
      Spec.Does abs (call tr (plainP P) o e s) (Spec.pstep tr P (available s e) (e.choice 0) (abs s) o) := by
  have h1 := call_sim (P := P) hs.1 hs.2.1 o e hl
  have h2 := Conc.prefines (P := P) S e hs.1 hs.2.1 hl
  have t := Indirect.traceOk_call (tr := tr) (T := P.owned) (toOp o) e (view s) hs.2.2
  cases hc : call tr (plainP P) o e s <;> rw [hc] at h1 h2 <;> simp only [RSim] at h1 h2
  · rw [h1.2] at t
    exact ⟨⟨h2.1.1, h2.1.2, t⟩, by rw [h2.2]; exact ⟨rfl, rfl⟩⟩
  · rw [h1.2] at t
    exact ⟨⟨h2.1.1, h2.1.2, t⟩, by rw [h2.2]; exact ⟨rfl, rfl⟩⟩
  · exact ⟨trivial, by rw [h2]; trivial⟩

theorem awareP_does (S : tr.Sound) {s : St L A R (PBody Ty V)} (hs : POk tr s) (P : PAwareSpec A Ty V X) (o : POp L A Ty V X)
    (e : Env) (hl : Spec.PLegal tr (abs s) o) :
    (call tr (awareP P) o e s).All (POk tr) ∧
      Spec.Does abs (call tr (awareP P) o e s)
        (Spec.pstep tr (P.at (Spec.phome tr (abs s) o)) (available s e) (e.choice 0) (abs s) o) := by
  have := awareP_step tr P o (s.enter e) hl
  unfold call
  rw [this]
  exact plain_does S hs _ o e hl

theorem phome_step (S : tr.Sound) {P : PAwareSpec A Ty V X} {uses : Ty → V → R} (hP : Spec.PStays tr P uses)
    {σ : Spec.Boxes L A (Ty × V)} (h : Spec.AtHome tr (fun v => uses v.1 v.2) σ) (m : Bool) (n : Nat) (o : POp L A Ty V X)
    (hl : Spec.PLegal tr σ o) (hk : Spec.PKeepsHome uses o) :
    (Spec.pstep tr (P.at (Spec.phome tr σ o)) m n σ o).All (Spec.AtHome tr (fun v => uses v.1 v.2)) := by
  rw [← step_toOp, P.at_owned, ← home_toOp]
  refine Spec.home_step hP.owned S h m n (toOp o) (legal_toOp hl) ?_
  cases o <;> first | trivial | exact fun v => hk v.1 v.2

end Polymorphic

namespace Polymorphic14
open Polymorphic (abs)

theorem phome_fix (base : Ty) (σ : Spec.Boxes L A (Ty × V)) (o : POp L A Ty V X) :
    Spec.phome tr σ (fix base o) = Spec.phome tr σ o := by
  cases o <;> rfl

theorem keeps_fix (base : Ty) {uses : Ty → V → R} {o : POp L A Ty V X} (h : Spec.PKeepsHome uses o) :
    Spec.PKeepsHome uses (fix base o) := by
  cases o <;> exact h

theorem aware_call (E : tr.Equality) (hq : tr.pocca = true → tr.alwaysEqual = true) (P : PAwareSpec A Ty V X)
    (o : POp L A Ty V X) (e : Env) (s : St L A R (PBody Ty V)) :
    call tr (awareP P) o e s = Polymorphic.call tr (awareP P) (fix P.base o) e s :=
  step_eq tr (awareP P) E o (s.enter e) (safe_of E hq _ _)

theorem awareP_does (S : tr.Sound) (E : tr.Equality) (hq : tr.pocca = true → tr.alwaysEqual = true)
    {s : St L A R (PBody Ty V)} (hs : POk tr s) (P : PAwareSpec A Ty V X) (o : POp L A Ty V X)
    (e : Env) (hl : Spec.PLegal tr (abs s) o) :
    (call tr (awareP P) o e s).All (POk tr) ∧
      Spec.Does abs (call tr (awareP P) o e s)
        (Spec.pstep14 tr (P.at (Spec.phome tr (abs s) o)) (available s e) (e.choice 0) (abs s) o) := by
  rw [aware_call E hq, Conc.pstep14_eq]
  have := Polymorphic.awareP_does S hs P (fix P.base o) e ((legal_fix P.base).2 hl)
  rw [phome_fix] at this
  exact this

theorem phome_step (S : tr.Sound) {P : PAwareSpec A Ty V X} {uses : Ty → V → R} (hP : Spec.PStays tr P uses)
    {σ : Spec.Boxes L A (Ty × V)} (h : Spec.AtHome tr (fun v => uses v.1 v.2) σ) (m : Bool) (n : Nat) (o : POp L A Ty V X)
    (hl : Spec.PLegal tr σ o) (hk : Spec.PKeepsHome uses o) :
    (Spec.pstep14 tr (P.at (Spec.phome tr σ o)) m n σ o).All (Spec.AtHome tr (fun v => uses v.1 v.2)) := by
  rw [Conc.pstep14_eq, ← phome_fix P.base σ o]
  exact Polymorphic.phome_step S hP h m n _ ((legal_fix P.base).2 hl) (keeps_fix P.base hk)

end Polymorphic14

/-- Nothing is left when no owner is. -/
theorem Composite.gone {s : St L A R (PBody Ty V)} (h : POk tr s) (hd : ∀ z, Spec.Dead (Polymorphic.abs s) z) : Spec.AllGone s := by
  obtain ⟨h1, h2, h3, h4⟩ := Conc.gone_of tr (s := Polymorphic.view s) h.2.1 h.2.2 (fun z => by
    rw [Polymorphic.abs_view, hd z]; rfl)
  refine ⟨h1, fun p => ?_, h3, h4⟩
  have := h2 p
  simp only [Polymorphic.view, Option.map_eq_none_iff] at this
  exact this

/-! ### Reachable states -/

variable {T : AwareSpec A V X} {P : PAwareSpec A Ty V X} {k : Op L A V X → Prop} {pk : POp L A Ty V X → Prop}
variable {s : St L A R (Obj V)} {t : St L A R (PBody Ty V)}

theorem Indirect.AwareReach.ok (S : tr.Sound) (h : Indirect.AwareReach tr T k s) : IOk tr s :=
  Spec.ReachedBy.inv (init := St.init) ⟨Inv.init, rfl⟩ (fun _ o e hs hl => (aware_does S hs T o e hl.1).1) h

theorem Indirect14.AwareReach.to (h : Indirect14.AwareReach tr T k s) : Indirect.AwareReach tr T.cxx14 k s := by
  induction h with
  | init => exact .init
  | ret o e out _ hl hc ih => exact .ret o e out ih hl (by rw [← aware_call]; exact hc)
  | threw o e x _ hl hc ih => exact .threw o e x ih hl (by rw [← aware_call]; exact hc)

theorem Polymorphic.AwareReach.ok (S : tr.Sound) (h : Polymorphic.AwareReach tr P pk t) : POk tr t :=
  Spec.ReachedBy.inv (init := St.init) ⟨good_init, Inv.init, rfl⟩ (fun _ o e hs hl => (awareP_does S hs P o e hl.1).1) h

theorem Polymorphic14.AwareReach.ok (S : tr.Sound) (E : tr.Equality) (hq : tr.pocca = true → tr.alwaysEqual = true)
    (h : Polymorphic14.AwareReach tr P pk t) : POk tr t :=
  Spec.ReachedBy.inv (init := St.init) ⟨Polymorphic.good_init, Inv.init, rfl⟩ (fun _ o e hs hl => (awareP_does S E hq hs P o e hl.1).1) h

theorem Indirect.AwareReach.home {uses : V → R} (S : tr.Sound) (hT : Spec.Stays tr T uses)
    (h : Indirect.AwareReach tr T (Spec.KeepsHome uses) s) : Spec.AtHome tr uses (abs s) :=
  (Spec.ReachedBy.inv (init := St.init) (P := fun s => IOk tr s ∧ Spec.AtHome tr uses (abs s)) ⟨⟨Inv.init, rfl⟩, fun _ _ _ h => by cases h⟩
    (fun s o e hs hl =>
      have d := aware_does S hs.1 T o e hl.1
      d.1.both (d.2.keeps (Spec.home_step hT S hs.2 _ _ o hl.1 hl.2))) h).2

theorem Polymorphic.AwareReach.home {uses : Ty → V → R} (S : tr.Sound) (hP : Spec.PStays tr P uses)
    (h : Polymorphic.AwareReach tr P (Spec.PKeepsHome uses) t) : Spec.AtHome tr (fun v => uses v.1 v.2) (abs t) :=
  (Spec.ReachedBy.inv (P := fun s => POk tr s ∧ Spec.AtHome tr (fun v => uses v.1 v.2) (abs s))
    ⟨⟨good_init, Inv.init, rfl⟩, fun _ _ _ h => by cases h⟩
    (fun s o e hs hl =>
      have d := awareP_does S hs.1 P o e hl.1
      d.1.both (d.2.keeps (phome_step S hP hs.2 _ _ o hl.1 hl.2))) h).2

theorem Polymorphic14.AwareReach.home {uses : Ty → V → R} (S : tr.Sound) (E : tr.Equality)
    (hq : tr.pocca = true → tr.alwaysEqual = true) (hP : Spec.PStays tr P uses)
    (h : Polymorphic14.AwareReach tr P (Spec.PKeepsHome uses) t) :
    Spec.AtHome tr (fun v => uses v.1 v.2) (Polymorphic.abs t) :=
  (Spec.ReachedBy.inv (P := fun s => POk tr s ∧ Spec.AtHome tr (fun v => uses v.1 v.2) (Polymorphic.abs s))
    ⟨⟨Polymorphic.good_init, Inv.init, rfl⟩, fun _ _ _ h => by cases h⟩
    (fun s o e hs hl =>
      have d := awareP_does S E hq hs.1 P o e hl.1
      d.1.both (d.2.keeps (phome_step S hP hs.2 _ _ o hl.1 hl.2))) h).2

end
end Verif
