import Verif.Proofs.PolySim
import Verif.Proofs.IndirectEffects

/-! Reachable states of `polymorphic` look like reachable states of `indirect`; results carry over. -/

set_option autoImplicit false
set_option linter.unusedSectionVars false
set_option linter.unusedSimpArgs false

namespace Verif
namespace Polymorphic

section
variable {L A R Ty V X : Type} [DecidableEq L] [DecidableEq R] [DecidableEq Ty]
variable {P : PSpec Ty V X} {tr : ATraits A R} {s s' : St L A R (PBody Ty V)} {o : POp L A Ty V X} {e : Env}
  {out : Out L A (Ty × V)} {ex : Exn}

theorem view_init : view (St.init : St L A R (PBody Ty V)) = St.init := rfl

theorem good_init : Good (St.init : St L A R (PBody Ty V)) := by intro p r c v h; cases h

theorem addr_view (s : St L A R (PBody Ty V)) (x : L) : addr (view s) x = addr s x := rfl

theorem available_view (s : St L A R (PBody Ty V)) (e : Env) : available (view s) e = available s e := by
  simp [available, view]

/-- A reachable state, seen without control blocks, is one that `indirect` objects can be in. -/
theorem Reach.sim (S : tr.Sound) (h : Reach tr P s) : Good s ∧ Indirect.Reach tr P.owned (view s) := by
  induction h with
  | init => exact ⟨good_init, .init⟩
  | ret o e out _ hl hc ih =>
    have := call_sim (P := P) ih.1 (ih.2.inv S) o e hl
    rw [hc] at this
    refine ⟨this.1, .ret _ e out ih.2 ?_ this.2⟩
    rw [abs_view]; exact legal_toOp hl
  | threw o e x _ hl hc ih =>
    have := call_sim (P := P) ih.1 (ih.2.inv S) o e hl
    rw [hc] at this
    refine ⟨this.1, .threw _ e x ih.2 ?_ this.2⟩
    rw [abs_view]; exact legal_toOp hl

theorem legal_view (hl : Spec.PLegal tr (abs s) o) : Spec.Legal tr (Indirect.abs (view s)) (toOp o) := by
  rw [abs_view]; exact legal_toOp hl

theorem Reach.call (S : tr.Sound) (h : Reach tr P s) (hl : Spec.PLegal tr (abs s) o) (e : Env) :
    RSim (call tr (plainP P) o e s) (Indirect.call tr (plain P.owned) (toOp o) e (view s)) :=
  call_sim (h.sim S).1 ((h.sim S).2.inv S) o e hl

theorem Reach.call_ok (S : tr.Sound) (h : Reach tr P s) (hl : Spec.PLegal tr (abs s) o)
    (hc : Polymorphic.call tr (plainP P) o e s = .ok out s') :
    Indirect.call tr (plain P.owned) (toOp o) e (view s) = .ok out (view s') := by
  have := h.call S hl e
  rw [hc] at this
  exact this.2

theorem Reach.call_threw (S : tr.Sound) (h : Reach tr P s) (hl : Spec.PLegal tr (abs s) o)
    (hc : Polymorphic.call tr (plainP P) o e s = .threw ex s') :
    Indirect.call tr (plain P.owned) (toOp o) e (view s) = .threw ex (view s') := by
  have := h.call S hl e
  rw [hc] at this
  exact this.2

theorem RSim.ok_inv {α : Type} {r : Res (St L A R (PBody Ty V)) α} {a : α} {t : St L A R (Obj (Ty × V))}
    (h : RSim r (.ok a t)) : ∃ s', r = .ok a s' ∧ t = view s' := by
  cases r with
  | ok b s' => obtain ⟨_, h⟩ := h; cases h; exact ⟨s', rfl, rfl⟩
  | threw x s' => obtain ⟨_, h⟩ := h; cases h
  | ub u => obtain ⟨_, h⟩ := h; cases h
  | terminated => cases h
  | diverged => cases h

theorem RSim.terminated_iff {α : Type} {r : Res (St L A R (PBody Ty V)) α} {r' : Res (St L A R (Obj (Ty × V))) α}
    (h : RSim r r') : r = .terminated ↔ r' = .terminated := by
  cases r with
  | ok b s' => obtain ⟨_, rfl⟩ := h; simp
  | threw x s' => obtain ⟨_, rfl⟩ := h; simp
  | ub u => obtain ⟨_, rfl⟩ := h; simp
  | terminated => simp [show r' = _ from h]
  | diverged => simp [show r' = _ from h]

/-- Outcomes that `indirect` guarantees. -/
theorem Reach.call_ok_of (S : tr.Sound) (h : Reach tr P s) (hl : Spec.PLegal tr (abs s) o) {t : St L A R (Obj (Ty × V))}
    (hc : Indirect.call tr (plain P.owned) (toOp o) e (view s) = .ok out t) :
    ∃ s', Polymorphic.call tr (plainP P) o e s = .ok out s' ∧ t = view s' := by
  have := h.call S hl e
  rw [hc] at this
  exact this.ok_inv

/-- The calls of a history. -/
def toOps (cs : List (POp L A Ty V X × Env)) : List (Op L A (Ty × V) (Ty × TArgs X) × Env) :=
  cs.map fun c => (toOp c.1, c.2)

/-- Corresponding outcomes of histories. -/
def HSim {O : Type} : Run (St L A R (PBody Ty V)) O → Run (St L A R (Obj (Ty × V))) O → Prop
  | .done log s, .done log' t => log = log' ∧ t = view s
  | .terminated log, .terminated log' => log = log'
  | .ub _, .ub _ => True
  | .diverged, .diverged => True
  | _, _ => False

theorem HSim.cons {O : Type} {r : Run (St L A R (PBody Ty V)) O} {r' : Run (St L A R (Obj (Ty × V))) O} (h : HSim r r')
    (o : Seen O) : HSim (r.cons o) (r'.cons o) := by
  cases r <;> cases r' <;> simp_all [HSim, Run.cons]

theorem run_sim (S : tr.Sound) (h : Reach tr P s) {cs : List (POp L A Ty V X × Env)} (hl : LegalRun tr P cs s) :
    HSim (run tr P cs s) (Indirect.run tr P.owned (toOps cs) (view s)) ∧
      Indirect.LegalRun tr P.owned (toOps cs) (view s) := by
  induction cs generalizing s with
  | nil => exact ⟨⟨rfl, rfl⟩, trivial⟩
  | cons c cs ih =>
    simp only [run, runWith, LegalRun, LegalWith, toOps, List.map_cons, Indirect.run, Indirect.LegalRun] at hl ⊢
    obtain ⟨h0, h1⟩ := hl
    have hs := h.call S h0 c.2
    have h0' := legal_view h0
    cases hc : call tr (plainP P) c.1 c.2 s with
    | ok out s₁ =>
      rw [hc] at hs h1
      have := ih (.ret _ _ _ h h0 hc) h1
      simp only [hs.2]
      exact ⟨this.1.cons _, h0', this.2⟩
    | threw x s₁ =>
      rw [hc] at hs h1
      have := ih (.threw _ _ _ h h0 hc) h1
      simp only [hs.2]
      exact ⟨this.1.cons _, h0', this.2⟩
    | terminated =>
      rw [hc] at hs
      simp only [show Indirect.call tr (plain P.owned) (toOp c.1) c.2 (view s) = _ from hs]
      exact ⟨rfl, h0', trivial⟩
    | ub u =>
      rw [hc] at hs
      obtain ⟨u', hs⟩ := hs
      simp only [hs]
      exact ⟨trivial, h0', trivial⟩
    | diverged =>
      rw [hc] at hs
      simp only [show Indirect.call tr (plain P.owned) (toOp c.1) c.2 (view s) = _ from hs]
      exact ⟨trivial, h0', trivial⟩

theorem Reach.run {cs : List (POp L A Ty V X × Env)} {log : List (Seen (Out L A (Ty × V)))} (h : Reach tr P s)
    (hl : LegalRun tr P cs s) (hr : Polymorphic.run tr P cs s = .done log s') : Reach tr P s' := by
  induction cs generalizing s log with
  | nil => simp [Polymorphic.run, runWith] at hr; rw [← hr.2]; exact h
  | cons c cs ih =>
    simp only [Polymorphic.run, runWith, LegalRun, LegalWith] at hr hl
    obtain ⟨h0, h1⟩ := hl
    cases hc : Polymorphic.call tr (plainP P) c.1 c.2 s with
    | ok out s₁ =>
      simp only [hc] at hr h1
      cases hd : runWith (fun c s => Polymorphic.call tr (plainP P) c.1 c.2 s) cs s₁ <;> rw [hd] at hr <;>
        simp [Run.cons] at hr
      obtain ⟨_, rfl⟩ := hr
      exact ih (.ret _ _ _ h h0 hc) h1 hd
    | threw x s₁ =>
      simp only [hc] at hr h1
      cases hd : runWith (fun c s => Polymorphic.call tr (plainP P) c.1 c.2 s) cs s₁ <;> rw [hd] at hr <;>
        simp [Run.cons] at hr
      obtain ⟨_, rfl⟩ := hr
      exact ih (.threw _ _ _ h h0 hc) h1 hd
    | terminated => simp [hc] at hr
    | ub u => simp [hc] at hr
    | diverged => simp [hc] at hr

theorem map_ok {ε α β : Type} {r : Except ε α} {f : α → β} {w : β} (h : r.map f = .ok w) :
    ∃ a, r = .ok a ∧ w = f a := by
  cases r with
  | error e => cases h
  | ok a => cases h; exact ⟨a, rfl, rfl⟩

theorem prun_eq (cs : List (POp L A Ty V X × Spec.Luck)) (σ : Spec.Boxes L A (Ty × V)) :
    Spec.run tr P.owned (cs.map fun c => (toOp c.1, c.2)) σ = Spec.prun tr P cs σ := by
  induction cs generalizing σ with
  | nil => rfl
  | cons c cs ih =>
    obtain ⟨o, k⟩ := c
    simp only [List.map_cons, Spec.run, Spec.prun, step_toOp]
    cases Spec.pstep tr P k.mem k.choice σ o <;> simp only [ih]

theorem lucks_eq (S : tr.Sound) (h : Reach tr P s) {cs : List (POp L A Ty V X × Env)} (hl : LegalRun tr P cs s) :
    Verif.lucks tr P.owned (toOps cs) (view s) = (lucks tr P cs s).map fun c => (toOp c.1, c.2) := by
  induction cs generalizing s with
  | nil => rfl
  | cons c cs ih =>
    obtain ⟨o, e⟩ := c
    simp only [LegalRun, LegalWith] at hl
    simp only [toOps, List.map_cons, Verif.lucks, lucks, available_view, List.cons.injEq, true_and]
    obtain ⟨h0, h1⟩ := hl
    have hs := h.call S h0 e
    cases hc : call tr (plainP P) o e s with
    | ok out s₁ =>
      rw [hc] at hs h1
      have := ih (.ret _ _ _ h h0 hc) h1
      simp only [hs.2]
      exact this
    | threw x s₁ =>
      rw [hc] at hs h1
      have := ih (.threw _ _ _ h h0 hc) h1
      simp only [hs.2]
      exact this
    | terminated =>
      rw [hc] at hs
      simp only [show Indirect.call tr (plain P.owned) (toOp o) e (view s) = _ from hs]; rfl
    | ub u =>
      rw [hc] at hs
      obtain ⟨u', hs⟩ := hs
      simp only [hs]; rfl
    | diverged =>
      rw [hc] at hs
      simp only [show Indirect.call tr (plain P.owned) (toOp o) e (view s) = _ from hs]; rfl

theorem operands_toOp (o : POp L A Ty V X) : Spec.operands (toOp o) = Spec.poperands o := by
  cases o with
  | make x a c =>
    cases c with
    | «from» ty u => cases u <;> rfl
    | _ => rfl
  | _ => rfl

theorem newObject_toOp (o : POp L A Ty V X) : Spec.newObject (toOp o) = Spec.pnewObject o := by
  cases o <;> rfl

theorem movedFrom_toOp (o : POp L A Ty V X) : Spec.movedFrom (toOp o) = Spec.pmovedFrom o := by
  cases o with
  | make x a c =>
    cases c with
    | «from» ty u => cases u <;> rfl
    | _ => rfl
  | _ => rfl

theorem rebinds_toOp (o : POp L A Ty V X) : Spec.rebinds (toOp o) = Spec.prebinds o := by cases o <;> rfl

theorem changes_toOp (o : POp L A Ty V X) : Spec.changes (toOp o) = Spec.pchanges o := by
  simp only [Spec.changes, Spec.pchanges, rebinds_toOp, movedFrom_toOp]
  cases o <;> rfl

theorem allocCost_toOp (σ : Spec.Boxes L A (Ty × V)) (o : POp L A Ty V X) :
    Spec.allocCost tr P.owned σ (toOp o) = Spec.pallocCost tr σ o := by
  cases o with
  | move x y => simp only [toOp, Spec.allocCost, Spec.pallocCost]; cases σ y <;> rfl
  | _ => simp [toOp, Spec.allocCost, Spec.pallocCost, PSpec.owned]

theorem opCost_toOp (σ : Spec.Boxes L A (Ty × V)) (o : POp L A Ty V X) :
    Spec.opCost tr P.owned σ (toOp o) = Spec.pallocCost tr σ o := by
  have := allocCost_toOp (tr := tr) (P := P) σ o
  cases o <;> simp [toOp, Spec.opCost, Spec.pallocCost, PSpec.owned] at this ⊢ <;> exact this

theorem deallocCost_toOp (σ : Spec.Boxes L A (Ty × V)) (o : POp L A Ty V X) :
    Spec.deallocCost tr P.owned σ (toOp o) = Spec.pdeallocCost σ o := by
  cases o <;> simp [toOp, Spec.deallocCost, Spec.pdeallocCost, PSpec.owned]

theorem origin_toCtor {base : Ty} {c : PCtor L Ty X} {ty : Ty} {xs : TArgs X} (h : Spec.requested base c = some (ty, xs)) :
    ∃ ys, Spec.origin (toCtor c) = .args ys ∧ (P.base = base → ∀ n, P.owned.make ys n = (P.make ty xs n).map (ty, ·)) := by
  cases c with
  | default => cases h; exact ⟨_, rfl, fun h n => by subst h; rfl⟩
  | inPlace ty us => cases h; exact ⟨_, rfl, fun h n => rfl⟩
  | ilist ty l us => cases h; exact ⟨_, rfl, fun h n => rfl⟩
  | «from» ty u =>
    cases u with
    | arg x => cases h; exact ⟨_, rfl, fun h n => rfl⟩
    | lval y => cases h
    | rval y => cases h

end
end Polymorphic
end Verif
