import Verif.Proofs.Block
import Verif.Spec.Constant

/-!
# Lemmas for C81
-/

set_option autoImplicit false
set_option linter.unusedSectionVars false
set_option linter.unusedSimpArgs false

namespace Verif.Spec
open Verif

section
variable {C O α β : Type}

/-- As long as all calls return, the result is in `Q`. -/
def Always (Q : α → Prop) : Client C O α → Prop
  | .ret a => Q a
  | .call _ k => ∀ o, Always Q (k (.ret o))

theorem always_bind {Q : α → Prop} {Q' : β → Prop} {f : α → Client C O β} (p : Client C O α) (h : Always Q p)
    (hf : ∀ a, Q a → Always Q' (f a)) : Always Q' (p.bind f) := by
  induction p with
  | ret a => exact hf a h
  | call c k ih => exact fun o => ih _ (h o)

/-- It is not an exception. -/
def Fine (r : Except Exn α) : Prop := ∃ a, r = .ok a

theorem quiet_always {α : Type} (b : Block C O α) (h : Quiet b) : Always Fine b.client := by
  induction b with
  | ret a => exact ⟨a, rfl⟩
  | throw e => exact h.elim
  | call c k ih => exact fun o => ih _ (h o)
  | declare m d body k ihb ihk =>
    simp only [Block.client, Always]
    intro o
    refine always_bind _ (ihb h.1) ?_
    rintro r ⟨a, rfl⟩ o
    exact ihk _ (h.2 a)

end

section
variable {L A R V X Ty : Type} [DecidableEq L]

/-- If storage is available, every legal call returns, and with the same result every time. -/
def AllReturn {N C : Type} (step : Bool → N → Boxes L A V → C → Result L A V) (legal : Boxes L A V → C → Prop) : Prop :=
  ∀ σ c, legal σ c → ∃ o σ', ∀ n, step true n σ c = .ret o σ'

theorem steady_buildFrom {T : TSpec V X} (hT : Steady T) {σ : Boxes L A V} {u : Src L X} (h : LegalSrc σ u) :
    ∃ v σ', ∀ n, buildFrom T true n σ u = (.ok v, σ') := by
  cases u with
  | arg x => obtain ⟨v, hv⟩ := hT.make (.pack [x]); exact ⟨v, σ, fun n => by simp [buildFrom, build, hv]⟩
  | lval y =>
    obtain ⟨d, hd⟩ := h; obtain ⟨v, hv⟩ := hT.copy d
    exact ⟨v, σ, fun n => by simp [buildFrom, build, hd, hv]⟩
  | rval y =>
    obtain ⟨d, hd⟩ := h; obtain ⟨v, w, hv⟩ := hT.move d
    exact ⟨v, setVal σ y (some w), fun n => by simp [buildFrom, hd, hv]⟩

theorem steady_buildCtor {T : TSpec V X} (hT : Steady T) {σ : Boxes L A V} {c : Ctor L X} (h : LegalCtor σ c) :
    ∃ v σ', ∀ n, buildCtor T true n σ c = (.ok v, σ') := by
  cases c with
  | default => obtain ⟨v, hv⟩ := hT.make .none; exact ⟨v, σ, fun n => by simp [buildCtor, build, hv]⟩
  | «from» u => exact steady_buildFrom hT h
  | inPlace us => obtain ⟨v, hv⟩ := hT.make (.pack us); exact ⟨v, σ, fun n => by simp [buildCtor, build, hv]⟩
  | inPlaceOne u => exact steady_buildFrom hT h
  | ilist l us => obtain ⟨v, hv⟩ := hT.make (.ilist l us); exact ⟨v, σ, fun n => by simp [buildCtor, build, hv]⟩

/-- Copy and move of the owned type are steady. -/
structure SteadyCM (T : TSpec V X) : Prop where
  copy : ∀ v, ∃ w, ∀ n, T.copy v n = .ok w
  move : ∀ v, ∃ w u, ∀ n, T.move v n = (.ok w, u)
  copyAssign : ∀ d v, ∃ w, ∀ n, T.copyAssign d v n = (none, w)

theorem steady_copyA {T : TSpec V X} (hT : SteadyCM T) {σ : Boxes L A V} {x y : L} {a : A} (h : Live σ y) :
    ∃ o σ', ∀ n, copyA T true n σ x a y = .ret o σ' := by
  obtain ⟨b, hb⟩ := h
  cases hv : b.val with
  | none => exact ⟨_, _, fun n => by simp [copyA, hb, hv]; exact ⟨rfl, rfl⟩⟩
  | some v =>
    obtain ⟨w, hw⟩ := hT.copy v
    exact ⟨_, _, fun n => by simp [copyA, hb, hv, build, hw, store]; exact ⟨rfl, rfl⟩⟩

theorem steady_moveA {T : TSpec V X} {tr : ATraits A R} (hT : SteadyCM T) {σ : Boxes L A V} {x y : L} {a : A} (h : Live σ y) :
    ∃ o σ', ∀ n, moveA tr T true n σ x a y = .ret o σ' := by
  obtain ⟨b, hb⟩ := h
  by_cases he : (tr.alwaysEqual || tr.eq a b.alloc) = true
  · exact ⟨_, _, fun n => by simp only [moveA, hb, he, if_true]; rfl⟩
  · cases hv : b.val with
    | none => exact ⟨_, _, fun n => by simp only [moveA, hb, he, hv]; rfl⟩
    | some v =>
      obtain ⟨w, u, hw⟩ := hT.move v
      exact ⟨_, _, fun n => by simp only [moveA, hb, he, hv, hw, store]; rfl⟩

theorem noexceptIf_ret {b : Bool} {r : Result L A V} {o : Out L A V} {σ' : Boxes L A V} (h : r = .ret o σ') :
    noexceptIf b r = .ret o σ' := by rw [h]; rfl

theorem steady_assignCopy {T : TSpec V X} {tr : ATraits A R} (hT : SteadyCM T) {σ : Boxes L A V} {x y : L} (hx : Live σ x) (hy : Live σ y) :
    ∃ o σ', ∀ n, assignCopy tr T true n σ x y = .ret o σ' := by
  obtain ⟨b, hb⟩ := hx
  obtain ⟨c, hc⟩ := hy
  by_cases e : x = y
  · exact ⟨_, _, fun n => by simp only [assignCopy, e, if_true]; rfl⟩
  · cases hv : c.val with
    | none => exact ⟨_, _, fun n => by simp only [assignCopy, e, hb, hc, hv, if_false]; rfl⟩
    | some v =>
      obtain ⟨w, hw⟩ := hT.copy v
      cases hd : b.val with
      | none => exact ⟨_, _, fun n => by simp only [assignCopy, e, hb, hc, hv, hd, if_false, build, hw, store, if_true]; rfl⟩
      | some d =>
        obtain ⟨u, hu⟩ := hT.copyAssign d v
        by_cases he : (T.assignable && tr.eq b.alloc c.alloc) = true
        · exact ⟨_, _, fun n => by simp only [assignCopy, e, hb, hc, hv, hd, if_false, he, if_true, hu]; rfl⟩
        · exact ⟨_, _, fun n => by simp only [assignCopy, e, hb, hc, hv, hd, if_false, he, build, hw, store, if_true]; rfl⟩

theorem steady_assignMove {T : TSpec V X} {tr : ATraits A R} (hT : SteadyCM T) {σ : Boxes L A V} {x y : L} (hx : Live σ x) (hy : Live σ y) :
    ∃ o σ', ∀ n, assignMove tr T true n σ x y = .ret o σ' := by
  obtain ⟨b, hb⟩ := hx
  obtain ⟨c, hc⟩ := hy
  by_cases e : x = y
  · exact ⟨_, _, fun n => by simp only [assignMove, e, if_true]; rfl⟩
  · cases hv : c.val with
    | none => exact ⟨_, _, fun n => by simp only [assignMove, e, hb, hc, hv, if_false]; rfl⟩
    | some v =>
      obtain ⟨w, u, hw⟩ := hT.move v
      by_cases he : tr.eq b.alloc c.alloc = true
      · exact ⟨_, _, fun n => by simp only [assignMove, e, hb, hc, hv, if_false, he, if_true]; rfl⟩
      · exact ⟨_, _, fun n => by simp only [assignMove, e, hb, hc, hv, if_false, he, hw, store, if_true, noexceptIf]; rfl⟩

theorem steady_assignFrom {T : TSpec V X} (hT : Steady T) {σ : Boxes L A V} {x : L} {u : Src L X} (hx : Live σ x)
    (hu : LegalSrc σ u) : ∃ o σ', ∀ n, assignFrom T true n σ x u = .ret o σ' := by
  obtain ⟨b, hb⟩ := hx
  cases hd : b.val with
  | none =>
    obtain ⟨v, σ', h⟩ := steady_buildFrom hT hu
    exact ⟨_, _, fun n => by simp only [assignFrom, hb, hd, h, store]; rfl⟩
  | some d =>
    cases u with
    | arg a =>
      obtain ⟨w, hw⟩ := hT.assignArg d a
      exact ⟨_, _, fun n => by simp only [assignFrom, hb, hd, assignValue, hw]; rfl⟩
    | lval y =>
      obtain ⟨v, hv⟩ := hu
      obtain ⟨w, hw⟩ := hT.copyAssign d v
      exact ⟨_, _, fun n => by simp only [assignFrom, hb, hd, assignValue, hv, hw]; rfl⟩
    | rval y =>
      obtain ⟨v, hv⟩ := hu
      obtain ⟨w, w', hw⟩ := hT.moveAssign d v
      exact ⟨_, _, fun n => by simp only [assignFrom, hb, hd, assignValue, hv, hw]; rfl⟩

theorem swap_ret {tr : ATraits A R} {σ : Boxes L A V} {x y : L} (h : LegalSwap tr σ x y) : ∃ o σ', swap tr σ x y = .ret o σ' := by
  obtain ⟨b, c, hb, hc, -⟩ := h
  by_cases hp : tr.pocs = true
  · exact ⟨_, _, by simp only [swap, hb, hc, hp, if_true]; rfl⟩
  · exact ⟨_, _, by simp only [swap, hb, hc, hp]; rfl⟩

theorem Steady.cm {T : TSpec V X} (hT : Steady T) : SteadyCM T := ⟨hT.copy, hT.move, hT.copyAssign⟩

theorem steady_step {T : TSpec V X} (tr : ATraits A R) (hT : Steady T) {σ : Boxes L A V} (c : Op L A V X) (h : Legal tr σ c) :
    ∃ o σ', ∀ n, step tr T true n σ c = .ret o σ' := by
  cases c with
  | make x a c =>
    obtain ⟨v, σ', h⟩ := steady_buildCtor hT h.2
    exact ⟨_, _, fun n => by simp only [step, h, store]; rfl⟩
  | copy x y =>
    obtain ⟨b, hb⟩ := h.2
    obtain ⟨o, σ', hr⟩ := steady_copyA (x := x) (a := tr.socc b.alloc) hT.cm h.2
    exact ⟨o, σ', fun n => by simp only [step, hb, hr]⟩
  | copyA x a y => exact steady_copyA hT.cm h.2
  | move x y =>
    obtain ⟨b, hb⟩ := h.2
    obtain ⟨o, σ', hr⟩ := steady_moveA (tr := tr) (x := x) (a := b.alloc) hT.cm h.2
    exact ⟨o, σ', fun n => by simp only [step, hb, noexceptIf_ret (hr n)]⟩
  | moveA x a y =>
    obtain ⟨o, σ', hr⟩ := steady_moveA (tr := tr) (x := x) (a := a) hT.cm h.2
    exact ⟨o, σ', fun n => noexceptIf_ret (hr n)⟩
  | destroy x => exact ⟨_, _, fun _ => rfl⟩
  | assignCopy x y => exact steady_assignCopy hT.cm h.1 h.2
  | assignMove x y => exact steady_assignMove hT.cm h.1 h.2
  | assignFrom x u => exact steady_assignFrom hT h.1 h.2
  | deref x => obtain ⟨v, hv⟩ := h; exact ⟨_, _, fun _ => by simp only [step, hv]; rfl⟩
  | arrow x => obtain ⟨v, hv⟩ := h; exact ⟨_, _, fun _ => by simp only [step, hv]; rfl⟩
  | modify x f => obtain ⟨v, hv⟩ := h; exact ⟨_, _, fun _ => by simp only [step, hv]; rfl⟩
  | valueless x => obtain ⟨b, hb⟩ := h; exact ⟨_, _, fun _ => by simp only [step, hb]; rfl⟩
  | getAllocator x => obtain ⟨b, hb⟩ := h; exact ⟨_, _, fun _ => by simp only [step, hb]; rfl⟩
  | swap x y => obtain ⟨o, σ', hr⟩ := swap_ret h; exact ⟨o, σ', fun _ => hr⟩
  | friendSwap x y => obtain ⟨o, σ', hr⟩ := swap_ret h; exact ⟨o, σ', fun _ => hr⟩

theorem steady_qeq {C : TCmp V} (hC : SteadyCmp C) (a b : Option V) : ∃ r, ∀ f, qeq C f a b = .ok r := by
  cases a <;> cases b <;> try exact ⟨_, fun _ => rfl⟩
  rename_i v w
  obtain ⟨r, hr⟩ := hC.eq v w
  exact ⟨r, fun f => hr _⟩

theorem steady_qcmp {C : TCmp V} (hC : SteadyCmp C) (a b : Option V) : ∃ r, ∀ f, qcmp C f a b = .ok r := by
  cases a <;> cases b <;> try exact ⟨_, fun _ => rfl⟩
  rename_i v w
  cases hg : C.threeWay with
  | some g =>
    obtain ⟨r, hr⟩ := hC.threeWay g hg v w
    exact ⟨r, fun f => by simp only [qcmp, qthree, hg, hr]⟩
  | none =>
    obtain ⟨r, hr⟩ := hC.lt v w
    obtain ⟨r', hr'⟩ := hC.lt w v
    cases r
    · cases r'
      · exact ⟨_, fun f => by simp only [qcmp, qthree, hg, hr, hr']; rfl⟩
      · exact ⟨_, fun f => by simp only [qcmp, qthree, hg, hr, hr']; rfl⟩
    · exact ⟨_, fun f => by simp only [qcmp, qthree, hg, hr]; rfl⟩

theorem steady_qhash {C : TCmp V} (hC : SteadyCmp C) (a : Option V) : ∃ r, ∀ f, qhash C f a = .ok r := by
  cases a with
  | none => exact ⟨_, fun _ => rfl⟩
  | some v => obtain ⟨r, hr⟩ := hC.hash v; exact ⟨r, fun f => hr _⟩

theorem steady_qstep {C : TCmp V} (hC : SteadyCmp C) {σ : Boxes L A V} (q : Query L V) (h : AllLive σ (qoperands q)) :
    ∃ o σ', ∀ f, qstep C f σ q = .ret o σ' := by
  cases q with
  | eq x y =>
    obtain ⟨a, ha⟩ := h x (by simp [qoperands]); obtain ⟨b, hb⟩ := h y (by simp [qoperands])
    obtain ⟨r, hr⟩ := steady_qeq hC a.val b.val
    exact ⟨_, _, fun f => by simp only [qstep, ha, hb, hr, answer]; rfl⟩
  | cmp x y =>
    obtain ⟨a, ha⟩ := h x (by simp [qoperands]); obtain ⟨b, hb⟩ := h y (by simp [qoperands])
    obtain ⟨r, hr⟩ := steady_qcmp hC a.val b.val
    exact ⟨_, _, fun f => by simp only [qstep, ha, hb, hr, answer]; rfl⟩
  | eqU x w =>
    obtain ⟨a, ha⟩ := h x (by simp [qoperands])
    obtain ⟨r, hr⟩ := steady_qeq hC a.val (some w)
    exact ⟨_, _, fun f => by simp only [qstep, ha, hr, answer]; rfl⟩
  | cmpU x w =>
    obtain ⟨a, ha⟩ := h x (by simp [qoperands])
    obtain ⟨r, hr⟩ := steady_qcmp hC a.val (some w)
    exact ⟨_, _, fun f => by simp only [qstep, ha, hr, answer]; rfl⟩
  | hash x =>
    obtain ⟨a, ha⟩ := h x (by simp [qoperands])
    obtain ⟨r, hr⟩ := steady_qhash hC a.val
    exact ⟨_, _, fun f => by simp only [qstep, ha, hr, answer]; rfl⟩

theorem steady_estep {T : TSpec V X} {C : TCmp V} (tr : ATraits A R) (hT : Steady T) (hC : SteadyCmp C) :
    AllReturn (L := L) (estep tr T C) (ELegal tr) := by
  intro σ c h
  cases c with
  | call o => obtain ⟨out, σ', hr⟩ := steady_step tr hT o h; exact ⟨out, σ', fun f => hr _⟩
  | query q => exact steady_qstep hC q h

theorem SteadyP.cm {P : PSpec Ty V X} (hP : SteadyP P) : SteadyCM P.owned where
  copy v := by
    obtain ⟨w, hw⟩ := hP.copy v.1 v.2
    exact ⟨(v.1, w), fun n => by simp only [PSpec.owned, hw]; rfl⟩
  move v := by
    obtain ⟨w, u, hw⟩ := hP.move v.1 v.2
    exact ⟨(v.1, w), (v.1, u), fun n => by simp only [PSpec.owned, hw]; rfl⟩
  copyAssign d v := ⟨d, fun _ => rfl⟩

theorem steady_pbuildCtor {P : PSpec Ty V X} (hP : SteadyP P) {σ : Boxes L A (Ty × V)} {c : PCtor L Ty X} (h : PLegalCtor σ c) :
    ∃ v σ', ∀ n, pbuildCtor P true n σ c = (.ok v, σ') := by
  have build : ∀ ty u, ∃ v, ∀ n, build true ((P.make ty u n).map (ty, ·)) = .ok v := fun ty u => by
    obtain ⟨v, hv⟩ := hP.make ty u
    exact ⟨(ty, v), fun n => by simp only [Spec.build, hv, if_true]; rfl⟩
  cases c with
  | default => obtain ⟨v, hv⟩ := build P.base .none; exact ⟨v, σ, fun n => by simp only [pbuildCtor, hv]⟩
  | «from» ty u =>
    cases u with
    | arg x => obtain ⟨v, hv⟩ := build ty (.pack [x]); exact ⟨v, σ, fun n => by simp only [pbuildCtor, hv]⟩
    | lval y =>
      obtain ⟨d, hd⟩ := h; obtain ⟨v, hv⟩ := hP.cm.copy (ty, d)
      exact ⟨v, σ, fun n => by simp only [pbuildCtor, buildFrom, hd, Spec.build, hv, if_true]⟩
    | rval y =>
      obtain ⟨d, hd⟩ := h; obtain ⟨v, w, hv⟩ := hP.cm.move (ty, d)
      exact ⟨v, setVal σ y (some w), fun n => by simp only [pbuildCtor, buildFrom, hd, hv, if_true]⟩
  | inPlace ty us => obtain ⟨v, hv⟩ := build ty (.pack us); exact ⟨v, σ, fun n => by simp only [pbuildCtor, hv]⟩
  | ilist ty l us => obtain ⟨v, hv⟩ := build ty (.ilist l us); exact ⟨v, σ, fun n => by simp only [pbuildCtor, hv]⟩

theorem steady_pstep {P : PSpec Ty V X} (tr : ATraits A R) (hP : SteadyP P) :
    AllReturn (L := L) (pstep tr P) (PLegal tr) := by
  intro σ c h
  cases c with
  | make x a c =>
    obtain ⟨v, σ', h⟩ := steady_pbuildCtor hP h.2
    exact ⟨_, _, fun n => by simp only [pstep, h, store]; rfl⟩
  | copy x y =>
    obtain ⟨b, hb⟩ := h.2
    obtain ⟨o, σ', hr⟩ := steady_copyA (x := x) (a := tr.socc b.alloc) hP.cm h.2
    exact ⟨o, σ', fun n => by simp only [pstep, hb, hr]⟩
  | copyA x a y => exact steady_copyA hP.cm h.2
  | move x y =>
    obtain ⟨b, hb⟩ := h.2
    obtain ⟨o, σ', hr⟩ := steady_moveA (tr := tr) (x := x) (a := b.alloc) hP.cm h.2
    exact ⟨o, σ', fun n => by simp only [pstep, hb, noexceptIf_ret (hr n)]⟩
  | moveA x a y =>
    obtain ⟨o, σ', hr⟩ := steady_moveA (tr := tr) (x := x) (a := a) hP.cm h.2
    exact ⟨o, σ', fun n => noexceptIf_ret (hr n)⟩
  | destroy x => exact ⟨_, _, fun _ => rfl⟩
  | assignCopy x y => exact steady_assignCopy hP.cm h.1 h.2
  | assignMove x y => exact steady_assignMove hP.cm h.1 h.2
  | deref x => obtain ⟨v, hv⟩ := h; exact ⟨_, _, fun _ => by simp only [pstep, hv]; rfl⟩
  | arrow x => obtain ⟨v, hv⟩ := h; exact ⟨_, _, fun _ => by simp only [pstep, hv]; rfl⟩
  | modify x f => obtain ⟨v, hv⟩ := h; exact ⟨_, _, fun _ => by simp only [pstep, hv]; rfl⟩
  | valueless x => obtain ⟨b, hb⟩ := h; exact ⟨_, _, fun _ => by simp only [pstep, hb]; rfl⟩
  | getAllocator x => obtain ⟨b, hb⟩ := h; exact ⟨_, _, fun _ => by simp only [pstep, hb]; rfl⟩
  | swap x y => obtain ⟨o, σ', hr⟩ := swap_ret h; exact ⟨o, σ', fun _ => hr⟩
  | friendSwap x y => obtain ⟨o, σ', hr⟩ := swap_ret h; exact ⟨o, σ', fun _ => hr⟩

end

/-! ## Free storage -/

section
variable {R : Type} [DecidableEq R]

theorem setBlk_far {m : Mem R} {p : Addr} {b : Option (Blk R)} {N : Nat} (h : ∀ q, N ≤ q → m q = none) :
    ∀ q, N + p + 1 ≤ q → setBlk m p b q = none := by
  intro q hq
  have h1 : q ≠ p := by intro e; subst e; omega
  simp only [setBlk, h1, if_false]
  exact h q (by omega)

theorem replayFrom_far (t : List (Ev R)) : ∀ (m m' : Mem R) (N : Nat), (∀ q, N ≤ q → m q = none) → replayFrom m t = some m' →
    ∃ N, ∀ q, N ≤ q → m' q = none := by
  induction t with
  | nil => intro m m' N h e; cases e; exact ⟨N, h⟩
  | cons ev t ih =>
    intro m m' N h e
    simp only [replayFrom] at e
    cases ho : obey m ev with
    | none => rw [ho] at e; cases e
    | some m₁ =>
      rw [ho] at e
      have : ∃ N, ∀ q, N ≤ q → m₁ q = none := by
        cases ev <;> simp only [obey] at ho <;> (try split at ho) <;> (try split at ho) <;> cases ho
        all_goals first | exact ⟨_, setBlk_far h⟩ | exact ⟨N, h⟩
      obtain ⟨N', h'⟩ := this
      exact ih m₁ m' N' h' e

end
end Verif.Spec

namespace Verif
section
variable {L A R B : Type} [DecidableEq L] [DecidableEq R] [Body B]

theorem TraceOk.free {s : St L A R B} (h : TraceOk s) : ∃ p, s.heap p = none := by
  obtain ⟨N, hN⟩ := Spec.replayFrom_far _ _ _ 0 (fun _ _ => rfl) h
  refine ⟨N, ?_⟩
  have := hN N (Nat.le_refl _)
  simpa [shape] using this

end
end Verif

namespace Verif.Conc
open Verif

section
variable {L A R B V N C α : Type} [DecidableEq L] [DecidableEq R] [Body B]

theorem served_run (api : VApi L A R B V N C) (hR : Spec.AllReturn api.step api.vlegal) (n₀ : N) {Q : α → Prop}
    (p : Client C (Out L A V) α) : ∀ {es : Nat → Env} {s : St L A R B}, api.Ok s → Spec.Careful api.step api.vlegal p (api.abs s) →
    Spec.Served api.call p es s → Spec.Always Q p →
    ∃ a s', p.run api.call es s = .ok a s' ∧ Spec.runOn api.step p (fun _ => (true, n₀)) (api.abs s) = .done a (api.abs s') ∧ Q a := by
  induction p with
  | ret a => intro es s _ _ _ hq; exact ⟨a, s, rfl, rfl, hq⟩
  | call c k ih =>
    intro es s ok hc hs hq
    obtain ⟨hl, hk⟩ := hc
    simp only [Spec.Served] at hs
    obtain ⟨hm, hs⟩ := hs
    have h1 := api.safe c (es 0) s ok ((api.legal_eq s c).2 hl)
    have h2 := api.refines s c (es 0) ok hl
    have h3 := hk true (api.seed (es 0))
    obtain ⟨o, σ', hr⟩ := hR _ c hl
    rw [hm] at h2
    rw [hr] at h2 h3
    simp only [Client.run, Spec.runOn, hr]
    cases ho : api.call c (es 0) s <;> rw [ho] at h1 h2 hs <;> simp only at h2 hs
    · cases h2
      exact ih (.ret _) h1 h3 hs (hq _)
    · cases h2
    · cases h2

theorem served_exists (api : VApi L A R B V N C) (J : St L A R B → Prop) (hf : ∀ s, J s → ∃ p, s.heap p = none)
    (hJ : ∀ c e s, api.Ok s → api.vlegal (api.abs s) c → J s → (api.call c e s).All J) (p : Client C (Out L A V) α) :
    ∀ {s : St L A R B}, api.Ok s → Spec.Careful api.step api.vlegal p (api.abs s) → J s → ∃ es, Spec.Served api.call p es s := by
  induction p with
  | ret a => exact fun _ _ _ => ⟨fun _ => ⟨fun _ => false, fun _ => 0, fun _ => 0⟩, trivial⟩
  | call c k ih =>
    intro s ok hc j
    obtain ⟨hl, hk⟩ := hc
    obtain ⟨q, hq⟩ := hf s j
    let e : Env := ⟨fun _ => false, fun _ => q, fun _ => 0⟩
    have h1 := api.safe c e s ok ((api.legal_eq s c).2 hl)
    have h2 := api.refines s c e ok hl
    have h3 := hk (available s e) (api.seed e)
    have h4 := hJ c e s ok hl j
    have ha : available s e = true := by simp [available, e, hq]
    cases ho : api.call c e s with
    | ok o s' =>
      rw [ho] at h1 h2 h4
      simp only at h2
      rw [h2] at h3
      obtain ⟨es, hes⟩ := ih (.ret o) h1 h3 h4
      refine ⟨fun | 0 => e | i + 1 => es i, ?_⟩
      simp only [Spec.Served, ho]; exact ⟨ha, hes⟩
    | threw x s' =>
      rw [ho] at h1 h2 h4
      simp only at h2
      rw [h2] at h3
      obtain ⟨es, hes⟩ := ih (.exn x) h1 h3 h4
      refine ⟨fun | 0 => e | i + 1 => es i, ?_⟩
      simp only [Spec.Served, ho]; exact ⟨ha, hes⟩
    | terminated => exact ⟨fun _ => e, by simp only [Spec.Served, ho]; exact ⟨ha, trivial⟩⟩
    | ub u => rw [ho] at h1; exact h1.elim
    | diverged => rw [ho] at h1; exact h1.elim

end
end Verif.Conc
