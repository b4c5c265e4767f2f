import Verif.Props.Careful14
import Verif.Props.Indirect14
import Verif.Props.IndirectGlobal
import Verif.Props.Footprint
import Verif.Props.PolyOps
import Verif.Props.Tracking
import Verif.Props.Threads

/-!
# C22, C38, C48, C50, C53, C54, C56, C57, C62 for the C++14 headers

indirect_cxx14.h is indirect.h with another condition for assignment (`TSpec.cxx14`), and polymorphic_cxx14.h is polymorphic.h in careful
histories, so what is proved of the calls of one holds of the other.
-/

set_option autoImplicit false
set_option linter.unusedSectionVars false
set_option linter.unusedSimpArgs false

namespace Verif.Props

section
variable {L A R V X : Type} [DecidableEq L] [DecidableEq R]
open Verif.Indirect (abs)
variable {tr : ATraits A R} {T : TSpec V X} {s s' s₁ s₁₂ : St L A R (Obj V)} {o o₁ o₂ : Op L A V X} {e e₁ e₂ : Env} {z : L}
  {out : Out L A V} {ex : Exn}

/-- indirect_cxx14.h: as `C22_cost`. -/
theorem C22_cxx14_cost (S : tr.Sound) (h : Indirect14.Reach tr T s) (hl : Spec.Legal tr (abs s) o)
    (hc : Indirect14.call tr (plain T) o e s = .ok out s') :
    Spec.allocs s'.trace = Spec.allocs s.trace + Spec.allocCost tr T.cxx14 (abs s) o ∧
    Spec.deallocs s'.trace = Spec.deallocs s.trace + Spec.deallocCost tr T.cxx14 (abs s) o ∧
    Spec.tops s'.trace = Spec.tops s.trace + Spec.opCost tr T.cxx14 (abs s) o ∧
    Spec.destroys s'.trace = Spec.destroys s.trace + Spec.deallocCost tr T.cxx14 (abs s) o := by
  rw [Indirect14.call_eq] at hc
  exact C22_cost S ((Indirect14.reach_iff tr T s).1 h) hl hc

/-- indirect_cxx14.h: as `C22_cost_of_exception`. -/
theorem C22_cxx14_cost_of_exception (S : tr.Sound) (h : Indirect14.Reach tr T s) (hl : Spec.Legal tr (abs s) o)
    (hc : Indirect14.call tr (plain T) o e s = .threw ex s') :
    ∃ n, n ≤ 1 ∧ Spec.allocs s'.trace = Spec.allocs s.trace + n ∧ Spec.deallocs s'.trace = Spec.deallocs s.trace + n ∧
      Spec.destroys s'.trace = Spec.destroys s.trace := by
  rw [Indirect14.call_eq] at hc
  exact C22_cost_of_exception S ((Indirect14.reach_iff tr T s).1 h) hl hc

/-- indirect_cxx14.h: as `C54_call_keeps_reference`. -/
theorem C54_cxx14_call_keeps_reference (hz : z ∉ Spec.rebinds o)
    (hc : (∃ out, Indirect14.call tr (plain T) o e s = .ok out s') ∨ (∃ ex, Indirect14.call tr (plain T) o e s = .threw ex s')) :
    s'.hs z = s.hs z := by
  rw [Indirect14.call_eq] at hc
  exact C54_call_keeps_reference hz hc

/-- indirect_cxx14.h: a reference to `*z` stays valid for as long as `z` is not assigned to, moved from, swapped or destroyed. -/
theorem C54_cxx14_reference_valid (S : tr.Sound) (h : Indirect14.Reach tr T s) {cs : List (Op L A V X × Env)}
    {log : List (Seen (Out L A V))} (hl : Indirect14.LegalRun tr T cs s) (hz : ∀ c ∈ cs, z ∉ Spec.rebinds c.1)
    (hr : Indirect14.run tr T cs s = .done log s') {p : Addr} (hp : addr s z = some p) :
    addr s' z = some p ∧ ∃ r v, s'.heap p = some ⟨r, some v⟩ ∧ Spec.valueOf (abs s') z = some v := by
  rw [Indirect14.legalRun_eq] at hl
  rw [Indirect14.run_eq] at hr
  exact C54_reference_valid S ((Indirect14.reach_iff tr T s).1 h) hl hz hr hp

/-- indirect_cxx14.h: a history that does not change `z` or `*z` leaves them alone. -/
theorem C54_cxx14_history_keeps_value (S : tr.Sound) (h : Indirect14.Reach tr T s) {cs : List (Op L A V X × Env)}
    {log : List (Seen (Out L A V))} (hl : Indirect14.LegalRun tr T cs s) (hz : ∀ c ∈ cs, z ∉ Spec.changes c.1)
    (hr : Indirect14.run tr T cs s = .done log s') : abs s' z = abs s z ∧ addr s' z = addr s z := by
  rw [Indirect14.legalRun_eq] at hl
  rw [Indirect14.run_eq] at hr
  exact C54_history_keeps_value S ((Indirect14.reach_iff tr T s).1 h) hl hz hr

/-- indirect_cxx14.h: as `C56_touches_only_operands`, for all states and calls. -/
theorem C56_cxx14_touches_only_operands (tr : ATraits A R) (T : TSpec V X) (s t : St L A R (Obj V)) (o : Op L A V X) (e : Env)
    (hobjects : ∀ z ∈ Spec.operands o, t.hs z = s.hs z)
    (hstorage : ∀ p, Spec.Mine (Spec.operands o) s e p → t.heap p = s.heap p) :
    Spec.SameOutcome (Spec.operands o) (Spec.Mine (Spec.operands o) s e) s t
      (Indirect14.call tr (plain T) o e s) (Indirect14.call tr (plain T) o e t) := by
  rw [Indirect14.call_eq, Indirect14.call_eq]
  exact C56_touches_only_operands tr T.cxx14 s t o e hobjects hstorage

/-- indirect_cxx14.h: a call writes nothing but the objects that it may change, what they own, and storage that it gets. -/
theorem C62_cxx14_writes_only (tr : ATraits A R) (T : TSpec V X) (s s' : St L A R (Obj V)) (o : Op L A V X) (e : Env)
    {a : Seen (Out L A V)} (hc : Spec.ended (Indirect14.call tr (plain T) o e s) = some (a, s')) :
    Spec.WritesOnly (Spec.changes o) (Spec.Mine (Spec.changes o) s e) s s' := by
  rw [Indirect14.call_eq] at hc
  exact C62_writes_only tr T.cxx14 s s' o e hc

/-- indirect_cxx14.h: the source of a copy and the object of an observer are only read. -/
theorem C62_cxx14_const_operand (S : tr.Sound) (h : Indirect14.Reach tr T s) {z : L} (hz : z ∉ Spec.changes o)
    (hfresh : ∀ n, s.heap (e.pick n) = none) {a : Seen (Out L A V)}
    (hc : Spec.ended (Indirect14.call tr (plain T) o e s) = some (a, s₁)) :
    s₁.hs z = s.hs z ∧ ∀ p, addr s z = some p →
      s₁.heap p = s.heap p ∧ ∃ w, s₁.trace = s.trace ++ w ∧ ∀ ev ∈ w, ¬ ev.writes p := by
  rw [Indirect14.call_eq] at hc
  exact C62_const_operand S ((Indirect14.reach_iff tr T s).1 h) hz hfresh hc

/-- indirect_cxx14.h: two calls that do not change what the other mentions commute. -/
theorem C57_cxx14_calls_commute (S : tr.Sound) (h : Indirect14.Reach tr T s)
    (hops₁ : ∀ z ∈ Spec.operands o₁, z ∉ Spec.changes o₂) (hops₂ : ∀ z ∈ Spec.operands o₂, z ∉ Spec.changes o₁)
    (h₁ : ∀ n, s.heap (e₁.pick n) = none) (h₂ : ∀ n, s.heap (e₂.pick n) = none) (hne : ∀ n m, e₁.pick n ≠ e₂.pick m)
    {a₁ a₂ : Seen (Out L A V)} (hc₁ : Spec.ended (Indirect14.call tr (plain T) o₁ e₁ s) = some (a₁, s₁))
    (hc₂ : Spec.ended (Indirect14.call tr (plain T) o₂ e₂ s₁) = some (a₂, s₁₂)) :
    ∃ s₂ s₂₁, Spec.ended (Indirect14.call tr (plain T) o₂ e₂ s) = some (a₂, s₂) ∧
      Spec.ended (Indirect14.call tr (plain T) o₁ e₁ s₂) = some (a₁, s₂₁) ∧ s₂₁.hs = s₁₂.hs ∧ s₂₁.heap = s₁₂.heap := by
  simp only [Indirect14.call_eq] at hc₁ hc₂ ⊢
  exact C57_calls_commute S ((Indirect14.reach_iff tr T s).1 h) hops₁ hops₂ h₁ h₂ hne hc₁ hc₂

/-- indirect_cxx14.h: a thread that shares only what nobody changes could have been alone. -/
theorem C50_cxx14_thread_could_be_alone {Th : Type} [DecidableEq Th] (S : tr.Sound) (owner : L → Option Th) (t : Th)
    {u : St L A R (Obj V)} {cs : List (Th × Op L A V X × Env)} {log : List (Seen (Out L A V))} (h : Indirect14.Reach tr T s)
    (hu : Indirect14.Reach tr T u) (hsame : ∀ z, Spec.Uses owner t z → abs s z = abs u z)
    (hl : Indirect14.LegalRun tr T (cs.map (·.2)) s) (hr : Indirect14.run tr T (cs.map (·.2)) s = .done log s')
    (hown : ∀ c ∈ cs, ∀ z ∈ Spec.operands c.2.1, owner z = some c.1 ∨ owner z = none ∧ z ∉ Spec.changes c.2.1) :
    ∃ cs' : List (Op L A V X × Env), cs'.map (·.1) = (Spec.callsOf t cs).map (·.1) ∧ Indirect14.LegalRun tr T cs' u ∧
      ∃ u', Indirect14.run tr T cs' u = .done (Spec.ofThread t cs log) u' ∧ ∀ z, Spec.Uses owner t z → abs s' z = abs u' z := by
  simp only [Indirect14.legalRun_eq, Indirect14.run_eq] at hl hr ⊢
  exact C50_thread_could_be_alone S owner t ((Indirect14.reach_iff tr T s).1 h) ((Indirect14.reach_iff tr T u).1 hu) hsame hl hr hown

end

section
variable {L V X : Type} [DecidableEq L] {d a : Tracking} {w : Nat}

/-- indirect_cxx14.h: `*alloc_counter - *dealloc_counter` of a `TrackingAllocator` is the number of engaged objects that use the counters
plus the number of allocations that were refused. -/
theorem C48_cxx14_counters {T : TSpec V X} {s : St L Tracking Tracking (Obj V)} (h : Indirect14.Reach (Tracking.traits d) T s)
    {cs : List Tracking.Call} (hcs : Spec.CallsOf cs s.trace) (ho : Spec.OwnCounters a cs)
    (m : Tracking.Counters w) (hm : m a.allocCounter = m a.deallocCounter)
    {xs : List L} (hx : Spec.EngagedWith (Indirect.abs s) a xs) :
    Tracking.run m cs a.allocCounter - Tracking.run m cs a.deallocCounter = BitVec.ofNat w (xs.length + Spec.refused a cs) :=
  C48_counters ((Indirect14.reach_iff _ T s).1 h) hcs ho m hm hx

end

section
variable {L A R Ty V X : Type} [DecidableEq L] [DecidableEq R] [DecidableEq Ty]
open Verif.Polymorphic (abs)
open Verif.Polymorphic14 (CarefulRun Careful)
variable {tr : ATraits A R} {P : PSpec Ty V X} {s s' : St L A R (PBody Ty V)} {o : POp L A Ty V X}
  {cs ds : List (POp L A Ty V X × Env)} {log log' : List (Seen (Out L A (Ty × V)))} {z : L} {e : Env} {out : Out L A (Ty × V)} {ex : Exn}

private theorem careful_reach (S : tr.Sound) (E : tr.Equality) (hc : CarefulRun tr P cs St.init)
    (h : Polymorphic14.run tr P cs St.init = .done log s) : Polymorphic.Reach tr P s := by
  obtain ⟨h1, h2⟩ := Polymorphic14.careful_run S E .init hc
  exact Polymorphic.Reach.run .init h2 (h1 ▸ h)

private theorem of_fixes {f : POp L A Ty V X → List L} (hf : ∀ o, f (Polymorphic14.fix P.base o) = f o)
    (hz : ∀ c ∈ ds, z ∉ f c.1) : ∀ c ∈ Polymorphic14.fixes P.base ds, z ∉ f c.1 := by
  intro c hc
  simp only [Polymorphic14.fixes, List.mem_map] at hc
  obtain ⟨c', h', rfl⟩ := hc
  simp only [hf]
  exact hz c' h'

/-- polymorphic_cxx14.h, in careful histories: a reference to `*z` stays valid for as long as `z` is not assigned to, moved from, swapped
or destroyed, and the dynamic type stays. -/
theorem C38_careful_reference_valid (S : tr.Sound) (E : tr.Equality) (hc : CarefulRun tr P cs St.init)
    (h : Polymorphic14.run tr P cs St.init = .done log s) (hd : CarefulRun tr P ds s) (hz : ∀ c ∈ ds, z ∉ Spec.prebinds c.1)
    (hr : Polymorphic14.run tr P ds s = .done log' s') {p : Addr} (hp : addr s z = some p) :
    addr s' z = some p ∧ ∃ r ty v w, s'.heap p = some ⟨r, some ⟨ty, some p, some v⟩⟩ ∧
      Spec.valueOf (abs s') z = some (ty, v) ∧ Spec.valueOf (abs s) z = some (ty, w) := by
  have hR := careful_reach S E hc h
  obtain ⟨h1, h2⟩ := Polymorphic14.careful_run S E hR hd
  exact C38_reference_valid S hR h2 (of_fixes (fun o => by cases o <;> rfl) hz) (h1 ▸ hr) hp

/-- polymorphic_cxx14.h, in careful histories: what does not change `z` or `*z` leaves them alone. -/
theorem C38_careful_history_keeps_value (S : tr.Sound) (E : tr.Equality) (hc : CarefulRun tr P cs St.init)
    (h : Polymorphic14.run tr P cs St.init = .done log s) (hd : CarefulRun tr P ds s) (hz : ∀ c ∈ ds, z ∉ Spec.pchanges c.1)
    (hr : Polymorphic14.run tr P ds s = .done log' s') : abs s' z = abs s z ∧ addr s' z = addr s z := by
  have hR := careful_reach S E hc h
  obtain ⟨h1, h2⟩ := Polymorphic14.careful_run S E hR hd
  exact C38_history_keeps_value S hR h2 (of_fixes (fun o => by
    cases o with
    | make x a c => cases c <;> rfl
    | _ => rfl) hz) (h1 ▸ hr)

/-- polymorphic_cxx14.h: after a careful history, the cost of a careful call. -/
theorem C53_careful_cost (S : tr.Sound) (E : tr.Equality) (hc : CarefulRun tr P cs St.init)
    (h : Polymorphic14.run tr P cs St.init = .done log s) (hl : Spec.PLegal tr (abs s) o) (ho : Careful tr (abs s) o)
    (hr : Polymorphic14.call tr (plainP P) o e s = .ok out s') :
    Spec.allocs s'.trace = Spec.allocs s.trace + Spec.pallocCost tr (abs s) o ∧
    Spec.deallocs s'.trace = Spec.deallocs s.trace + Spec.pdeallocCost (abs s) o ∧
    Spec.tops s'.trace = Spec.tops s.trace + Spec.pallocCost tr (abs s) o ∧
    Spec.destroys s'.trace = Spec.destroys s.trace + Spec.pdeallocCost (abs s) o := by
  have hR := careful_reach S E hc h
  rw [Polymorphic14.careful_call S E hR ho e] at hr
  have := C53_cost S hR ((Polymorphic14.legal_fix P.base).2 hl) hr
  rw [show Spec.pallocCost tr (abs s) (Polymorphic14.fix P.base o) = Spec.pallocCost tr (abs s) o by cases o <;> rfl,
    show Spec.pdeallocCost (abs s) (Polymorphic14.fix P.base o) = Spec.pdeallocCost (abs s) o by cases o <;> rfl] at this
  exact this

/-- polymorphic_cxx14.h: after a careful history, a careful call that throws gives back what it allocated. -/
theorem C53_careful_cost_of_exception (S : tr.Sound) (E : tr.Equality) (hc : CarefulRun tr P cs St.init)
    (h : Polymorphic14.run tr P cs St.init = .done log s) (hl : Spec.PLegal tr (abs s) o) (ho : Careful tr (abs s) o)
    (hr : Polymorphic14.call tr (plainP P) o e s = .threw ex s') :
    ∃ n, n ≤ 1 ∧ Spec.allocs s'.trace = Spec.allocs s.trace + n ∧ Spec.deallocs s'.trace = Spec.deallocs s.trace + n ∧
      Spec.destroys s'.trace = Spec.destroys s.trace := by
  have hR := careful_reach S E hc h
  rw [Polymorphic14.careful_call S E hR ho e] at hr
  exact C53_cost_of_exception S hR ((Polymorphic14.legal_fix P.base).2 hl) hr

end

/-! ## Instances -/

section
open Demo

theorem st_reach14 (a b c : Bool) : Indirect14.Reach (alloc a b c) Demo.T (st a b c) :=
  (Indirect14.reach_iff _ Demo.T _).2 (st_reach a b c)

-- C22_cxx14, C54_cxx14, C56_cxx14, C57_cxx14, C62_cxx14: calls in a reachable state.
example : Spec.Legal (alloc false false false) (Indirect.abs (st false false false)) (.assignCopy 1 3 : Op Nat Nat Nat Nat) ∧
    outcome (Indirect14.call (alloc false false false) (plain Demo.T) (.assignCopy 1 3) (fine 110) (st false false false)) = 0 ∧
    outcome (Indirect14.call (alloc false false false) (plain Demo.T) (.assignCopy 1 3) (bad 110) (st false false false)) = 1 ∧
    3 ∉ Spec.changes (.assignCopy 1 3 : Op Nat Nat Nat Nat) := by decide

instance (tr : ATraits Nat Nat) (cs : Hist) (s : St Nat Nat Nat (Obj Nat)) : Decidable (Indirect14.LegalRun tr Demo.T cs s) :=
  decLegalWith (fun (c : Op Nat Nat Nat Nat × Env) s => Indirect14.call tr (plain Demo.T) c.1 c.2 s)
    (fun s c => Spec.Legal tr (Indirect.abs s) c.1) cs s

-- C50_cxx14_thread_could_be_alone
example : Indirect14.LegalRun (alloc false false false) Demo.T (twoThreads.map (·.2)) St.init ∧
    ∀ c ∈ twoThreads, ∀ z ∈ Spec.operands c.2.1, some (decide (z ≤ 2)) = some c.1 := by decide

-- C54_cxx14_reference_valid, C54_cxx14_history_keeps_value
example : let cs : Hist := [(.copy 9 1, fine 110), (.modify 1 (· + 1), fine 0), (.make 8 none (.from (.rval 1)), bad 111),
      (.assignCopy 2 1, fine 112), (.destroy 9, full)]
    Indirect14.LegalRun (alloc true false false) Demo.T cs (st true false false) ∧
    (∀ c ∈ cs, 1 ∉ Spec.rebinds c.1) ∧ addr (st true false false) 1 = some 100 := by decide

-- C38_careful, C53_careful: after two constructions with unequal propagating allocators.
example : let cs : PDemo.Hist := carefully.take 2
    let ds : PDemo.Hist := [(.copy 9 1, fine 110), (.assignCopy 2 1, fine 112), (.moveA 8 5 2, fine 111), (.destroy 9, full)]
    Polymorphic14.CarefulRun (alloc true true false) PDemo.P (cs ++ ds) St.init ∧ (∀ c ∈ ds, 1 ∉ Spec.prebinds c.1) := by decide

end
end Verif.Props
