import Verif.Spec.Run
import Verif.Spec.PAbs

/-!
# What a call may touch
-/

set_option autoImplicit false

namespace Verif

/-- Addresses an event is about. -/
def Ev.about {R : Type} : Ev R → Addr → Prop
  | .alloc _ p, q => q = p
  | .dealloc _ p, q => q = p
  | .construct p h, q => q = p ∨ h = .copyOf q ∨ h = .moveOf q
  | .assign p h, q => q = p ∨ h = .copyOf q ∨ h = .moveOf q
  | .destroy p, q => q = p
  | .custom _ _ _ p, q => q = p

/-- Addresses an event writes to: all it is about, except the source of a copy. -/
def Ev.writes {R : Type} : Ev R → Addr → Prop
  | .alloc _ p, q => q = p
  | .dealloc _ p, q => q = p
  | .construct p h, q => q = p ∨ h = .moveOf q
  | .assign p h, q => q = p ∨ h = .moveOf q
  | .destroy p, q => q = p
  | .custom _ _ _ p, q => q = p

namespace Spec
variable {L A R B O : Type}

/-- The storage that belongs to the objects `ops`, or that the allocator can hand out during the call. -/
def Mine (ops : List L) (s : St L A R B) (e : Env) (p : Addr) : Prop :=
  (∃ z ∈ ops, addr s z = some p) ∨ ∃ n, e.pick n = p

/-- Two executions, from `s` to `s'` and from `t` to `t'`: they leave the objects `ops` and the storage `mine` in the
same state, leave everything else as it was, and do the same things, to `mine` only. -/
structure SameWork (ops : List L) (mine : Addr → Prop) (s s' t t' : St L A R B) : Prop where
  objects : ∀ z ∈ ops, t'.hs z = s'.hs z
  storage : ∀ p, mine p → t'.heap p = s'.heap p
  other_objects : ∀ z, z ∉ ops → s'.hs z = s.hs z ∧ t'.hs z = t.hs z
  other_storage : ∀ p, ¬ mine p → s'.heap p = s.heap p ∧ t'.heap p = t.heap p
  events : ∃ w, s'.trace = s.trace ++ w ∧ t'.trace = t.trace ++ w ∧ ∀ ev ∈ w, ∀ p, ev.about p → mine p

/-- From `s` to `s'`, nothing was written but the objects `ws` and the storage `mine`: everything else is as it was, and
was not written in between either. -/
structure WritesOnly (ws : List L) (mine : Addr → Prop) (s s' : St L A R B) : Prop where
  objects : ∀ z, z ∉ ws → s'.hs z = s.hs z
  storage : ∀ p, ¬ mine p → s'.heap p = s.heap p
  events : ∃ w, s'.trace = s.trace ++ w ∧ ∀ ev ∈ w, ∀ p, ev.writes p → mine p

/-- The same outcome in `s` and in `t`. -/
def SameOutcome (ops : List L) (mine : Addr → Prop) (s t : St L A R B) :
    Res (St L A R B) O → Res (St L A R B) O → Prop
  | .ok a s', .ok b t' => b = a ∧ SameWork ops mine s s' t t'
  | .threw a s', .threw b t' => b = a ∧ SameWork ops mine s s' t t'
  | .terminated, .terminated => True
  | .ub u, .ub v => v = u
  | .diverged, .diverged => True
  | _, _ => False

/-- What the client sees, and the state after the call, if the call ends. -/
def ended {σ : Type} : Res σ O → Option (Seen O × σ)
  | .ok a s => some (.ret a, s)
  | .threw e s => some (.exn e, s)
  | _ => none

end Spec
end Verif
