import Verif.PDemo
import Verif.Props.IndirectConstruct
import Verif.Props.IndirectAssign
import Verif.Props.IndirectSwap
import Verif.Props.IndirectGlobal
import Verif.Props.PolySafety

/-!
# C33–C38: the calls of `polymorphic`

`abs s x = some ⟨a, some (ty, v)⟩`: `x` is alive, has allocator `a` and owns an object of dynamic type `ty` with value
`v`.  `addr s x` is where that object is.  Statements about storage are made with `view s`, the state without the
internals of the control blocks (see C31_control_blocks_complete for those).
-/

set_option autoImplicit false
set_option linter.unusedSectionVars false
set_option linter.unusedSimpArgs false

namespace Verif.Props
open Verif Polymorphic

section
variable {L A R Ty V X : Type} [DecidableEq L] [DecidableEq R] [DecidableEq Ty]
variable {tr : ATraits A R} {P : PSpec Ty V X} {s s' : St L A R (PBody Ty V)} {o : POp L A Ty V X} {e : Env}
  {out : Out L A (Ty × V)} {ex : Exn} {x y z : L} {a b : A} {ty : Ty} {v : V} {k l : Spec.Box A (Ty × V)}

/-! ## C33 -/

/-- Copy construction with an allocator argument, from an engaged object: the new object has the given allocator and
owns, in new storage of that allocator, an object of the same dynamic type, made by the copy constructor of that type
from the source's object, which stays where it is; nothing else changes. -/
theorem C33_copyA_engaged (S : tr.Sound) (h : Reach tr P s) (hx : Spec.Dead (abs s) x)
    (hy : abs s y = some ⟨b, some (ty, v)⟩) (hc : call tr (plainP P) (.copyA x a y) e s = .ok out s') :
    out = .unit ∧ available s e = true ∧ ∃ q p w, addr s y = some q ∧ P.copy ty v (e.choice 0) = .ok w ∧
      Spec.Created tr (view s) (view s') (view s).heap x a (ty, w) p (.copyOf q) ∧
      abs s' = Spec.put (abs s) x ⟨a, some (ty, w)⟩ ∧ addr s' y = some q ∧ addr s' x ≠ some q := by
  have hl : Spec.PLegal tr (abs s) (.copyA x a y : POp L A Ty V X) := ⟨hx, _, hy⟩
  have := C07_copy_engaged (h.sim S).2 S (x := x) (y := y) (a := a) (by rw [abs_view]; exact hx)
    (by rw [abs_view]; exact hy) (h.call_ok S hl hc)
  obtain ⟨h1, h2, q, p, w, h3, h4, h5, h6, h7, h8⟩ := this
  obtain ⟨w', hw, rfl⟩ := map_ok h4
  rw [available_view] at h2
  rw [abs_view, abs_view] at h6
  exact ⟨h1, h2, q, p, w', h3, hw, h5, h6, h7, h8⟩

theorem pcopy_is_copyA (hy : abs s y = some k) :
    call tr (plainP P) (.copy x y) e s = call tr (plainP P) (.copyA x (tr.socc k.alloc) y) e s := by
  cases hh : s.hs y with
  | none => simp [abs, absWith, hh] at hy
  | some t =>
    have : k.alloc = t.alloc := by
      simp only [abs, absWith, hh] at hy
      injection hy with hy
      rw [← hy]
    rw [this]
    simp only [call, step, ctorCopy, getH, M.bind_eq, St.enter, hh]

/-- Copy construction: the same, with the allocator that the source's allocator selects. -/
theorem C33_copy_engaged (S : tr.Sound) (h : Reach tr P s) (hx : Spec.Dead (abs s) x)
    (hy : abs s y = some ⟨b, some (ty, v)⟩) (hc : call tr (plainP P) (.copy x y) e s = .ok out s') :
    out = .unit ∧ available s e = true ∧ ∃ q p w, addr s y = some q ∧ P.copy ty v (e.choice 0) = .ok w ∧
      Spec.Created tr (view s) (view s') (view s).heap x (tr.socc b) (ty, w) p (.copyOf q) ∧
      abs s' = Spec.put (abs s) x ⟨tr.socc b, some (ty, w)⟩ ∧ addr s' y = some q ∧ addr s' x ≠ some q :=
  C33_copyA_engaged S h hx hy (by rwa [pcopy_is_copyA hy] at hc)

/-- The copy of a valueless object is valueless; nothing is allocated or called. -/
theorem C33_copyA_valueless (S : tr.Sound) (h : Reach tr P s) (hx : Spec.Dead (abs s) x)
    (hy : abs s y = some ⟨b, none⟩) (e : Env) :
    ∃ s', call tr (plainP P) (.copyA x a y) e s = .ok .unit s' ∧ abs s' = Spec.put (abs s) x ⟨a, none⟩ ∧
      (∀ z, z ≠ x → addr s' z = addr s z) ∧ (view s').heap = (view s).heap ∧ Spec.Silent s s' := by
  have hl : Spec.PLegal tr (abs s) (.copyA x a y : POp L A Ty V X) := ⟨hx, _, hy⟩
  obtain ⟨t, h1, h2, h3, h4, h5⟩ := C07_copy_valueless (h.sim S).2 S (x := x) (y := y) (a := a)
    (by rw [abs_view]; exact hx) (by rw [abs_view]; exact hy) e
  obtain ⟨s', h6, rfl⟩ := h.call_ok_of S hl h1
  rw [abs_view, abs_view] at h2
  exact ⟨s', h6, h2, h3, h4, h5⟩

theorem C33_copy_valueless (S : tr.Sound) (h : Reach tr P s) (hx : Spec.Dead (abs s) x)
    (hy : abs s y = some ⟨b, none⟩) (e : Env) :
    ∃ s', call tr (plainP P) (.copy x y) e s = .ok .unit s' ∧ abs s' = Spec.put (abs s) x ⟨tr.socc b, none⟩ ∧
      (∀ z, z ≠ x → addr s' z = addr s z) ∧ (view s').heap = (view s).heap ∧ Spec.Silent s s' := by
  rw [pcopy_is_copyA hy]
  exact C33_copyA_valueless S h hx hy e

/-- Copy construction from an engaged object returns exactly if there is storage and the copy constructor of the
dynamic type returns, and otherwise throws. -/
theorem C33_copyA_outcome (S : tr.Sound) (h : Reach tr P s) (hx : Spec.Dead (abs s) x)
    (hy : abs s y = some ⟨b, some (ty, v)⟩) (e : Env) :
    ((∃ out s', call tr (plainP P) (.copyA x a y) e s = .ok out s') ↔
      available s e = true ∧ ∃ w, P.copy ty v (e.choice 0) = .ok w) ∧
    ((∃ ex s', call tr (plainP P) (.copyA x a y) e s = .threw ex s') ↔
      ¬ (available s e = true ∧ ∃ w, P.copy ty v (e.choice 0) = .ok w)) := by
  have hl : Spec.PLegal tr (abs s) (.copyA x a y : POp L A Ty V X) := ⟨hx, _, hy⟩
  have hm : (∃ w, P.owned.copy (ty, v) (e.choice 0) = .ok w) ↔ ∃ w, P.copy ty v (e.choice 0) = .ok w := by
    simp only [PSpec.owned]
    cases P.copy ty v (e.choice 0) <;> simp [Except.map]
  have := C07_copy_outcome (T := P.owned) (tr := tr) (x := x) (a := a) (s := view s) (by rw [abs_view]; exact hx)
    (by rw [abs_view]; exact hy) e
  rw [hm, available_view] at this
  have hs := h.call S hl e
  rw [show toOp (.copyA x a y : POp L A Ty V X) = .copyA x a y from rfl] at hs
  refine ⟨Iff.trans ?_ this.1, Iff.trans ?_ this.2⟩
  all_goals cases hc : call tr (plainP P) (.copyA x a y) e s with
  | ok u t => rw [hc] at hs; rw [hs.2]; simp
  | threw u t => rw [hc] at hs; rw [hs.2]; simp
  | ub u => rw [hc] at hs; obtain ⟨u', hs⟩ := hs; rw [hs]; simp
  | terminated => rw [hc] at hs; rw [show Indirect.call _ _ _ _ _ = _ from hs]; simp
  | diverged => rw [hc] at hs; rw [show Indirect.call _ _ _ _ _ = _ from hs]; simp

/-- A copy construction that throws leaves nothing behind. -/
theorem C33_copyA_throws (S : tr.Sound) (h : Reach tr P s) (hx : Spec.Dead (abs s) x)
    (hy : abs s y = some ⟨b, some (ty, v)⟩) (hc : call tr (plainP P) (.copyA x a y) e s = .threw ex s') :
    Spec.Untouched (view s) (view s') ∧ Spec.Dead (abs s') x ∧ abs s' = abs s ∧
      Spec.CreateFailed tr (view s) (view s') e (view s).heap a ((P.copy ty v (e.choice 0)).map (ty, ·)) ex := by
  have hl : Spec.PLegal tr (abs s) (.copyA x a y : POp L A Ty V X) := ⟨hx, _, hy⟩
  have := C07_copy_throws (T := P.owned) (tr := tr) (x := x) (a := a) (s := view s) (by rw [abs_view]; exact hx)
    (by rw [abs_view]; exact hy) (h.call_threw S hl hc)
  rw [abs_view] at this
  refine ⟨this.1, this.2.1, ?_, this.2.2⟩
  rw [← abs_view, ← abs_view]
  unfold Indirect.abs
  rw [this.1.1, this.1.2]

/-- A call changes no object that it does not mention: neither its allocator, nor what it owns, nor where. -/
theorem C33_call_independent (S : tr.Sound) (h : Reach tr P s) (hl : Spec.PLegal tr (abs s) o)
    (hz : z ∉ Spec.poperands o)
    (hc : call tr (plainP P) o e s = .ok out s' ∨ call tr (plainP P) o e s = .threw ex s') :
    abs s' z = abs s z ∧ addr s' z = addr s z := by
  have := C06_call_independent (z := z) (s' := view s') S (h.sim S).2 (legal_view hl) (by rw [operands_toOp]; exact hz)
    (hc.imp (h.call_ok S hl) (h.call_threw S hl))
  rwa [abs_view, abs_view] at this

/-- Changes made through one object are not visible through any other, in all later histories: an object that no call
of a history mentions keeps its allocator, and owns the same object, at the same address, with the same type and
value. -/
theorem C33_history_independent (S : tr.Sound) (h : Reach tr P s) {cs : List (POp L A Ty V X × Env)}
    {log : List (Seen (Out L A (Ty × V)))} (hl : LegalRun tr P cs s) (hz : ∀ c ∈ cs, z ∉ Spec.poperands c.1)
    (hr : run tr P cs s = .done log s') : abs s' z = abs s z ∧ addr s' z = addr s z := by
  obtain ⟨h1, h2⟩ := run_sim S h hl
  rw [hr] at h1
  cases hi : Indirect.run tr P.owned (toOps cs) (view s) <;> rw [hi] at h1 <;> simp only [HSim] at h1
  obtain ⟨rfl, rfl⟩ := h1
  have := C06_history_independent (z := z) S (h.sim S).2 h2 (by
    intro c hc
    obtain ⟨c', hc', rfl⟩ := List.mem_map.1 hc
    rw [operands_toOp]
    exact hz c' hc') hi
  rwa [abs_view, abs_view] at this

open Demo in
example : let s := PDemo.st false false false
    Spec.Dead (abs s) 9 ∧ abs s 2 = some ⟨5, some (2, 2008)⟩ ∧ abs s 4 = some ⟨6, none⟩ ∧
    outcome (call (alloc false false false) (plainP PDemo.P) (.copyA 9 6 2) (fine 200) s) = 0 ∧
    outcome (call (alloc false false false) (plainP PDemo.P) (.copyA 9 6 2) (bad 200) s) = 1 ∧
    outcome (call (alloc false false false) (plainP PDemo.P) (.copy 9 2) full s) = 1 := by decide

open Demo in
example : let cs : PDemo.Hist := [(.copy 9 2, fine 110), (.modify 9 (fun _ v => v + 1), fine 0), (.destroy 9, full)]
    LegalRun (alloc false false false) PDemo.P cs (PDemo.st false false false) ∧
    ∀ c ∈ cs, 1 ∉ Spec.poperands c.1 := by decide

/-! ## C34 -/

/-- Every value constructor makes an object of exactly the requested type from exactly the given arguments, in new
storage of the given (or a default-constructed) allocator; if it throws, nothing is left behind. -/
theorem C34_construct_args (S : tr.Sound) (h : Reach tr P s) {c : PCtor L Ty X} {oa : Option A} {xs : TArgs X}
    (hx : Spec.Dead (abs s) x) (hc : Spec.requested P.base c = some (ty, xs)) :
    (∀ out s', call tr (plainP P) (.make x oa c) e s = .ok out s' → out = .unit ∧ available s e = true ∧ ∃ w p,
      P.make ty xs (e.choice 0) = .ok w ∧
      Spec.Created tr (view s) (view s') (view s).heap x (oa.getD tr.dflt) (ty, w) p .args ∧
      abs s' = Spec.put (abs s) x ⟨oa.getD tr.dflt, some (ty, w)⟩) ∧
    (∀ ex s', call tr (plainP P) (.make x oa c) e s = .threw ex s' → Spec.Untouched (view s) (view s') ∧
      Spec.CreateFailed tr (view s) (view s') e (view s).heap (oa.getD tr.dflt)
        ((P.make ty xs (e.choice 0)).map (ty, ·)) ex) := by
  have hl : Spec.PLegal tr (abs s) (.make x oa c : POp L A Ty V X) := by
    refine ⟨hx, ?_⟩
    cases c with
    | «from» ty u =>
      cases u with
      | arg x => trivial
      | lval y => simp [Spec.requested] at hc
      | rval y => simp [Spec.requested] at hc
    | _ => trivial
  obtain ⟨ys, h1, h2⟩ := origin_toCtor (P := P) hc
  have := C52_construct_args (e := e) (oa := oa) (h.sim S).2 S (by rw [abs_view]; exact hx) h1
  constructor
  · intro out s' hr
    obtain ⟨h3, h4, w, p, h5, h6, h7⟩ := this.1 _ _ (h.call_ok S hl hr)
    rw [h2 rfl] at h5
    obtain ⟨w', hw, rfl⟩ := map_ok h5
    rw [available_view] at h4
    rw [abs_view, abs_view] at h7
    exact ⟨h3, h4, w', p, hw, h6, h7⟩
  · intro ex s' hr
    obtain ⟨h3, h4⟩ := this.2 _ _ (h.call_threw S hl hr)
    rw [h2 rfl] at h4
    exact ⟨h3, h4⟩

/-- Construction from an lvalue of type `ty`, the object of `y`: it is copied by the copy constructor of `ty`. -/
theorem C34_construct_copy (S : tr.Sound) (h : Reach tr P s) {oa : Option A}
    (hx : Spec.Dead (abs s) x) (hy : abs s y = some ⟨b, some (ty, v)⟩) :
    (∀ out s', call tr (plainP P) (.make x oa (.from ty (.lval y))) e s = .ok out s' →
      out = .unit ∧ available s e = true ∧ ∃ q w p, addr s y = some q ∧ P.copy ty v (e.choice 0) = .ok w ∧
      Spec.Created tr (view s) (view s') (view s).heap x (oa.getD tr.dflt) (ty, w) p (.copyOf q) ∧
      abs s' = Spec.put (abs s) x ⟨oa.getD tr.dflt, some (ty, w)⟩) ∧
    (∀ ex s', call tr (plainP P) (.make x oa (.from ty (.lval y))) e s = .threw ex s' →
      Spec.Untouched (view s) (view s') ∧
      Spec.CreateFailed tr (view s) (view s') e (view s).heap (oa.getD tr.dflt)
        ((P.copy ty v (e.choice 0)).map (ty, ·)) ex) := by
  have hl : Spec.PLegal tr (abs s) (.make x oa (.from ty (.lval y)) : POp L A Ty V X) :=
    ⟨hx, v, by simp [Spec.valueOf, hy]⟩
  have := C52_construct_copy (e := e) (oa := oa) (c := toCtor (.from ty (.lval y))) (h.sim S).2 S
    (by rw [abs_view]; exact hx) (by rw [abs_view]; exact hy) rfl
  constructor
  · intro out s' hr
    obtain ⟨h3, h4, q, w, p, h5, h6, h7, h8⟩ := this.1 _ _ (h.call_ok S hl hr)
    obtain ⟨w', hw, rfl⟩ := map_ok h6
    rw [available_view] at h4
    rw [abs_view, abs_view] at h8
    exact ⟨h3, h4, q, w', p, h5, hw, h7, h8⟩
  · intro ex s' hr
    exact this.2 _ _ (h.call_threw S hl hr)

/-- Construction from an rvalue of type `ty`, the object of `y`: it is moved from by the move constructor of `ty`. -/
theorem C34_construct_move (S : tr.Sound) (h : Reach tr P s) {oa : Option A}
    (hx : Spec.Dead (abs s) x) (hy : abs s y = some ⟨b, some (ty, v)⟩) :
    (∀ out s', call tr (plainP P) (.make x oa (.from ty (.rval y))) e s = .ok out s' →
      out = .unit ∧ available s e = true ∧ ∃ q w p, addr s y = some q ∧ (P.move ty v (e.choice 0)).1 = .ok w ∧
      Spec.Created tr (view s) (view s') (Spec.leftWith (view s).heap q (ty, (P.move ty v (e.choice 0)).2))
        x (oa.getD tr.dflt) (ty, w) p (.moveOf q)) ∧
    (∀ ex s', call tr (plainP P) (.make x oa (.from ty (.rval y))) e s = .threw ex s' → ∃ q, addr s y = some q ∧
      Spec.CreateFailed tr (view s) (view s') e (Spec.leftWith (view s).heap q (ty, (P.move ty v (e.choice 0)).2))
        (oa.getD tr.dflt) ((P.move ty v (e.choice 0)).1.map (ty, ·)) ex) := by
  have hl : Spec.PLegal tr (abs s) (.make x oa (.from ty (.rval y)) : POp L A Ty V X) :=
    ⟨hx, v, by simp [Spec.valueOf, hy]⟩
  have := C52_construct_move (T := P.owned) (tr := tr) (e := e) (oa := oa) (c := toCtor (.from ty (.rval y)))
    (s := view s) (by rw [abs_view]; exact hx) (by rw [abs_view]; exact hy) rfl
  constructor
  · intro out s' hr
    obtain ⟨h3, h4, q, w, p, h5, h6, h7⟩ := this.1 _ _ (h.call_ok S hl hr)
    obtain ⟨w', hw, rfl⟩ := map_ok h6
    rw [available_view] at h4
    exact ⟨h3, h4, q, w', p, h5, hw, h7⟩
  · intro ex s' hr
    exact this.2 _ _ (h.call_threw S hl hr)

/-- Any constructor (including copies and moves) that throws leaves no object, no storage and no owned object
behind; the object it moves from is the only one that can have changed. -/
theorem C34_failed_construction (S : tr.Sound) (h : Reach tr P s) (hl : Spec.PLegal tr (abs s) o)
    (hn : Spec.pnewObject o = some x) (hc : call tr (plainP P) o e s = .threw ex s') :
    s'.hs = s.hs ∧
    (s'.trace = s.trace ∨ ∃ r p, s'.trace = s.trace ++ [.alloc r p, .dealloc r p]) ∧
    ((view s').heap = (view s).heap ∨ ∃ y q ty v, Spec.pmovedFrom o = some y ∧ addr s y = some q ∧
      Spec.valueOf (abs s) y = some (ty, v) ∧
      (view s').heap = Spec.leftWith (view s).heap q (ty, (P.move ty v (e.choice 0)).2)) := by
  have := C19_failed_construction (s' := view s') S (h.sim S).2 (legal_view hl) (by rw [newObject_toOp]; exact hn)
    (h.call_threw S hl hc)
  rw [abs_view, movedFrom_toOp] at this
  refine ⟨this.1, this.2.1, this.2.2.imp id ?_⟩
  rintro ⟨y, q, v, h1, h2, h3, h4⟩
  exact ⟨y, q, v.1, v.2, h1, h2, h3, h4⟩

open Demo in
example : let s := PDemo.st false false false
    Spec.Dead (abs s) 9 ∧ Spec.requested PDemo.P.base (.ilist 2 [1] [4] : PCtor Nat Nat Nat) = some (2, .ilist [1] [4]) ∧
    outcome (call (alloc false false false) (plainP PDemo.P) (.make 9 (some 3) (.ilist 2 [1] [4])) (fine 200) s) = 0 ∧
    outcome (call (alloc false false false) (plainP PDemo.P) (.make 9 none (.inPlace 1 [])) (bad 200) s) = 1 ∧
    outcome (call (alloc false false false) (plainP PDemo.P) (.make 9 none (.from 2 (.rval 5))) (bad 200) s) = 1 ∧
    outcome (call (alloc false false false) (plainP PDemo.P) (.make 9 none (.from 2 (.lval 5))) (fine 200) s) = 0 := by
  decide

/-! ## C35 -/

/-- Copy assignment from a valueless object: what the target owned is released and it is valueless. -/
theorem C35_from_valueless (S : tr.Sound) (h : Reach tr P s) (hxy : x ≠ y) (hx : abs s x = some k)
    (hy : abs s y = some ⟨b, none⟩) (e : Env) :
    ∃ s', call tr (plainP P) (.assignCopy x y) e s = .ok (.self x) s' ∧
      Spec.Emptied tr (view s) (view s') x (addr s x) k.alloc (if tr.pocca then b else k.alloc) := by
  have hl : Spec.PLegal tr (abs s) (.assignCopy x y : POp L A Ty V X) := ⟨⟨_, hx⟩, _, hy⟩
  obtain ⟨t, h1, h2⟩ := C10_from_valueless (s := view s) S (h.sim S).2 hxy (by rw [abs_view]; exact hx)
    (by rw [abs_view]; exact hy) e
  obtain ⟨s', h3, rfl⟩ := h.call_ok_of S hl h1
  exact ⟨s', h3, h2⟩

/-- Copy assignment from an engaged object: the target owns a new object of the source's dynamic type, made by the copy
constructor of that type; it was complete before what the target owned was destroyed; the allocator is the source's
exactly if it propagates. -/
theorem C35_copy_assignment (S : tr.Sound) (h : Reach tr P s) (hxy : x ≠ y) (hx : abs s x = some k)
    (hy : abs s y = some ⟨b, some (ty, v)⟩) (hc : call tr (plainP P) (.assignCopy x y) e s = .ok out s') :
    out = .self x ∧ (∃ q p w, addr s y = some q ∧ P.copy ty v (e.choice 0) = .ok w ∧
      Spec.Replaced tr (view s) (view s') (view s).heap x (addr s x) k.alloc (if tr.pocca then b else k.alloc)
        (ty, w) p (.copyOf q) ∧
      abs s' = Spec.put (abs s) x ⟨if tr.pocca then b else k.alloc, some (ty, w)⟩) := by
  have hl : Spec.PLegal tr (abs s) (.assignCopy x y : POp L A Ty V X) := ⟨⟨_, hx⟩, _, hy⟩
  have hi := h.call_ok S hl hc
  obtain ⟨h1, q, p, w, h2, h3, h4⟩ := C10_copy (s := view s) S (h.sim S).2 hxy (by rw [abs_view]; exact hx)
    (by rw [abs_view]; exact hy) (by simp [PSpec.owned]) hi
  obtain ⟨h5, h6, w', h7, h8, h9⟩ := C10_copy_assignment (s := view s) S (h.sim S).2 hxy (by rw [abs_view]; exact hx)
    (by rw [abs_view]; exact hy) hi
  rcases h9 _ rfl with ⟨d, _, h, _⟩ | ⟨_, w'', h10, h11⟩
  · simp [PSpec.owned] at h
  rw [h10] at h3; cases h3
  obtain ⟨u, h12, rfl⟩ := map_ok h10
  refine ⟨h1, q, p, u, h2, h12, h4, ?_⟩
  rw [← abs_view, ← abs_view]
  funext z
  by_cases hz : z = x
  · subst hz; rw [h7, h11]; simp [Spec.put]
  · rw [h6 z hz]; simp [Spec.put, hz]

/-- The strong guarantee: if copy assignment throws, nothing has changed. -/
theorem C35_strong (S : tr.Sound) (h : Reach tr P s) (hxy : x ≠ y) (hx : abs s x = some k)
    (hy : abs s y = some l) (hc : call tr (plainP P) (.assignCopy x y) e s = .threw ex s') :
    Spec.Untouched (view s) (view s') ∧ abs s' = abs s ∧ ∃ ty v, l.val = some (ty, v) ∧
      Spec.CreateFailed tr (view s) (view s') e (view s).heap (if tr.pocca then l.alloc else k.alloc)
        ((P.copy ty v (e.choice 0)).map (ty, ·)) ex := by
  have hl : Spec.PLegal tr (abs s) (.assignCopy x y : POp L A Ty V X) := ⟨⟨_, hx⟩, _, hy⟩
  obtain ⟨h1, v, h2, h3⟩ := C11_strong (s := view s) S (h.sim S).2 hxy (by rw [abs_view]; exact hx)
    (by rw [abs_view]; exact hy) (by simp [PSpec.owned]) (h.call_threw S hl hc)
  refine ⟨h1, ?_, v.1, v.2, h2, h3⟩
  rw [← abs_view, ← abs_view]
  unfold Indirect.abs
  rw [h1.1, h1.2]

open Demo in
example : let s := PDemo.st true false false
    abs s 1 = some ⟨5, some (1, 1007)⟩ ∧ abs s 5 = some ⟨6, some (2, 2003)⟩ ∧ abs s 4 = some ⟨6, none⟩ ∧
    outcome (call (alloc true false false) (plainP PDemo.P) (.assignCopy 1 5) (fine 200) s) = 0 ∧
    outcome (call (alloc true false false) (plainP PDemo.P) (.assignCopy 1 5) (bad 200) s) = 1 ∧
    outcome (call (alloc true false false) (plainP PDemo.P) (.assignCopy 4 1) full s) = 1 := by decide

/-! ## C36 -/

/-- Move construction with a reflexive `==`: the object stays where it is and changes hands. -/
theorem C36_move_transfers (S : tr.Sound) (h : Reach tr P s) (Rf : tr.Reflexive) (hx : Spec.Dead (abs s) x)
    (hy : abs s y = some k) (e : Env) :
    ∃ s', call tr (plainP P) (.move x y) e s = .ok .unit s' ∧
      abs s' = Spec.put (Spec.put (abs s) y ⟨k.alloc, none⟩) x ⟨k.alloc, k.val⟩ ∧
      Spec.Transferred (view s) (view s') x k.alloc y k := by
  have hl : Spec.PLegal tr (abs s) (.move x y : POp L A Ty V X) := ⟨hx, _, hy⟩
  obtain ⟨t, h1, h2⟩ := C08_move_transfers (T := P.owned) (s := view s) (x := x) Rf (by rw [abs_view]; exact hx)
    (by rw [abs_view]; exact hy) e
  obtain ⟨s', h3, rfl⟩ := h.call_ok_of S hl h1
  have h4 := h2.values
  rw [abs_view, abs_view] at h4
  exact ⟨s', h3, h4, h2⟩

/-- With `is_always_equal` the same holds whatever `==` does. -/
theorem C36_move_transfers_alwaysEqual (S : tr.Sound) (h : Reach tr P s) (ha : tr.alwaysEqual = true)
    (hx : Spec.Dead (abs s) x) (hy : abs s y = some k) (e : Env) :
    ∃ s', call tr (plainP P) (.move x y) e s = .ok .unit s' ∧
      abs s' = Spec.put (Spec.put (abs s) y ⟨k.alloc, none⟩) x ⟨k.alloc, k.val⟩ ∧
      Spec.Transferred (view s) (view s') x k.alloc y k := by
  have hl : Spec.PLegal tr (abs s) (.move x y : POp L A Ty V X) := ⟨hx, _, hy⟩
  obtain ⟨t, h1, h2⟩ := C08_move_transfers_alwaysEqual (T := P.owned) (s := view s) (x := x) ha
    (by rw [abs_view]; exact hx) (by rw [abs_view]; exact hy) e
  obtain ⟨s', h3, rfl⟩ := h.call_ok_of S hl h1
  have h4 := h2.values
  rw [abs_view, abs_view] at h4
  exact ⟨s', h3, h4, h2⟩

/-- Allocator-extended move construction with an allocator that compares equal. -/
theorem C36_moveA_transfers (S : tr.Sound) (h : Reach tr P s) (hx : Spec.Dead (abs s) x) (hy : abs s y = some k)
    (hq : tr.alwaysEqual = true ∨ tr.eq a k.alloc = true) (e : Env) :
    ∃ s', call tr (plainP P) (.moveA x a y) e s = .ok .unit s' ∧
      abs s' = Spec.put (Spec.put (abs s) y ⟨k.alloc, none⟩) x ⟨a, k.val⟩ ∧
      Spec.Transferred (view s) (view s') x a y k := by
  have hl : Spec.PLegal tr (abs s) (.moveA x a y : POp L A Ty V X) := ⟨hx, _, hy⟩
  obtain ⟨t, h1, h2⟩ := C09_moveA_transfers (T := P.owned) (s := view s) (x := x) (by rw [abs_view]; exact hx)
    (by rw [abs_view]; exact hy) hq e
  obtain ⟨s', h3, rfl⟩ := h.call_ok_of S hl h1
  have h4 := h2.values
  rw [abs_view, abs_view] at h4
  exact ⟨s', h3, h4, h2⟩

/-- Allocator-extended move construction with an unequal allocator: a new object of the same dynamic type is move
constructed; the source keeps its object, moved from. -/
theorem C36_moveA_unequal (S : tr.Sound) (h : Reach tr P s) (hx : Spec.Dead (abs s) x)
    (hy : abs s y = some ⟨b, some (ty, v)⟩) (h1 : tr.alwaysEqual = false) (h2 : tr.eq a b = false)
    (hc : call tr (plainP P) (.moveA x a y) e s = .ok out s') :
    out = .unit ∧ ∃ q p w, addr s y = some q ∧ (P.move ty v (e.choice 0)).1 = .ok w ∧
      Spec.Created tr (view s) (view s') (Spec.leftWith (view s).heap q (ty, (P.move ty v (e.choice 0)).2)) x a (ty, w) p
        (.moveOf q) ∧
      abs s' = Spec.put (Spec.put (abs s) y ⟨b, some (ty, (P.move ty v (e.choice 0)).2)⟩) x ⟨a, some (ty, w)⟩ ∧
      addr s' y = some q := by
  have hl : Spec.PLegal tr (abs s) (.moveA x a y : POp L A Ty V X) := ⟨hx, _, hy⟩
  obtain ⟨h3, q, p, w, h4, h5, h6, h7, h8⟩ := C09_moveA_unequal_partial (h.sim S).2 S (by rw [abs_view]; exact hx)
    (by rw [abs_view]; exact hy) h1 h2 (h.call_ok S hl hc)
  obtain ⟨w', hw, rfl⟩ := map_ok h5
  rw [abs_view, abs_view] at h7
  exact ⟨h3, q, p, w', h4, hw, h6, h7, h8⟩

/-- The same from a valueless source: nothing is allocated, both are valueless. -/
theorem C36_moveA_valueless (S : tr.Sound) (h : Reach tr P s) (hx : Spec.Dead (abs s) x)
    (hy : abs s y = some ⟨b, none⟩) (h1 : tr.alwaysEqual = false) (h2 : tr.eq a b = false) (e : Env) :
    ∃ s', call tr (plainP P) (.moveA x a y) e s = .ok .unit s' ∧ abs s' = Spec.put (abs s) x ⟨a, none⟩ ∧
      (view s').heap = (view s).heap ∧ Spec.Silent s s' := by
  have hl : Spec.PLegal tr (abs s) (.moveA x a y : POp L A Ty V X) := ⟨hx, _, hy⟩
  obtain ⟨t, h3, h4, h5, h6⟩ := C09_moveA_valueless (T := P.owned) (h.sim S).2 S (x := x) (a := a)
    (by rw [abs_view]; exact hx) (by rw [abs_view]; exact hy) h1 h2 e
  obtain ⟨s', h7, rfl⟩ := h.call_ok_of S hl h3
  rw [abs_view, abs_view] at h4
  exact ⟨s', h7, h4, h5, h6⟩

/-- Move assignment from a valueless object. -/
theorem C36_assign_from_valueless (S : tr.Sound) (h : Reach tr P s) (hxy : x ≠ y) (hx : abs s x = some k)
    (hy : abs s y = some ⟨b, none⟩) (e : Env) :
    ∃ s', call tr (plainP P) (.assignMove x y) e s = .ok (.self x) s' ∧
      Spec.Emptied tr (view s) (view s') x (addr s x) k.alloc (if tr.pocma then b else k.alloc) := by
  have hl : Spec.PLegal tr (abs s) (.assignMove x y : POp L A Ty V X) := ⟨⟨_, hx⟩, _, hy⟩
  obtain ⟨t, h1, h2⟩ := C12_from_valueless (s := view s) S (h.sim S).2 hxy (by rw [abs_view]; exact hx)
    (by rw [abs_view]; exact hy) e
  obtain ⟨s', h3, rfl⟩ := h.call_ok_of S hl h1
  exact ⟨s', h3, h2⟩

/-- Move assignment between equal allocators: the object stays where it is and changes hands; the source is valueless;
what the target owned is released; there is no other event. -/
theorem C36_assign_equal (S : tr.Sound) (h : Reach tr P s) (hxy : x ≠ y) (hx : abs s x = some k)
    (hy : abs s y = some ⟨b, some (ty, v)⟩) (hab : tr.eq k.alloc b = true) (e : Env) :
    ∃ s', call tr (plainP P) (.assignMove x y) e s = .ok (.self x) s' ∧
      addr s' x = addr s y ∧ abs s' x = some ⟨if tr.pocma then b else k.alloc, some (ty, v)⟩ ∧
      abs s' y = some ⟨b, none⟩ ∧ (∀ z, z ≠ x → z ≠ y → s'.hs z = s.hs z) ∧
      (view s').heap = Spec.without (view s).heap (addr s x) ∧
      s'.trace = s.trace ++ Spec.released tr (addr s x) k.alloc := by
  have hl : Spec.PLegal tr (abs s) (.assignMove x y : POp L A Ty V X) := ⟨⟨_, hx⟩, _, hy⟩
  obtain ⟨t, h1, h2, h3, h4, h5⟩ := C12_equal_allocators (s := view s) S (h.sim S).2 hxy (by rw [abs_view]; exact hx)
    (by rw [abs_view]; exact hy) hab e
  obtain ⟨s', h6, rfl⟩ := h.call_ok_of S hl h1
  rw [abs_view] at h3 h4
  exact ⟨s', h6, h2, h3, h4, h5⟩

/-- Move assignment between unequal allocators: a new object of the same dynamic type is move constructed, and only then
what the target owned is released; the source keeps its object, moved from. -/
theorem C36_assign_unequal (S : tr.Sound) (h : Reach tr P s) (hxy : x ≠ y) (hx : abs s x = some k)
    (hy : abs s y = some ⟨b, some (ty, v)⟩) (hab : tr.eq k.alloc b = false)
    (hc : call tr (plainP P) (.assignMove x y) e s = .ok out s') :
    out = .self x ∧ (∃ q p w, addr s y = some q ∧ addr s' y = some q ∧ (P.move ty v (e.choice 0)).1 = .ok w ∧
      Spec.Replaced tr (view s) (view s') (Spec.leftWith (view s).heap q (ty, (P.move ty v (e.choice 0)).2)) x (addr s x)
        k.alloc (if tr.pocma then b else k.alloc) (ty, w) p (.moveOf q) ∧
      abs s' = Spec.put (Spec.put (abs s) y ⟨b, some (ty, (P.move ty v (e.choice 0)).2)⟩) x
        ⟨if tr.pocma then b else k.alloc, some (ty, w)⟩) := by
  have hl : Spec.PLegal tr (abs s) (.assignMove x y : POp L A Ty V X) := ⟨⟨_, hx⟩, _, hy⟩
  obtain ⟨h1, q, p, w, h2, h3, h4, h5, h6⟩ := C12_unequal_allocators_partial (s := view s) S (h.sim S).2 hxy
    (by rw [abs_view]; exact hx) (by rw [abs_view]; exact hy) hab (h.call_ok S hl hc)
  obtain ⟨w', hw, rfl⟩ := map_ok h4
  rw [abs_view, abs_view] at h6
  exact ⟨h1, q, p, w', h2, h3, hw, h5, h6⟩

/-- If a move assignment throws, the target is unchanged; the source can only have been changed by its own type's
move constructor, if that is what threw. -/
theorem C36_assign_throws (S : tr.Sound) (h : Reach tr P s) (hxy : x ≠ y) (hx : abs s x = some k)
    (hy : abs s y = some l) (hc : call tr (plainP P) (.assignMove x y) e s = .threw ex s') :
    tr.eq k.alloc l.alloc = false ∧ s'.hs = s.hs ∧ ∃ ty v q, l.val = some (ty, v) ∧ addr s y = some q ∧
      Spec.CreateFailed tr (view s) (view s') e (Spec.leftWith (view s).heap q (ty, (P.move ty v (e.choice 0)).2))
        (if tr.pocma then l.alloc else k.alloc) ((P.move ty v (e.choice 0)).1.map (ty, ·)) ex ∧
      abs s' = if available s e then Spec.put (abs s) y ⟨l.alloc, some (ty, (P.move ty v (e.choice 0)).2)⟩ else abs s := by
  have hl : Spec.PLegal tr (abs s) (.assignMove x y : POp L A Ty V X) := ⟨⟨_, hx⟩, _, hy⟩
  obtain ⟨h1, h2, v, q, h3, h4, h5, h6⟩ := C13_move_assignment_throws_partial (s := view s) S (h.sim S).2 hxy
    (by rw [abs_view]; exact hx) (by rw [abs_view]; exact hy) (h.call_threw S hl hc)
  rw [abs_view, abs_view, available_view] at h6
  exact ⟨h1, h2, v.1, v.2, q, h3, h4, h5, h6⟩

/-- The same for allocator-extended move construction. -/
theorem C36_moveA_throws (S : tr.Sound) (h : Reach tr P s) (hx : Spec.Dead (abs s) x)
    (hy : abs s y = some ⟨b, some (ty, v)⟩) (h1 : tr.alwaysEqual = false) (h2 : tr.eq a b = false)
    (hc : call tr (plainP P) (.moveA x a y) e s = .threw ex s') :
    ∃ q, addr s y = some q ∧ addr s' y = some q ∧
      Spec.CreateFailed tr (view s) (view s') e (Spec.leftWith (view s).heap q (ty, (P.move ty v (e.choice 0)).2)) a
        ((P.move ty v (e.choice 0)).1.map (ty, ·)) ex := by
  have hl : Spec.PLegal tr (abs s) (.moveA x a y : POp L A Ty V X) := ⟨hx, _, hy⟩
  exact C09_moveA_throws (T := P.owned) (s := view s) (by rw [abs_view]; exact hx)
    (by rw [abs_view]; exact hy) h1 h2 (h.call_threw S hl hc)

open Demo in
example : let s := PDemo.st false false false
    Spec.Dead (abs s) 9 ∧ abs s 5 = some ⟨6, some (2, 2003)⟩ ∧ (alloc false false false).alwaysEqual = false ∧
    (alloc false false false).eq 5 6 = false ∧ (alloc false false false).eq 6 6 = true ∧
    outcome (call (alloc false false false) (plainP PDemo.P) (.moveA 9 5 5) (fine 200) s) = 0 ∧
    outcome (call (alloc false false false) (plainP PDemo.P) (.moveA 9 5 5) (bad 200) s) = 1 ∧
    outcome (call (alloc false false false) (plainP PDemo.P) (.assignMove 1 5) (fine 200) s) = 0 ∧
    outcome (call (alloc false false false) (plainP PDemo.P) (.assignMove 1 5) (bad 200) s) = 1 := by decide

/-! ## C37 -/

/-- `x = x` does nothing at all. -/
theorem C37_self_copy_assign (tr : ATraits A R) (P : PSpec Ty V X) (s : St L A R (PBody Ty V)) (x : L) (e : Env) :
    ∃ s', call tr (plainP P) (.assignCopy x x) e s = .ok (.self x) s' ∧ Spec.Untouched s s' ∧ Spec.Silent s s' := by
  refine ⟨s.enter e, ?_, ⟨rfl, rfl⟩, rfl⟩
  simp [call, step, assignCopy]

/-- `x = std::move(x)` does nothing at all. -/
theorem C37_self_move_assign (tr : ATraits A R) (P : PSpec Ty V X) (s : St L A R (PBody Ty V)) (x : L) (e : Env) :
    ∃ s', call tr (plainP P) (.assignMove x x) e s = .ok (.self x) s' ∧ Spec.Untouched s s' ∧ Spec.Silent s s' := by
  refine ⟨s.enter e, ?_, ⟨rfl, rfl⟩, rfl⟩
  simp [call, step, assignMove, M.bind_eq, M.noexceptIf]

/-- `x.swap(x)`, if legal (it is for every allocator with a reflexive `==`), does nothing. -/
theorem C37_self_swap (S : tr.Sound) (h : Reach tr P s) (hl : Spec.PLegal tr (abs s) (.swap x x : POp L A Ty V X))
    (e : Env) :
    ∃ s', call tr (plainP P) (.swap x x) e s = .ok .unit s' ∧ Spec.Untouched (view s) (view s') ∧ Spec.Silent s s' := by
  obtain ⟨t, h1, h2, h3⟩ := C14_self_swap (T := P.owned) (legal_view hl) e
  obtain ⟨s', h4, rfl⟩ := h.call_ok_of S hl h1
  exact ⟨s', h4, h2, h3⟩

/-- A legal swap exchanges the owned objects by address, and the allocators exactly if they propagate; no storage, no
owned object, no other `polymorphic` and no allocator is involved. -/
theorem C37_swap (S : tr.Sound) (h : Reach tr P s) (hx : abs s x = some k) (hy : abs s y = some l) (hxy : x ≠ y)
    (hq : tr.pocs = true ∨ tr.eq k.alloc l.alloc = true) (e : Env) :
    ∃ s', call tr (plainP P) (.swap x y) e s = .ok .unit s' ∧
      addr s' x = addr s y ∧ addr s' y = addr s x ∧
      abs s' x = some ⟨if tr.pocs then l.alloc else k.alloc, l.val⟩ ∧
      abs s' y = some ⟨if tr.pocs then k.alloc else l.alloc, k.val⟩ ∧
      (∀ z, z ≠ x → z ≠ y → s'.hs z = s.hs z) ∧ (view s').heap = (view s).heap ∧ Spec.Silent s s' := by
  have hl : Spec.PLegal tr (abs s) (.swap x y : POp L A Ty V X) := ⟨_, _, hx, hy, hq⟩
  obtain ⟨t, h1, h2, h3, h4, h5, h6⟩ := C15_swap (T := P.owned) (s := view s) (by rw [abs_view]; exact hx)
    (by rw [abs_view]; exact hy) hxy hq e
  obtain ⟨s', h7, rfl⟩ := h.call_ok_of S hl h1
  rw [abs_view] at h4 h5
  exact ⟨s', h7, h2, h3, h4, h5, h6⟩

/-- The free function does the same as the member. -/
theorem C37_friend_swap (tr : ATraits A R) (P : PSpec Ty V X) (x y : L) (e : Env) (s : St L A R (PBody Ty V)) :
    call tr (plainP P) (.friendSwap x y) e s = call tr (plainP P) (.swap x y) e s := by
  simp only [call, step, friendSwap, swap]
  rw [Indirect.noexceptIf_idem]

/-- A swap whose precondition is violated is undefined behaviour. -/
theorem C37_swap_undefined (hx : abs s x = some k) (hy : abs s y = some l)
    (h1 : tr.pocs = false) (h2 : tr.eq k.alloc l.alloc = false) (e : Env) :
    ∃ u, call tr (plainP P) (.swap x y) e s = .ub u := by
  cases hs : s.hs x with
  | none => simp [abs, absWith, hs] at hx
  | some t =>
    cases ho : s.hs y with
    | none => simp [abs, absWith, ho] at hy
    | some u =>
      have ha : k.alloc = t.alloc := by simp only [abs, absWith, hs] at hx; injection hx with hx; rw [← hx]
      have hb : l.alloc = u.alloc := by simp only [abs, absWith, ho] at hy; injection hy with hy; rw [← hy]
      rw [ha, hb] at h2
      refine ⟨.unreachable, ?_⟩
      simp only [call, step, swap, getH, M.bind_eq, M.noexceptIf, St.enter, hs, ho, h1, h2, M.undef, Bool.false_or]
      cases tr.alwaysEqual <;> simp

open Demo in
example : let s := PDemo.st false false true
    abs s 1 = some ⟨5, some (1, 1007)⟩ ∧ abs s 5 = some ⟨6, some (2, 2003)⟩ ∧ (alloc false false true).pocs = true := by
  decide
open Demo in
example : Spec.PLegal (alloc false false false) (abs PDemo.s0) (.swap 1 1 : POp Nat Nat Nat Nat Nat) := by decide

/-! ## C38 -/

/-- `*x` on an engaged object is the object it owns; on a valueless object (or one that does not exist) it is
undefined. -/
theorem C38_deref (S : tr.Sound) (h : Reach tr P s) (x : L) (e : Env) :
    (∀ v, Spec.valueOf (abs s) x = some v →
      ∃ s', call tr (plainP P) (.deref x) e s = .ok (.value v) s' ∧ Spec.Untouched (view s) (view s') ∧ Spec.Silent s s') ∧
    (Spec.valueOf (abs s) x = none → ∃ u, call tr (plainP P) (.deref x) e s = .ub u) := by
  constructor
  · intro v hv
    have hl : Spec.PLegal tr (abs s) (.deref x : POp L A Ty V X) := ⟨v, hv⟩
    obtain ⟨t, h1, h2, h3⟩ := (C20_deref S (h.sim S).2 x e).1 v (by rw [abs_view]; exact hv)
    obtain ⟨s', h4, rfl⟩ := h.call_ok_of S hl h1
    exact ⟨s', h4, h2, h3⟩
  · intro hv
    cases hk : s.hs x with
    | none => exact ⟨_, by simp only [call, step, deref, derefCB, getH, M.bind_eq, St.enter, hk, M.undef]; rfl⟩
    | some k =>
      cases hp : k.p with
      | none => exact ⟨_, by simp only [call, step, deref, derefCB, getH, M.bind_eq, St.enter, hk, hp, M.undef]; rfl⟩
      | some p =>
        obtain ⟨r, ty, v, hh⟩ := full_of (h.sim S).1 ((h.sim S).2.inv S) x k p hk hp
        simp [Spec.valueOf, abs, absWith, hk, hp, hh] at hv

/-- `operator->` refers to the very same object as `operator*`, and neither looks at or changes anything else. -/
theorem C38_same_object (S : tr.Sound) (h : Reach tr P s) {p : Addr} (hp : addr s x = some p) :
    Polymorphic.deref x s = .ok p s ∧ Polymorphic.arrow x s = .ok p s := by
  cases hk : s.hs x with
  | none => simp [addr, hk] at hp
  | some k =>
    have hkp : k.p = some p := by simpa [addr, hk] using hp
    obtain ⟨r, ty, v, hh⟩ := full_of (h.sim S).1 ((h.sim S).2.inv S) x k p hk hkp
    constructor <;>
      simp [Polymorphic.deref, Polymorphic.arrow, derefCB, readCB, readBody, getH, M.bind_eq, hk, hkp, hh, M.pure_eq]

/-- Access through `operator->`. -/
theorem C38_arrow (tr : ATraits A R) (P : PSpec Ty V X) (s : St L A R (PBody Ty V)) (x : L) (e : Env) :
    call tr (plainP P) (.arrow x) e s = call tr (plainP P) (.deref x) e s := rfl

/-- `valueless_after_move` tells exactly whether the object owns something. -/
theorem C38_valueless (S : tr.Sound) (h : Reach tr P s) (hx : abs s x = some k) (e : Env) :
    ∃ s', call tr (plainP P) (.valueless x) e s = .ok (.bool k.val.isNone) s' ∧ Spec.Untouched (view s) (view s') ∧
      Spec.Silent s s' := by
  have hl : Spec.PLegal tr (abs s) (.valueless x : POp L A Ty V X) := ⟨k, hx⟩
  obtain ⟨t, h1, h2, h3⟩ := C20_valueless (s := view s) S (h.sim S).2 (by rw [abs_view]; exact hx) e
  obtain ⟨s', h4, rfl⟩ := h.call_ok_of S hl h1
  exact ⟨s', h4, h2, h3⟩

/-- A write through the object changes its value and nothing else; its dynamic type and address stay. -/
theorem C38_write (S : tr.Sound) (h : Reach tr P s) (hx : abs s x = some ⟨a, some (ty, v)⟩) (f : Ty → V → V) (e : Env) :
    ∃ s', call tr (plainP P) (.modify x f) e s = .ok .unit s' ∧
      abs s' = Spec.put (abs s) x ⟨a, some (ty, f ty v)⟩ ∧ s'.hs = s.hs ∧
      (∀ q, addr s x ≠ some q → (view s').heap q = (view s).heap q) ∧ Spec.Silent s s' := by
  have hl : Spec.PLegal tr (abs s) (.modify x f : POp L A Ty V X) := ⟨(ty, v), by simp [Spec.valueOf, hx]⟩
  obtain ⟨t, h1, h2, h3⟩ := C20_write (s := view s) S (h.sim S).2 (by rw [abs_view]; exact hx)
    (fun v => (v.1, f v.1 v.2)) e
  obtain ⟨s', h4, rfl⟩ := h.call_ok_of S hl h1
  rw [abs_view, abs_view] at h2
  exact ⟨s', h4, h2, h3⟩

/-- A call that does not create, destroy, assign to, move from or swap `z` leaves its members alone. -/
theorem C38_call_keeps_reference (S : tr.Sound) (h : Reach tr P s) (hl : Spec.PLegal tr (abs s) o)
    (hz : z ∉ Spec.prebinds o)
    (hc : (∃ out, call tr (plainP P) o e s = .ok out s') ∨ (∃ ex, call tr (plainP P) o e s = .threw ex s')) :
    s'.hs z = s.hs z :=
  C54_call_keeps_reference (s := view s) (s' := view s') (by rw [rebinds_toOp]; exact hz)
    (hc.imp (fun ⟨_, h'⟩ => ⟨_, h.call_ok S hl h'⟩) (fun ⟨_, h'⟩ => ⟨_, h.call_threw S hl h'⟩))

/-- What holds of single calls holds of histories. -/
theorem phistory_rel {Rel : St L A R (PBody Ty V) → St L A R (PBody Ty V) → Prop} {ok : POp L A Ty V X → Prop}
    (h0 : ∀ s, Rel s s) (h1 : ∀ s₁ s₂ s₃, Rel s₁ s₂ → Rel s₂ s₃ → Rel s₁ s₃)
    (h2 : ∀ s s' o e, Reach tr P s → Spec.PLegal tr (abs s) o → ok o →
      (∃ out, call tr (plainP P) o e s = .ok out s') ∨ (∃ ex, call tr (plainP P) o e s = .threw ex s') → Rel s s')
    (h : Reach tr P s) {cs : List (POp L A Ty V X × Env)} {log : List (Seen (Out L A (Ty × V)))}
    (hl : LegalRun tr P cs s) (hz : ∀ c ∈ cs, ok c.1) (hr : run tr P cs s = .done log s') : Rel s s' := by
  induction cs generalizing s log with
  | nil => simp [Polymorphic.run, runWith] at hr; rw [← hr.2]; exact h0 _
  | cons c cs ih =>
    simp only [Polymorphic.run, runWith, LegalRun, LegalWith] at hr hl
    obtain ⟨h3, h4⟩ := hl
    have hz1 : ∀ c ∈ cs, ok c.1 := fun c hc => hz c (by simp [hc])
    cases hc : call tr (plainP P) c.1 c.2 s with
    | ok out s₁ =>
      simp only [hc] at hr h4
      cases hd : runWith (fun c s => call tr (plainP P) c.1 c.2 s) cs s₁ <;> rw [hd] at hr <;>
        simp [Run.cons] at hr
      obtain ⟨_, rfl⟩ := hr
      exact h1 _ _ _ (h2 _ _ _ _ h h3 (hz c (by simp)) (.inl ⟨_, hc⟩)) (ih (.ret _ _ _ h h3 hc) h4 hz1 hd)
    | threw x s₁ =>
      simp only [hc] at hr h4
      cases hd : runWith (fun c s => call tr (plainP P) c.1 c.2 s) cs s₁ <;> rw [hd] at hr <;>
        simp [Run.cons] at hr
      obtain ⟨_, rfl⟩ := hr
      exact h1 _ _ _ (h2 _ _ _ _ h h3 (hz c (by simp)) (.inr ⟨_, hc⟩)) (ih (.threw _ _ _ h h3 hc) h4 hz1 hd)
    | terminated => simp [hc] at hr
    | ub u => simp [hc] at hr
    | diverged => simp [hc] at hr

/-- The dynamic type of what `z` owns. -/
def typeOf (s : St L A R (PBody Ty V)) (z : L) : Option Ty := (Spec.valueOf (abs s) z).map (·.1)

/-- Such a call does not change the dynamic type of `*z` either. -/
theorem C38_call_keeps_type (S : tr.Sound) (h : Reach tr P s) (hl : Spec.PLegal tr (abs s) o)
    (hz : z ∉ Spec.prebinds o)
    (hc : (∃ out, call tr (plainP P) o e s = .ok out s') ∨ (∃ ex, call tr (plainP P) o e s = .threw ex s')) :
    typeOf s' z = typeOf s z := by
  by_cases hz' : z ∈ Spec.pchanges o
  · cases o with
    | modify x f =>
      simp [Spec.pchanges, Spec.prebinds, Spec.pmovedFrom] at hz'
      subst hz'
      obtain ⟨⟨ty, v⟩, hv⟩ := hl
      cases hb : abs s z with
      | none => simp [Spec.valueOf, hb] at hv
      | some k =>
        rcases k with ⟨a, w⟩
        have : w = some (ty, v) := by simpa [Spec.valueOf, hb] using hv
        subst this
        obtain ⟨t, h1, h2, _⟩ := C38_write S h hb f e
        rcases hc with ⟨_, hc⟩ | ⟨_, hc⟩ <;> rw [h1] at hc <;> cases hc
        simp [typeOf, Spec.valueOf, h2, hb, Spec.put]
    | make x oa c =>
      cases c with
      | «from» ty u =>
        cases u with
        | rval y =>
          simp [Spec.pchanges, Spec.prebinds, Spec.pmovedFrom] at hz' hz
          rcases hz' with hz' | hz'
          · exact absurd hz' hz
          subst hz'
          obtain ⟨v, hv⟩ := hl.2
          have hm : ∀ r : Spec.Result L A (Ty × V), Spec.pstep tr P (available s e) (e.choice 0) (abs s)
              (.make x oa (.from ty (.rval z))) = r → ∀ σ, (∃ out, r = .ret out σ) ∨ (∃ ex, r = .threw ex σ) →
              (Spec.valueOf σ z).map (·.1) = (Spec.valueOf (abs s) z).map (·.1) := by
            intro r hr σ hσ
            have hset : ∀ w : Ty × V, w.1 = ty → (Spec.valueOf (Spec.setVal (abs s) z (some w)) z).map (·.1) =
                (Spec.valueOf (abs s) z).map (·.1) := by
              intro w hw
              rw [hv]
              cases hb : abs s z with
              | none => simp [Spec.valueOf, hb] at hv
              | some k => simp [Spec.valueOf, Spec.setVal, hb, hw]
            simp only [Spec.pstep, Spec.pbuildCtor, Spec.buildFrom, hv] at hr
            subst hr
            have hput : ∀ (τ : Spec.Boxes L A (Ty × V)) b, Spec.valueOf (Spec.put τ x b) z = Spec.valueOf τ z := by
              intro τ b; simp [Spec.valueOf, Spec.put, hz]
            cases hav : available s e <;> simp only [hav, if_true, if_false, Bool.false_eq_true] at hσ
            · simp [Spec.store, Spec.build] at hσ
              rw [← hσ]
            · cases hmv : (P.owned.move (ty, v) (e.choice 0)).1 <;>
                simp [Spec.store, Spec.build, hmv] at hσ
              · rw [← hσ]; exact hset _ rfl
              · rw [← hσ, hput]; exact hset _ rfl
          have hq := C40_call_is_value_call S h hl e
          rcases hc with ⟨_, hc⟩ | ⟨_, hc⟩ <;> rw [hc] at hq
          · exact hm _ hq _ (.inl ⟨_, rfl⟩)
          · exact hm _ hq _ (.inr ⟨_, rfl⟩)
        | _ => exact absurd hz' (by simpa [Spec.pchanges, Spec.pmovedFrom] using hz)
      | _ => exact absurd hz' (by simpa [Spec.pchanges, Spec.pmovedFrom] using hz)
    | _ => exact absurd hz' (by simp_all [Spec.pchanges, Spec.pmovedFrom, Spec.prebinds])
  · have := C54_call_keeps_value (z := z) (s' := view s') S (h.sim S).2 (legal_view hl) (by rw [changes_toOp]; exact hz')
      (hc.imp (fun ⟨_, h'⟩ => ⟨_, h.call_ok S hl h'⟩) (fun ⟨_, h'⟩ => ⟨_, h.call_threw S hl h'⟩))
    rw [abs_view, abs_view] at this
    simp [typeOf, Spec.valueOf, this.1]

/-- A reference to `*z` stays valid for as long as `z` is not assigned to, moved from, swapped or destroyed: whatever
else happens in between, `*z` is at the same address and an object of the same dynamic type is alive there. -/
theorem C38_reference_valid (S : tr.Sound) (h : Reach tr P s) {cs : List (POp L A Ty V X × Env)}
    {log : List (Seen (Out L A (Ty × V)))} (hl : LegalRun tr P cs s) (hz : ∀ c ∈ cs, z ∉ Spec.prebinds c.1)
    (hr : run tr P cs s = .done log s') {p : Addr} (hp : addr s z = some p) :
    addr s' z = some p ∧ ∃ r ty v w, s'.heap p = some ⟨r, some ⟨ty, some p, some v⟩⟩ ∧
      Spec.valueOf (abs s') z = some (ty, v) ∧ Spec.valueOf (abs s) z = some (ty, w) := by
  have h1 : s'.hs z = s.hs z ∧ typeOf s' z = typeOf s z :=
    phistory_rel (Rel := fun s s' => s'.hs z = s.hs z ∧ typeOf s' z = typeOf s z) (ok := fun o => z ∉ Spec.prebinds o)
      (fun _ => ⟨rfl, rfl⟩) (fun _ _ _ a b => ⟨b.1.trans a.1, b.2.trans a.2⟩)
      (fun _ _ _ _ h hl hz hc => ⟨C38_call_keeps_reference S h hl hz hc, C38_call_keeps_type S h hl hz hc⟩) h hl hz hr
  have h2 : addr s' z = some p := by simpa [addr, h1.1] using hp
  obtain ⟨r, ty, v, h3, h4⟩ := C31_control_blocks_complete S (Reach.run h hl hr) h2
  obtain ⟨_, ty', w, _, h5⟩ := C31_control_blocks_complete S h hp
  have : ty = ty' := by simpa [typeOf, h4, h5] using h1.2
  subst this
  exact ⟨h2, r, ty, v, w, h3, h4, h5⟩

/-- No history that does not change `z` or `*z` affects them: copying from `z`, looking at `*z`, and whatever is done to
other objects. -/
theorem C38_history_keeps_value (S : tr.Sound) (h : Reach tr P s) {cs : List (POp L A Ty V X × Env)}
    {log : List (Seen (Out L A (Ty × V)))} (hl : LegalRun tr P cs s) (hz : ∀ c ∈ cs, z ∉ Spec.pchanges c.1)
    (hr : run tr P cs s = .done log s') : abs s' z = abs s z ∧ addr s' z = addr s z := by
  obtain ⟨h1, h2⟩ := run_sim S h hl
  rw [hr] at h1
  cases hi : Indirect.run tr P.owned (toOps cs) (view s) <;> rw [hi] at h1 <;> simp only [HSim] at h1
  obtain ⟨rfl, rfl⟩ := h1
  have := C54_history_keeps_value (z := z) S (h.sim S).2 h2 (by
    intro c hc
    obtain ⟨c', hc', rfl⟩ := List.mem_map.1 hc
    rw [changes_toOp]
    exact hz c' hc') hi
  rwa [abs_view, abs_view] at this

open Demo in
example : let cs : PDemo.Hist := [(.copy 9 1, fine 110), (.modify 1 (fun _ v => v + 1), fine 0),
      (.make 8 none (.from 1 (.rval 1)), bad 111), (.assignCopy 2 1, fine 112), (.destroy 9, full)]
    LegalRun (alloc true false false) PDemo.P cs (PDemo.st true false false) ∧ (∀ c ∈ cs, 1 ∉ Spec.prebinds c.1) ∧
    addr (PDemo.st true false false) 1 = some 100 := by decide

open Demo in
example : let cs : PDemo.Hist := [(.copy 9 1, fine 110), (.deref 1, fine 0), (.assignCopy 2 1, fine 112), (.destroy 9, full)]
    LegalRun (alloc true false false) PDemo.P cs (PDemo.st true false false) ∧ (∀ c ∈ cs, 1 ∉ Spec.pchanges c.1) := by
  decide

/-- Destruction: the object is destroyed and then its storage is returned to the resource of the allocator; nothing
else happens. -/
theorem C38_destroy_engaged (S : tr.Sound) (h : Reach tr P s) (hx : abs s x = some ⟨a, some (ty, v)⟩) (e : Env) :
    ∃ s' p, call tr (plainP P) (.destroy x) e s = .ok .unit s' ∧ addr s x = some p ∧
      s'.trace = s.trace ++ [.destroy p, .dealloc (tr.res a) p] ∧
      s'.hs x = none ∧ (∀ z, z ≠ x → s'.hs z = s.hs z) ∧
      s'.heap p = none ∧ (∀ q, q ≠ p → (view s').heap q = (view s).heap q) ∧ abs s' = Spec.drop (abs s) x := by
  have hl : Spec.PLegal tr (abs s) (.destroy x : POp L A Ty V X) := ⟨_, hx⟩
  obtain ⟨t, p, h1, h2, h3, h4, h5, h6, h7, h8⟩ := C21_destroy_engaged (s := view s) S (h.sim S).2
    (by rw [abs_view]; exact hx) e
  obtain ⟨s', h9, rfl⟩ := h.call_ok_of S hl h1
  rw [abs_view, abs_view] at h8
  exact ⟨s', p, h9, h2, h3, h4, h5, by simpa [view] using h6, h7, h8⟩

end
end Verif.Props
