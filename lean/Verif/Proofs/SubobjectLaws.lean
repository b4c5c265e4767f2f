import Verif.Proofs.Subobject

/-!
# Base class subobjects: forgetting offsets, types that own nothing, and histories
-/

set_option autoImplicit false
set_option linter.unusedSectionVars false
set_option linter.unusedSimpArgs false

namespace Verif.SubobjectProofs
open Verif Verif.Spec.Subobject
open Verif.Spec.Opaque (AlikeCell)
open Verif.Subobject (Classes Ptr SCB SBody plainS)

section
variable {L A R Ty V X α : Type} [DecidableEq L] [DecidableEq R] [DecidableEq Ty] {tr : ATraits A R} {C : Classes Ty}

theorem St.ext' {B : Type} {s s' : St L A R B} (h1 : s.hs = s'.hs) (h2 : s.heap = s'.heap) (h3 : s.trace = s'.trace) (h4 : s.env = s'.env) (h5 : s.ai = s'.ai) (h6 : s.ti = s'.ti) : s = s' := by
  cases s
  cases s'
  simp_all

/-- The relation of the proofs is: offsets forgotten, and pointers to the right place. -/
theorem alike_iff {s : St L A R (SBody Ty V)} {s' : St L A R (PBody Ty V)} : Alike (CBRel C) s s' ↔ s' = erase s ∧ Placed C s := by
  constructor
  · intro h
    refine ⟨St.ext' h.hs.symm ?_ h.trace.symm h.env.symm h.ai.symm h.ti.symm, ?_⟩
    · funext q
      show _ = (s.heap q).map _
      rcases cells h q with ⟨h1, h2⟩ | ⟨r, b, b', h1, h2, hb⟩
      · rw [h1, h2]; rfl
      · rw [h1, h2]
        cases b <;> cases b' <;> first | exact hb.elim | rfl | skip
        rename_i c c'
        obtain ⟨ty, p, u⟩ := c
        obtain ⟨ty', p', u'⟩ := c'
        obtain ⟨ht, hp, hu⟩ := hb
        cases ht
        cases hu
        cases p <;> cases p' <;> first | exact hp.elim | rfl | skip
        obtain ⟨e1, e2⟩ := hp
        dsimp only at e1
        subst e1
        subst e2
        rfl
    · intro q r ty t u hq
      rcases cells h q with ⟨h1, _⟩ | ⟨r, b, b', h1, h2, hb⟩
      · rw [hq] at h1; cases h1
      · rw [hq] at h1
        cases h1
        cases b' with
        | none => exact hb.elim
        | some c' =>
          obtain ⟨ty', p', u'⟩ := c'
          obtain ⟨ht, hp, hu⟩ := hb
          cases p' with
          | none => exact hp.elim
          | some p' => exact hp.1
  · rintro ⟨rfl, hp⟩
    refine ⟨rfl, fun q => ?_, rfl, rfl, rfl, rfl⟩
    show AlikeCell _ (s.heap q) ((s.heap q).map _)
    cases hq : s.heap q with
    | none => exact trivial
    | some c =>
      obtain ⟨r, b⟩ := c
      refine ⟨rfl, ?_⟩
      cases b with
      | none => exact trivial
      | some c =>
        obtain ⟨ty, p, u⟩ := c
        refine ⟨rfl, ?_, rfl⟩
        cases p with
        | none => exact trivial
        | some t =>
          have := hp q r ty t u hq
          exact ⟨this, by subst this; rfl⟩

theorem res_iff {m : Res (St L A R (SBody Ty V)) α} {m' : Res (St L A R (PBody Ty V)) α} : AlikeRes (CBRel C) Eq m m' ↔ eraseRes m = m' ∧ PlacedRes C m := by
  cases m <;> cases m' <;> simp [AlikeRes, eraseRes, PlacedRes, alike_iff, eq_comm, and_assoc]

theorem same_iff {m : M (St L A R (SBody Ty V)) α} {m' : M (St L A R (PBody Ty V)) α} : AlikeM (CBRel C) Eq m m' ↔ Same C m m' := by
  constructor
  · exact fun h s hs => res_iff.1 (h s (erase s) (alike_iff.2 ⟨rfl, hs⟩))
  · intro h s s' hs
    obtain ⟨rfl, hp⟩ := alike_iff.1 hs
    exact res_iff.2 (h s hp)

theorem objects_iff {P : POps (St L A R (SBody Ty V)) A Ty X} {P' : POps (St L A R (PBody Ty V)) A Ty X} : AlikeP C P P' ↔ Objects C P P' :=
  ⟨fun h => ⟨h.base, fun _ _ _ _ => same_iff.1 (h.make _ _ _ _), fun _ _ _ _ => same_iff.1 (h.copyCtor _ _ _ _), fun _ _ _ _ => same_iff.1 (h.moveCtor _ _ _ _),
    fun _ _ _ => same_iff.1 (h.dtor _ _ _), fun _ _ _ _ k => same_iff.1 (h.block _ _ _ _ (same_iff.2 k)), h.made, h.copied, h.moved⟩,
   fun h => ⟨h.base, fun _ _ _ _ => same_iff.2 (h.make _ _ _ _), fun _ _ _ _ => same_iff.2 (h.copyCtor _ _ _ _), fun _ _ _ _ => same_iff.2 (h.moveCtor _ _ _ _),
    fun _ _ _ => same_iff.2 (h.dtor _ _ _), fun _ _ _ _ k => same_iff.2 (h.block _ _ _ _ (same_iff.1 k)), h.made, h.copied, h.moved⟩⟩

theorem beginU_rel (ty : Ty) (p : Addr) (how : How) (v : V) : AlikeM (L := L) (A := A) (R := R) (CBRel C) Eq (Subobject.beginU ty p v how) (beginU ty p v how) := by
  intro s s' hs
  unfold beginU Subobject.beginU
  rcases cells hs p with ⟨h1, h2⟩ | ⟨r, b, b', h1, h2, hb⟩
  · rw [h1, h2]; exact rfl
  · rw [h1, h2]
    cases b <;> cases b' <;> first | exact hb.elim | exact rfl | skip
    rename_i c c'
    obtain ⟨t, q, u⟩ := c
    obtain ⟨t', q', u'⟩ := c'
    obtain ⟨ht, hq, hu⟩ := hb
    cases ht
    cases hu
    cases u
    · simp only
      by_cases e : t = ty
      · rw [if_pos e, if_pos e]
        exact ⟨rfl, { hs with heap := upd_heap hs.heap _ ⟨rfl, rfl, hq, rfl⟩, trace := congrArg (· ++ [.construct p how]) hs.trace }⟩
      · rw [if_neg e, if_neg e]; exact rfl
    · exact rfl

theorem finishU_rel (ty : Ty) (p : Addr) (how : How) (x : Except Exn V) : AlikeM (L := L) (A := A) (R := R) (CBRel C) Eq (Subobject.finishU ty p how x) (finishU ty p how x) := by
  cases x
  · exact cbRel.throwE _
  · exact beginU_rel ty p how _

/-- A constructor that returns has made an object. -/
theorem finishU_alive {ty : Ty} {p : Addr} {how : How} {x : Except Exn V} {s s' : St L A R (SBody Ty V)} (h : Subobject.finishU ty p how x s = .ok () s') : Alive ty p s' := by
  cases x with
  | error e => cases h
  | ok v =>
    simp only [Subobject.finishU, Subobject.beginU] at h
    split at h
    · split at h
      · rename_i e
        cases h
        exact ⟨_, _, v, by rw [e]; exact if_pos rfl⟩
      · cases h
    · cases h

theorem bind_inv {σ α β : Type} {m : M σ α} {f : α → M σ β} {s s' : σ} {b : β} (h : (m >>= f) s = .ok b s') : ∃ a t, m s = .ok a t ∧ f a t = .ok b s' := by
  replace h : M.andThen m f s = .ok b s' := h
  unfold M.andThen at h
  cases hm : m s <;> rw [hm] at h <;> first | exact ⟨_, _, rfl, h⟩ | cases h

/-- Types that own nothing. -/
theorem plain_alike (P : PSpec Ty V X) : AlikeP (L := L) (A := A) (R := R) C (plainS P) (plainP P) where
  base := rfl
  make ty a d xs := cbRel.bind cbRel.choose fun c => finishU_rel _ _ _ _
  copyCtor ty a d q := cbRel.bind (readU_rel cbRel ty q) fun v => cbRel.bind cbRel.choose fun c => finishU_rel _ _ _ _
  moveCtor ty a d q := cbRel.bind (readU_rel cbRel ty q) fun v => cbRel.bind cbRel.choose fun c => cbRel.bind (writeU_rel cbRel q _) fun _ => finishU_rel _ _ _ _
  dtor ty a p := cbRel.bind (readU_rel cbRel ty p) fun _ => cbRel.bindR (readCB_rel cbRel p) fun c c' h =>
    cbRel.bind (cbRel.writeBody p (b := some { c with u := none }) (b' := some { c' with u := none }) ⟨h.1, h.2.1, rfl⟩) fun _ => cbRel.emit _
  block a q m m' h := h
  made ty a d xs s s' h := by
    obtain ⟨_, _, _, h⟩ := bind_inv h
    exact finishU_alive h
  copied ty a d q s s' h := by
    obtain ⟨_, _, _, h⟩ := bind_inv h
    obtain ⟨_, _, _, h⟩ := bind_inv h
    exact finishU_alive h
  moved ty a d q s s' h := by
    obtain ⟨_, _, _, h⟩ := bind_inv h
    obtain ⟨_, _, _, h⟩ := bind_inv h
    obtain ⟨_, _, _, h⟩ := bind_inv h
    exact finishU_alive h

/-! ## Histories -/

theorem placed_init : Placed C (St.init : St L A R (SBody Ty V)) := fun _ _ _ _ _ h => by cases h

theorem erase_init : erase (St.init : St L A R (SBody Ty V)) = St.init := rfl

theorem placed_enter {s : St L A R (SBody Ty V)} (h : Placed C s) (e : Env) : Placed C (s.enter e) := h

theorem erase_enter (s : St L A R (SBody Ty V)) (e : Env) : erase (s.enter e) = (erase s).enter e := rfl

theorem erase_cons {O : Type} (o : Seen O) (r : Run (St L A R (SBody Ty V)) O) : eraseRun (r.cons o) = (eraseRun r).cons o := by cases r <;> rfl

/-- What holds of calls holds of histories. -/
theorem run_same {D O : Type} {call : D → St L A R (SBody Ty V) → Res (St L A R (SBody Ty V)) O} {call' : D → St L A R (PBody Ty V) → Res (St L A R (PBody Ty V)) O}
    {legal : St L A R (PBody Ty V) → D → Prop} (h : ∀ c s, Placed C s → eraseRes (call c s) = call' c (erase s) ∧ PlacedRes C (call c s)) (cs : List D) :
    ∀ s, Placed C s → eraseRun (runWith call cs s) = runWith call' cs (erase s) ∧ (∀ log s', runWith call cs s = .done log s' → Placed C s') ∧
      (LegalWith call (fun s => legal (erase s)) cs s ↔ LegalWith call' legal cs (erase s)) := by
  induction cs with
  | nil => exact fun s hs => ⟨rfl, fun log s' e => by cases e; exact hs, .rfl⟩
  | cons c cs ih =>
    intro s hs
    obtain ⟨h1, h2⟩ := h c s hs
    have key (o : Seen O) (t : St L A R (SBody Ty V)) (ht : Placed C t) :
        eraseRun ((runWith call cs t).cons o) = (runWith call' cs (erase t)).cons o ∧ ∀ log s', (runWith call cs t).cons o = .done log s' → Placed C s' := by
      refine ⟨by rw [erase_cons, (ih t ht).1], fun log s' e => ?_⟩
      cases hr : runWith call cs t <;> rw [hr] at e <;> first | cases e | skip
      exact (ih t ht).2.1 _ _ hr
    simp only [runWith, LegalWith, ← h1]
    cases hc : call c s with
    | ok o t =>
      rw [hc] at h2
      exact ⟨(key _ t h2).1, (key _ t h2).2, and_congr_right fun _ => (ih t h2).2.2⟩
    | threw x t =>
      rw [hc] at h2
      exact ⟨(key _ t h2).1, (key _ t h2).2, and_congr_right fun _ => (ih t h2).2.2⟩
    | terminated => exact ⟨rfl, fun _ _ e => (by cases e), .rfl⟩
    | ub u => exact ⟨rfl, fun _ _ e => (by cases e), .rfl⟩
    | diverged => exact ⟨rfl, fun _ _ e => (by cases e), .rfl⟩

theorem call_same (P : PSpec Ty V X) (o : POp L A Ty V X) (e : Env) {s : St L A R (SBody Ty V)} (hs : Placed C s) :
    eraseRes (Subobject.Polymorphic.call C tr (plainS P) o e s) = Polymorphic.call tr (plainP P) o e (erase s) ∧ PlacedRes C (Subobject.Polymorphic.call C tr (plainS P) o e s) :=
  same_iff.1 (stepP_rel cbRel (plain_alike P) o) (s.enter e) (placed_enter hs e)

theorem call_same14 (P : PSpec Ty V X) (o : POp L A Ty V X) (e : Env) {s : St L A R (SBody Ty V)} (hs : Placed C s) :
    eraseRes (Subobject.Polymorphic14.call C tr (plainS P) o e s) = Polymorphic14.call tr (plainP P) o e (erase s) ∧ PlacedRes C (Subobject.Polymorphic14.call C tr (plainS P) o e s) :=
  same_iff.1 (stepP14_rel cbRel (plain_alike P) o) (s.enter e) (placed_enter hs e)

/-! ## The pointer that `operator*` returns -/

/-- What `operator*` and `operator->` return when the control block is complete. -/
theorem deref_at {s : St L A R (SBody Ty V)} {x : L} {q : Addr} {r : R} {ty : Ty} {t : Ptr} {u : Option V} (hx : addr s x = some q) (hq : s.heap q = some ⟨r, some ⟨ty, some t, u⟩⟩) :
    Subobject.Polymorphic.deref x s = .ok t s ∧ Subobject.Polymorphic.arrow x s = .ok t s := by
  cases hk : s.hs x with
  | none => simp [addr, hk] at hx
  | some k =>
    have hp : k.p = some q := by simpa [addr, hk] using hx
    constructor <;>
      simp [-bind_pure_comp, Subobject.Polymorphic.deref, Subobject.Polymorphic.arrow, Subobject.Polymorphic.derefCB, getH, Subobject.readCB, readBody, M.bind_eq, M.andThen, M.undef, M.pure_eq, hk, hp, hq]

/-- `operator*` needs an owned block. -/
theorem deref_owns {s s' : St L A R (SBody Ty V)} {x : L} {t : Ptr} (h : Subobject.Polymorphic.deref x s = .ok t s') : ∃ q, addr s x = some q := by
  unfold Subobject.Polymorphic.deref Subobject.Polymorphic.derefCB at h
  cases hk : s.hs x with
  | none => simp [-bind_pure_comp, getH, M.bind_eq, M.andThen, M.undef, M.pure_eq, hk] at h
  | some k =>
    cases hp : k.p with
    | none => simp [-bind_pure_comp, getH, M.bind_eq, M.andThen, M.undef, M.pure_eq, hk, hp] at h
    | some q => exact ⟨q, by simp [addr, hk, hp]⟩

end
end Verif.SubobjectProofs
