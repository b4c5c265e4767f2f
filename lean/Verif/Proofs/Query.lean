import Verif.QueryFine
import Verif.Spec.Query
import Verif.Proofs.Compare
import Verif.Proofs.Fine14
import Verif.Proofs.Progress

/-! Comparisons and hashes as calls of threads. -/

set_option autoImplicit false
set_option linter.unusedSectionVars false
set_option linter.unusedSimpArgs false

namespace Verif
namespace Fine
open Prog

/-! ## Programs and transitions -/

section
variable {L A R B V W : Type} [DecidableEq L] [DecidableEq R] [Body B]

/-- The object as the machine sees it. -/
def FRef.run (r : FRef L A R B V) : Ref (St L A R B) V := ⟨interp r.valueless, interp r.deref⟩

/-- The comparisons as transitions. -/
def FOrdered.run (o : FOrdered L A R B V W) : Ordered (St L A R B) V W :=
  ⟨o.threeWay.map fun f v w => interp (f v w), fun v w => interp (o.lt v w), fun v w => interp (o.gt v w)⟩

theorem interp_ask {α : Type} (f : Nat → Except Exn α) : interp (ask f : Prog L A R B α) = Verif.ask f := by
  simp only [ask, Verif.ask, interp_bind, interp_choose]
  congr 1; funext n; cases f n <;> rfl

theorem interp_synth (o : FOrdered L A R B V W) (v : V) (w : W) :
    interp (synthThreeWay o v w) = Verif.synthThreeWay o.run v w := by
  unfold synthThreeWay Verif.synthThreeWay FOrdered.run
  cases o.threeWay with
  | some f => rfl
  | none => simp only [Option.map_none, interp_bind, interp_ite, interp_pure]

section
variable (x : FRef L A R B V) (y : FRef L A R B W) (f : V → W → Prog L A R B Bool) (o : FOrdered L A R B V W) (w : W)

theorem interp_eq20 : interp (Compare20.eq f x y) = Verif.Compare20.eq (fun v w => interp (f v w)) x.run y.run := by
  simp only [Compare20.eq, Verif.Compare20.eq, interp_bind, interp_ite, interp_pure, FRef.run]
theorem interp_eqU20 : interp (Compare20.eqU f x w) = Verif.Compare20.eqU (fun v w => interp (f v w)) x.run w := by
  simp only [Compare20.eqU, Verif.Compare20.eqU, interp_bind, interp_ite, interp_pure, FRef.run]
theorem interp_cmp20 : interp (Compare20.cmp o x y) = Verif.Compare20.cmp o.run x.run y.run := by
  simp only [Compare20.cmp, Verif.Compare20.cmp, interp_bind, interp_ite, interp_pure, FRef.run, interp_synth]
theorem interp_cmpU20 : interp (Compare20.cmpU o x w) = Verif.Compare20.cmpU o.run x.run w := by
  simp only [Compare20.cmpU, Verif.Compare20.cmpU, interp_bind, interp_ite, interp_pure, FRef.run, interp_synth]
theorem interp_hash20 {H : Type} (n : H) (h : V → Prog L A R B H) :
    interp (Compare20.hash n h x) = Verif.Compare20.hash n (fun v => interp (h v)) x.run := by
  simp only [Compare20.hash, Verif.Compare20.hash, interp_bind, interp_ite, interp_pure, FRef.run]
theorem interp_hash14 {H : Type} (n : H) (h : V → Prog L A R B H) :
    interp (Compare14.hash n h x) = Verif.Compare14.hash n (fun v => interp (h v)) x.run := by
  simp only [Compare14.hash, Verif.Compare14.hash, interp_bind, interp_ite, interp_pure, FRef.run]
theorem interp_rel14 (r : Rel) :
    interp (Compare14.rel r f x y) = Verif.Compare14.rel r (fun v w => interp (f v w)) x.run y.run := by
  cases r <;> simp only [Compare14.rel, Verif.Compare14.rel, Compare14.eq, Compare14.ne, Compare14.lt, Compare14.gt,
    Compare14.le, Compare14.ge, Verif.Compare14.eq, Verif.Compare14.ne, Verif.Compare14.lt, Verif.Compare14.gt,
    Verif.Compare14.le, Verif.Compare14.ge, interp_bind, interp_ite, interp_pure, FRef.run]
theorem interp_mixed (c : Bool) (g : V → Prog L A R B Bool) :
    interp (Compare14.mixed c g x) = Verif.Compare14.mixed c (fun v => interp (g v)) x.run := by
  simp only [Compare14.mixed, Verif.Compare14.mixed, interp_bind, interp_ite, interp_pure, FRef.run]
theorem interp_relIU14 (r : Rel) :
    interp (Compare14.relIU r f x w) = Verif.Compare14.relIU r (fun v w => interp (f v w)) x.run w := by
  cases r <;> exact interp_mixed _ _ _
theorem interp_relUI14 (r : Rel) (g : W → V → Prog L A R B Bool) :
    interp (Compare14.relUI r g w x) = Verif.Compare14.relUI r (fun w v => interp (g w v)) w x.run := by
  cases r <;> exact interp_mixed _ _ _

end
end

section
variable {L A R V : Type} [DecidableEq L] [DecidableEq R]

theorem fref_run (x : L) : (Indirect.fref x : FRef L A R (Obj V) V).run = Verif.Indirect.ref x := by
  simp only [Indirect.fref, FRef.run, Verif.Indirect.ref, Indirect.interp_valueless, interp_bind, Indirect.interp_deref,
    interp_readObj]

theorem ordered_run (C : TCmp V) : (ordered C : FOrdered L A R (Obj V) V V).run = C.ordered := by
  simp only [ordered, FOrdered.run, TCmp.ordered, interp_ask]
  cases C.threeWay <;> simp [interp_ask]

theorem interp_query (C : TCmp V) (q : Query L V) :
    interp (Indirect.query C q : Prog L A R (Obj V) _) = Verif.Indirect.query C q := by
  cases q <;> simp only [Indirect.query, Verif.Indirect.query, interp_bind, interp_pure, interp_eq20, interp_cmp20, interp_eqU20,
    interp_cmpU20, interp_hash20, interp_ask, fref_run, ordered_run]

theorem interp_query14 (C : TCmp V) (q : Query14 L V) :
    interp (Indirect14.query C q : Prog L A R (Obj V) _) = Verif.Indirect14.query C q := by
  cases q <;> simp only [Indirect14.query, Verif.Indirect14.query, interp_bind, interp_pure, interp_rel14, interp_relIU14,
    interp_relUI14, interp_hash14, interp_ask, fref_run]

end
end Fine
end Verif

namespace Verif

/-! ## What the comparisons answer -/

section
variable {L A R B V α : Type} [DecidableEq L] [DecidableEq R] [Body B]

/-- A computation that answers `x` and changes no memory. -/
def Answers (s : St L A R B) (x : Except Exn α) : Res (St L A R B) α → Prop
  | .ok a s' => x = .ok a ∧ s'.hs = s.hs ∧ s'.heap = s.heap ∧ s'.trace = s.trace
  | .threw e s' => x = .error e ∧ s'.hs = s.hs ∧ s'.heap = s.heap ∧ s'.trace = s.trace
  | _ => False

theorem answers_ask (f : Nat → Except Exn α) (s : St L A R B) :
    Answers s (f (s.env.choice s.ti)) (ask f s) := by
  simp only [ask, M.bind_eq, choose]
  cases f (s.env.choice s.ti) <;> exact ⟨rfl, rfl, rfl, rfl⟩

theorem answers_pure (a : α) (s : St L A R B) : Answers s (.ok a) ((pure a : M (St L A R B) α) s) := ⟨rfl, rfl, rfl, rfl⟩

end

section
variable {L A R V : Type} [DecidableEq L] [DecidableEq R]

/-- What the environment decides next. -/
def St.next {B : Type} (s : St L A R B) (i : Nat) : Nat := s.env.choice (s.ti + i)

theorem answers_three (C : TCmp V) (v w : V) (s : St L A R (Obj V)) :
    Answers s (Spec.qthree C s.next v w) (synthThreeWay C.ordered v w s) := by
  unfold synthThreeWay Spec.qthree TCmp.ordered
  cases C.threeWay with
  | some f => exact answers_ask (f v w) s
  | none =>
    simp only [Option.map_none, ask, M.bind_eq, choose, St.next, Nat.add_zero]
    cases C.lt v w (s.env.choice s.ti) with
    | error e => exact ⟨rfl, rfl, rfl, rfl⟩
    | ok b =>
      cases b with
      | true => exact ⟨rfl, rfl, rfl, rfl⟩
      | false =>
        simp only [M.pure_eq, M.bind_eq, choose, Bool.false_eq_true, if_false]
        cases C.lt w v (s.env.choice (s.ti + 1)) with
        | error e => exact ⟨rfl, rfl, rfl, rfl⟩
        | ok b => cases b <;> exact ⟨rfl, rfl, rfl, rfl⟩

theorem answers_eq (C : TCmp V) (a b : Option V) (s : St L A R (Obj V)) :
    Answers s (Spec.qeq C s.next a b) (Spec.onValues (fun a b => a == b) (fun v w => ask (C.eq v w)) a b s) := by
  cases a <;> cases b <;> first | exact answers_pure _ s | exact answers_ask _ s

theorem answers_cmp (C : TCmp V) (a b : Option V) (s : St L A R (Obj V)) :
    Answers s (Spec.qcmp C s.next a b) (Spec.onValues Cmp.ofBool (synthThreeWay C.ordered) a b s) := by
  cases a <;> cases b <;> first | exact answers_pure _ s | exact answers_three C _ _ s

theorem answers_hash (C : TCmp V) (a : Option V) (s : St L A R (Obj V)) :
    Answers s (Spec.qhash C s.next a) (a.elim (pure C.npos) (fun v => ask (C.hash v)) s) := by
  cases a <;> first | exact answers_pure _ s | exact answers_ask _ s

theorem answers_rel (C : TCmp V) (r : Rel) {x y : Ref (St L A R (Obj V)) V} {a b : Option V} {s : St L A R (Obj V)}
    (hx : Views x s a) (hy : Views y s b) :
    Answers s (Spec.qrel C r s.next a b) (Compare14.rel r (fun v w => ask (C.rel r v w)) x y s) := by
  cases r <;> simp only [Compare14.rel] <;>
    first
      | rw [eq14_run hx hy] | rw [ne14_run hx hy] | rw [lt14_run hx hy] | rw [gt14_run hx hy] | rw [le14_run hx hy]
      | rw [ge14_run hx hy]
  all_goals cases a <;> cases b <;> first | exact answers_pure _ s | exact answers_ask _ s

theorem answers_relIU (C : TCmp V) (r : Rel) {x : Ref (St L A R (Obj V)) V} {a : Option V} {s : St L A R (Obj V)}
    (hx : Views x s a) (w : V) :
    Answers s (Spec.qrel C r s.next a (some w)) (Compare14.relIU r (fun v w => ask (C.rel r v w)) x w s) := by
  cases r <;> simp only [Compare14.relIU, Compare14.eqIU, Compare14.neIU, Compare14.ltIU, Compare14.gtIU, Compare14.leIU,
    Compare14.geIU] <;> rw [mixed_run hx]
  all_goals cases a <;> first | exact answers_pure _ s | exact answers_ask _ s

theorem answers_relUI (C : TCmp V) (r : Rel) {x : Ref (St L A R (Obj V)) V} {a : Option V} {s : St L A R (Obj V)}
    (hx : Views x s a) (w : V) :
    Answers s (Spec.qrel C r s.next (some w) a) (Compare14.relUI r (fun w v => ask (C.rel r w v)) w x s) := by
  cases r <;> simp only [Compare14.relUI, Compare14.eqUI, Compare14.neUI, Compare14.ltUI, Compare14.gtUI, Compare14.leUI,
    Compare14.geUI] <;> rw [mixed_run hx]
  all_goals cases a <;> first | exact answers_pure _ s | exact answers_ask _ s

/-- The answer as an outcome on values. -/
theorem answers_out {α : Type} {s : St L A R (Obj V)} {x : Except Exn α} {m : M (St L A R (Obj V)) α}
    (h : Answers s x (m s)) (out : α → Out L A V) (σ : Spec.Boxes L A V) :
    match (do let a ← m; pure (out a) : M (St L A R (Obj V)) (Out L A V)) s with
    | .ok o s' => Spec.answer σ out x = .ret o σ ∧ s'.hs = s.hs ∧ s'.heap = s.heap ∧ s'.trace = s.trace
    | .threw e s' => Spec.answer σ out x = .threw e σ ∧ s'.hs = s.hs ∧ s'.heap = s.heap ∧ s'.trace = s.trace
    | _ => False := by
  simp only [M.bind_eq]
  cases hm : m s <;> rw [hm] at h <;> simp only [Answers] at h
  · obtain ⟨rfl, h1, h2⟩ := h; exact ⟨rfl, h1, h2⟩
  · obtain ⟨rfl, h1, h2⟩ := h; exact ⟨rfl, h1, h2⟩

/-- What a comparison or hash should do: answer as specified, and change nothing. -/
def Replies (s : St L A R (Obj V)) (r : Spec.Result L A V) : Res (St L A R (Obj V)) (Out L A V) → Prop
  | .ok o s' => r = .ret o (Indirect.abs s) ∧ s'.hs = s.hs ∧ s'.heap = s.heap ∧ s'.trace = s.trace
  | .threw e s' => r = .threw e (Indirect.abs s) ∧ s'.hs = s.hs ∧ s'.heap = s.heap ∧ s'.trace = s.trace
  | _ => False

theorem replies {α : Type} {s : St L A R (Obj V)} {x : Except Exn α} {m : M (St L A R (Obj V)) α}
    (h : Answers s x (m s)) (out : α → Out L A V) :
    Replies s (Spec.answer (Indirect.abs s) out x) ((do let a ← m; pure (out a) : M (St L A R (Obj V)) (Out L A V)) s) := by
  have := answers_out h out (Indirect.abs s)
  revert this
  cases (do let a ← m; pure (out a) : M (St L A R (Obj V)) (Out L A V)) s <;> exact id

theorem live_box {σ : Spec.Boxes L A V} {x : L} (h : Spec.Live σ x) : ∃ b, σ x = some b ∧ Spec.valueOf σ x = b.val := by
  obtain ⟨b, hb⟩ := h
  exact ⟨b, hb, by simp [Spec.valueOf, hb]⟩

theorem query_replies {tr : ATraits A R} (C : TCmp V) (q : Query L V) {s : St L A R (Obj V)} (I : Indirect.IInv tr s)
    (h : Spec.AllLive (Indirect.abs s) (Spec.qoperands q)) :
    Replies s (Spec.qstep C s.next (Indirect.abs s) q) (Indirect.query C q s) := by
  cases q with
  | eq x y =>
    have hx := h x (by simp [Spec.qoperands]); have hy := h y (by simp [Spec.qoperands])
    obtain ⟨a, ha, ha'⟩ := live_box hx; obtain ⟨b, hb, hb'⟩ := live_box hy
    simp only [Spec.qstep, ha, hb, Indirect.query]
    refine replies ?_ _
    rw [eq20_run (Indirect.ref_views I hx) (Indirect.ref_views I hy), ha', hb']; exact answers_eq C _ _ s
  | cmp x y =>
    have hx := h x (by simp [Spec.qoperands]); have hy := h y (by simp [Spec.qoperands])
    obtain ⟨a, ha, ha'⟩ := live_box hx; obtain ⟨b, hb, hb'⟩ := live_box hy
    simp only [Spec.qstep, ha, hb, Indirect.query]
    refine replies ?_ _
    rw [cmp20_run (Indirect.ref_views I hx) (Indirect.ref_views I hy), ha', hb']; exact answers_cmp C _ _ s
  | eqU x w =>
    have hx := h x (by simp [Spec.qoperands])
    obtain ⟨a, ha, ha'⟩ := live_box hx
    simp only [Spec.qstep, ha, Indirect.query]
    refine replies ?_ _
    rw [eqU20_run (Indirect.ref_views I hx), ha']; exact answers_eq C _ _ s
  | cmpU x w =>
    have hx := h x (by simp [Spec.qoperands])
    obtain ⟨a, ha, ha'⟩ := live_box hx
    simp only [Spec.qstep, ha, Indirect.query]
    refine replies ?_ _
    rw [cmpU20_run (Indirect.ref_views I hx), ha']; exact answers_cmp C _ _ s
  | hash x =>
    have hx := h x (by simp [Spec.qoperands])
    obtain ⟨a, ha, ha'⟩ := live_box hx
    simp only [Spec.qstep, ha, Indirect.query]
    refine replies ?_ _
    rw [hash20_run (Indirect.ref_views I hx), ha']; exact answers_hash C _ s

theorem query14_replies {tr : ATraits A R} (C : TCmp V) (q : Query14 L V) {s : St L A R (Obj V)} (I : Indirect.IInv tr s)
    (h : Spec.AllLive (Indirect.abs s) (Spec.qoperands14 q)) :
    Replies s (Spec.qstep14 C s.next (Indirect.abs s) q) (Indirect14.query C q s) := by
  cases q with
  | rel r x y =>
    have hx := h x (by simp [Spec.qoperands14]); have hy := h y (by simp [Spec.qoperands14])
    obtain ⟨a, ha, ha'⟩ := live_box hx; obtain ⟨b, hb, hb'⟩ := live_box hy
    simp only [Spec.qstep14, ha, hb, Indirect14.query]
    refine replies ?_ _
    exact answers_rel C r (ha' ▸ Indirect.ref_views I hx) (hb' ▸ Indirect.ref_views I hy)
  | relIU r x w =>
    have hx := h x (by simp [Spec.qoperands14])
    obtain ⟨a, ha, ha'⟩ := live_box hx
    simp only [Spec.qstep14, ha, Indirect14.query]
    refine replies ?_ _
    exact answers_relIU C r (ha' ▸ Indirect.ref_views I hx) w
  | relUI r w x =>
    have hx := h x (by simp [Spec.qoperands14])
    obtain ⟨a, ha, ha'⟩ := live_box hx
    simp only [Spec.qstep14, ha, Indirect14.query]
    refine replies ?_ _
    exact answers_relUI C r (ha' ▸ Indirect.ref_views I hx) w
  | hash x =>
    have hx := h x (by simp [Spec.qoperands14])
    obtain ⟨a, ha, ha'⟩ := live_box hx
    simp only [Spec.qstep14, ha, Indirect14.query]
    refine replies ?_ _
    rw [hash14_run (Indirect.ref_views I hx), ha']; exact answers_hash C _ s

/-! ## They depend on the objects that they name only -/

theorem ragree_answer {α : Type} {D : L → Prop} {σ σ' : Spec.Boxes L A V} (h : Indirect.Agree D σ σ') (out : α → Out L A V)
    (x : Except Exn α) : Indirect.RAgree D (Spec.answer σ out x) (Spec.answer σ' out x) := by
  cases x <;> exact ⟨rfl, h⟩

theorem qstep_agree {C : TCmp V} {f : Nat → Nat} {D : L → Prop} {σ σ' : Spec.Boxes L A V} {q : Query L V}
    (h : Indirect.Agree D σ σ') (ho : ∀ z ∈ Spec.qoperands q, D z) :
    Indirect.RAgree D (Spec.qstep C f σ q) (Spec.qstep C f σ' q) := by
  cases q with
  | eq x y | cmp x y =>
    simp only [Spec.qstep, h x (ho x (by simp [Spec.qoperands])), h y (ho y (by simp [Spec.qoperands]))]
    cases σ' x <;> cases σ' y <;> first | exact ragree_answer h _ _ | trivial
  | eqU x w | cmpU x w | hash x =>
    simp only [Spec.qstep, h x (ho x (by simp [Spec.qoperands]))]
    cases σ' x <;> first | exact ragree_answer h _ _ | trivial

theorem qstep14_agree {C : TCmp V} {f : Nat → Nat} {D : L → Prop} {σ σ' : Spec.Boxes L A V} {q : Query14 L V}
    (h : Indirect.Agree D σ σ') (ho : ∀ z ∈ Spec.qoperands14 q, D z) :
    Indirect.RAgree D (Spec.qstep14 C f σ q) (Spec.qstep14 C f σ' q) := by
  cases q with
  | rel r x y =>
    simp only [Spec.qstep14, h x (ho x (by simp [Spec.qoperands14])), h y (ho y (by simp [Spec.qoperands14]))]
    cases σ' x <;> cases σ' y <;> first | exact ragree_answer h _ _ | trivial
  | relIU r x w | relUI r w x | hash x =>
    simp only [Spec.qstep14, h x (ho x (by simp [Spec.qoperands14]))]
    cases σ' x <;> first | exact ragree_answer h _ _ | trivial

theorem allLive_agree {D : L → Prop} {σ σ' : Spec.Boxes L A V} {l : List L} (h : Indirect.Agree D σ σ')
    (ho : ∀ z ∈ l, D z) : Spec.AllLive σ l ↔ Spec.AllLive σ' l := by
  constructor <;> intro hl z hz <;> have := hl z hz <;> simp only [Spec.Live, h z (ho z hz)] at this ⊢ <;> exact this

end

/-! ## Their accesses -/

namespace Fine
section
variable {L A R V : Type} [DecidableEq L] [DecidableEq R]

/-- The object may be read. -/
structure FRef.Readable {B W : Type} (F : Within.Frame L A R B) (r : FRef L A R B W) : Prop where
  valueless : Within.Within F Within.Any r.valueless
  deref : Within.Within F Within.Any r.deref

variable {F : Within.Frame L A R (Obj V)}

theorem readable {x : L} (hx : F.U x) : (Indirect.fref x : FRef L A R (Obj V) V).Readable F :=
  ⟨Indirect.within_valueless hx, Within.bindU (Indirect.within_deref' hx) fun p => Indirect.within_readObj p⟩

theorem within_ask {α : Type} (f : Nat → Except Exn α) : Within.Within F Within.Any (ask f : Prog L A R (Obj V) α) := by
  refine Within.bindU Within.choose fun n => ?_
  cases f n
  · exact Within.throwE _
  · exact Within.pure' trivial

theorem within_synth (C : TCmp V) (v w : V) : Within.Within F Within.Any (synthThreeWay (ordered C) v w) := by
  unfold synthThreeWay ordered
  cases C.threeWay with
  | some f => exact within_ask _
  | none =>
    exact Within.bindU (within_ask _) fun b => Within.ite (Within.pure' trivial)
      (Within.bindU (within_ask _) fun b => Within.ite (Within.pure' trivial) (Within.pure' trivial))

/-- One step of such a proof. -/
macro "wq" : tactic => `(tactic| first
  | exact FRef.Readable.valueless (by assumption) | exact FRef.Readable.deref (by assumption)
  | exact within_ask _ | exact within_synth _ _ _ | exact Within.pure' trivial
  | apply Within.ite | refine Within.bindU ?_ fun _ => ?_)

theorem within_query (C : TCmp V) (q : Query L V) (hop : ∀ z ∈ Spec.qoperands q, F.U z) :
    Within.Within F Within.Any (Indirect.query C q : Prog L A R (Obj V) _) := by
  cases q with
  | eq x y | cmp x y =>
    have hx := readable (F := F) (hop x (by simp [Spec.qoperands]))
    have hy := readable (F := F) (hop y (by simp [Spec.qoperands]))
    simp only [Indirect.query, Compare20.eq, Compare20.cmp]
    repeat' wq
  | eqU x w | cmpU x w | hash x =>
    have hx := readable (F := F) (hop x (by simp [Spec.qoperands]))
    simp only [Indirect.query, Compare20.eqU, Compare20.cmpU, Compare20.hash]
    repeat' wq

theorem within_query14 (C : TCmp V) (q : Query14 L V) (hop : ∀ z ∈ Spec.qoperands14 q, F.U z) :
    Within.Within F Within.Any (Indirect14.query C q : Prog L A R (Obj V) _) := by
  cases q with
  | rel r x y =>
    have hx := readable (F := F) (hop x (by simp [Spec.qoperands14]))
    have hy := readable (F := F) (hop y (by simp [Spec.qoperands14]))
    cases r <;> simp only [Indirect14.query, Compare14.rel, Compare14.eq, Compare14.ne, Compare14.lt, Compare14.gt,
      Compare14.le, Compare14.ge] <;> repeat' wq
  | relIU r x w | relUI r w x =>
    have hx := readable (F := F) (hop x (by simp [Spec.qoperands14]))
    cases r <;> simp only [Indirect14.query, Compare14.relIU, Compare14.relUI, Compare14.eqIU, Compare14.neIU, Compare14.ltIU,
      Compare14.gtIU, Compare14.leIU, Compare14.geIU, Compare14.eqUI, Compare14.neUI, Compare14.ltUI, Compare14.gtUI,
      Compare14.leUI, Compare14.geUI, Compare14.mixed] <;> repeat' wq
  | hash x =>
    have hx := readable (F := F) (hop x (by simp [Spec.qoperands14]))
    simp only [Indirect14.query, Compare14.hash]
    repeat' wq

end
end Fine

/-! ## For threads -/

namespace Fine
section
variable {L A R V : Type} [DecidableEq L]

theorem am_ask {α : Type} (f : Nat → Except Exn α) : (ask f : Prog L A R (Obj V) α).AtMost 1 := by
  refine Prog.AtMost.bind (n := 1) (k := 0) am_choose fun n => ?_
  cases f n <;> trivial

theorem am_synth (C : TCmp V) (v w : V) : (synthThreeWay (ordered C) v w : Prog L A R (Obj V) _).AtMost 2 := by
  unfold synthThreeWay ordered
  cases C.threeWay with
  | some f => exact Prog.AtMost.mono (am_ask _) (by decide)
  | none =>
    apply Prog.AtMost.mono
    · repeat' (first | exact am_ask _ | am1)
    · decide

theorem am_fref (x : L) : (Indirect.fref x : FRef L A R (Obj V) V).valueless.AtMost 1 ∧
    (Indirect.fref x : FRef L A R (Obj V) V).deref.AtMost 2 :=
  ⟨Indirect.am_valueless x, Prog.AtMost.bind (n := 1) (k := 1) (Indirect.am_deref x) fun p => am_readObj p⟩

/-- One step of the computation of a bound. -/
macro "amq" : tactic => `(tactic| first
  | exact (am_fref _).1 | exact (am_fref _).2 | exact am_ask _ | exact am_synth _ _ _ | am1)

theorem am_query (C : TCmp V) (q : Query L V) : (Indirect.query C q : Prog L A R (Obj V) _).AtMost 40 := by
  cases q <;> simp only [Indirect.query, Compare20.eq, Compare20.cmp, Compare20.eqU, Compare20.cmpU, Compare20.hash] <;>
    (apply Prog.AtMost.mono; (· repeat' amq); decide)

theorem am_query14 (C : TCmp V) (q : Query14 L V) : (Indirect14.query C q : Prog L A R (Obj V) _).AtMost 40 := by
  cases q with
  | rel r x y =>
    cases r <;> simp only [Indirect14.query, Compare14.rel, Compare14.eq, Compare14.ne, Compare14.lt, Compare14.gt,
      Compare14.le, Compare14.ge] <;> (apply Prog.AtMost.mono; (· repeat' amq); decide)
  | relIU r x w | relUI r w x =>
    cases r <;> simp only [Indirect14.query, Compare14.relIU, Compare14.relUI, Compare14.eqIU, Compare14.neIU, Compare14.ltIU,
      Compare14.gtIU, Compare14.leIU, Compare14.geIU, Compare14.eqUI, Compare14.neUI, Compare14.ltUI, Compare14.gtUI,
      Compare14.leUI, Compare14.geUI, Compare14.mixed] <;> (apply Prog.AtMost.mono; (· repeat' amq); decide)
  | hash x =>
    simp only [Indirect14.query, Compare14.hash]
    apply Prog.AtMost.mono
    · repeat' amq
    · decide

end
end Fine

namespace Conc
section
variable {L A R V X : Type} [DecidableEq L] [DecidableEq R]
open Indirect

theorem IInv.same {tr : ATraits A R} {s s' : St L A R (Obj V)} (I : IInv tr s) (h1 : s'.hs = s.hs) (h2 : s'.heap = s.heap) :
    IInv tr s' := by
  unfold IInv at *; rw [h1, h2]; exact I

theorem abs_same {s s' : St L A R (Obj V)} (h1 : s'.hs = s.hs) (h2 : s'.heap = s.heap) : abs s' = abs s := by
  unfold abs; rw [h1, h2]

theorem next_enter (s : St L A R (Obj V)) (e : Env) : (s.enter e).next = e.choice := by
  funext i; simp [St.next, St.enter]

/-- Calls of members, operators and the hash. -/
def call (tr : ATraits A R) (T : TSpec V X) (C : TCmp V) : Either (Op L A V X) (Query L V) → Env → St L A R (Obj V) →
    Res (St L A R (Obj V)) (Out L A V)
  | .call o, e, s => Indirect.call tr (plain T) o e s
  | .query q, e, s => Indirect.query C q (s.enter e)

/-- What the argument needs to know about indirect.h with comparisons and hashes. -/
noncomputable def queried (tr : ATraits A R) (T : TSpec V X) (C : TCmp V) (S : tr.Sound) :
    VApi L A R (Obj V) V (Nat → Nat) (Either (Op L A V X) (Query L V)) where
  prog := Fine.either (Fine.Indirect.step tr (Fine.plain T)) (Fine.Indirect.query C)
  call := call tr T C
  legal s o := Spec.ELegal tr (abs s) o
  operands := Spec.eoperands
  changes := Spec.echanges Spec.changes
  Ok := IInv tr
  bp _ := none
  call_eq o e s := by
    cases o with
    | call o => exact (indirect tr T S).call_eq o e s
    | query q => exact (congrFun (Fine.interp_query C q) _).symm
  chg o z hz := by
    cases o with
    | call o => exact (indirect (L := L) tr T S).chg o z hz
    | query q => cases hz
  okPart s U I := inv_part I U
  safe o e s I h := by
    cases o with
    | call o => exact (indirect tr T S).safe o e s I h
    | query q =>
      have := query_replies C q (s := s.enter e) I h
      show Safe _ (Indirect.query C q (s.enter e))
      cases hc : Indirect.query C q (s.enter e) <;> rw [hc] at this <;> simp only [Replies] at this
      · exact IInv.same I this.2.1 this.2.2.1
      · exact IInv.same I this.2.1 this.2.2.1
  within F o hbp hop ho := by
    cases o with
    | call o => exact (indirect tr T S).within F o hbp hop ho
    | query q => exact Fine.within_query C q hop
  own := (indirect (L := L) tr T S).own
  uniq := (indirect (L := L) tr T S).uniq
  owned := (indirect (L := L) tr T S).owned
  body := (indirect (L := L) tr T S).body
  raw := rfl
  abs := abs
  seed e := e.choice
  vlegal := Spec.ELegal tr
  step := Spec.estep tr T C
  legal_eq _ _ := Iff.rfl
  refines s o e I h := by
    cases o with
    | call o => exact (indirect tr T S).refines s o e I h
    | query q =>
      have := query_replies C q (s := s.enter e) I h
      rw [next_enter] at this
      simp only [call, Spec.estep]
      cases hc : Indirect.query C q (s.enter e) <;> rw [hc] at this <;> simp only [Replies] at this
      · simp only; rw [abs_same this.2.1 this.2.2.1]; exact this.1
      · simp only; rw [abs_same this.2.1 this.2.2.1]; exact this.1
  local_legal D σ σ' o h ho := by
    cases o with
    | call o => exact (indirect tr T S).local_legal D σ σ' o h ho
    | query q => exact allLive_agree h ho
  local_step D σ σ' o m n h ho := by
    cases o with
    | call o => exact (indirect tr T S).local_step D σ σ' o m (n 0) h ho
    | query q => exact qstep_agree h ho
  local_abs := (indirect (L := L) tr T S).local_abs

theorem am_queried (tr : ATraits A R) (T : TSpec V X) (C : TCmp V) (o : Either (Op L A V X) (Query L V)) :
    (Fine.either (Fine.Indirect.step tr (Fine.plain T)) (Fine.Indirect.query C) o).AtMost 40 := by
  cases o with
  | call o => exact Fine.Indirect.am_step tr (Fine.am_plain T) o
  | query q => exact Fine.am_query C q

/-- Calls of members, operators and the hash. -/
def call14 (tr : ATraits A R) (T : TSpec V X) (C : TCmp V) : Either (Op L A V X) (Query14 L V) → Env → St L A R (Obj V) →
    Res (St L A R (Obj V)) (Out L A V)
  | .call o, e, s => Indirect14.call tr (plain T) o e s
  | .query q, e, s => Indirect14.query C q (s.enter e)

/-- What the argument needs to know about indirect_cxx14.h with comparisons and hashes. -/
noncomputable def queried14 (tr : ATraits A R) (T : TSpec V X) (C : TCmp V) (S : tr.Sound) :
    VApi L A R (Obj V) V (Nat → Nat) (Either (Op L A V X) (Query14 L V)) where
  prog := Fine.either (Fine.Indirect14.step tr (Fine.plain T)) (Fine.Indirect14.query C)
  call := call14 tr T C
  legal s o := Spec.ELegal14 tr (abs s) o
  operands := Spec.eoperands14
  changes := Spec.echanges Spec.changes
  Ok := IInv tr
  bp _ := none
  call_eq o e s := by
    cases o with
    | call o => exact (indirect14 tr T S).call_eq o e s
    | query q => exact (congrFun (Fine.interp_query14 C q) _).symm
  chg o z hz := by
    cases o with
    | call o => exact (indirect14 (L := L) tr T S).chg o z hz
    | query q => cases hz
  okPart s U I := inv_part I U
  safe o e s I h := by
    cases o with
    | call o => exact (indirect14 tr T S).safe o e s I h
    | query q =>
      have := query14_replies C q (s := s.enter e) I h
      show Safe _ (Indirect14.query C q (s.enter e))
      cases hc : Indirect14.query C q (s.enter e) <;> rw [hc] at this <;> simp only [Replies] at this
      · exact IInv.same I this.2.1 this.2.2.1
      · exact IInv.same I this.2.1 this.2.2.1
  within F o hbp hop ho := by
    cases o with
    | call o => exact (indirect14 tr T S).within F o hbp hop ho
    | query q => exact Fine.within_query14 C q hop
  own := (indirect14 (L := L) tr T S).own
  uniq := (indirect14 (L := L) tr T S).uniq
  owned := (indirect14 (L := L) tr T S).owned
  body := (indirect14 (L := L) tr T S).body
  raw := rfl
  abs := abs
  seed e := e.choice
  vlegal := Spec.ELegal14 tr
  step := Spec.estep14 tr T C
  legal_eq _ _ := Iff.rfl
  refines s o e I h := by
    cases o with
    | call o => exact (indirect14 tr T S).refines s o e I h
    | query q =>
      have := query14_replies C q (s := s.enter e) I h
      rw [next_enter] at this
      simp only [call14, Spec.estep14]
      cases hc : Indirect14.query C q (s.enter e) <;> rw [hc] at this <;> simp only [Replies] at this
      · simp only; rw [abs_same this.2.1 this.2.2.1]; exact this.1
      · simp only; rw [abs_same this.2.1 this.2.2.1]; exact this.1
  local_legal D σ σ' o h ho := by
    cases o with
    | call o => exact (indirect14 tr T S).local_legal D σ σ' o h ho
    | query q => exact allLive_agree h ho
  local_step D σ σ' o m n h ho := by
    cases o with
    | call o => exact (indirect14 tr T S).local_step D σ σ' o m (n 0) h ho
    | query q => exact qstep14_agree h ho
  local_abs := (indirect14 (L := L) tr T S).local_abs

theorem am_queried14 (tr : ATraits A R) (T : TSpec V X) (C : TCmp V) (o : Either (Op L A V X) (Query14 L V)) :
    (Fine.either (Fine.Indirect14.step tr (Fine.plain T)) (Fine.Indirect14.query C) o).AtMost 40 := by
  cases o with
  | call o => show (Fine.Indirect14.step tr (Fine.plain T) o).AtMost 40; rw [prog14]; exact Fine.Indirect.am_step tr (Fine.am_plain T.cxx14) o
  | query q => exact Fine.am_query14 C q

/-- Readers alone: the objects stay as they are, and all queries are answered. -/
theorem alone_readers {O Q : Type} {step : Bool → (Nat → Nat) → Spec.Boxes L A V → Either O Q → Spec.Result L A V}
    {qs : (Nat → Nat) → Spec.Boxes L A V → Q → Spec.Result L A V} (hs : ∀ m f σ q, step m f σ (.query q) = qs f σ q)
    (hk : ∀ f σ q, (∀ o τ, qs f σ q = .ret o τ → τ = σ) ∧ (∀ x τ, qs f σ q = .threw x τ → τ = σ))
    {ask : List (Seen (Out L A V)) → Option Q} {σ τ : Spec.Boxes L A V} {log : List (Seen (Out L A V))}
    (h : Spec.Alone step (fun l => (ask l).map .query) σ log τ) : τ = σ ∧ Spec.Answered qs ask σ log := by
  have last : ∀ {log : List (Seen (Out L A V))} {a : Seen (Out L A V)} {q : Q} {f : Nat → Nat}, Spec.Answered qs ask σ log →
      ask log = some q → Spec.IsAnswer σ (qs f σ q) a → Spec.Answered qs ask σ (log ++ [a]) := by
    intro log a q f h hq ha l b r he
    rcases List.append_eq_append_iff.1 he with ⟨m, h1, h2⟩ | ⟨m, h1, h2⟩
    · cases m with
      | nil =>
        simp only [List.append_nil, List.nil_append, List.cons.injEq] at h1 h2
        obtain ⟨rfl, -⟩ := h2
        exact ⟨q, f, h1 ▸ hq, ha⟩
      | cons c m => simp at h2
    · cases m with
      | nil =>
        simp only [List.append_nil, List.nil_append, List.cons.injEq] at h1 h2
        obtain ⟨rfl, -⟩ := h2
        exact ⟨q, f, h1 ▸ hq, ha⟩
      | cons c m =>
        simp only [List.cons_append, List.cons.injEq] at h2
        obtain ⟨rfl, -⟩ := h2
        exact h l b m h1
  induction h with
  | start => exact ⟨rfl, fun l b r he => by simp at he⟩
  | ret o mem f h hn hc ih =>
    obtain ⟨rfl, ih⟩ := ih
    obtain ⟨q, hq, rfl⟩ := Option.map_eq_some_iff.1 hn
    rw [hs] at hc
    obtain rfl := (hk f _ q).1 _ _ hc
    exact ⟨rfl, last ih hq hc⟩
  | threw o mem f h hn hc ih =>
    obtain ⟨rfl, ih⟩ := ih
    obtain ⟨q, hq, rfl⟩ := Option.map_eq_some_iff.1 hn
    rw [hs] at hc
    obtain rfl := (hk f _ q).2 _ _ hc
    exact ⟨rfl, last ih hq hc⟩

/-- A query changes nothing, and does not terminate the program. -/
def Reads (σ : Spec.Boxes L A V) (r : Spec.Result L A V) : Prop :=
  ((∀ o τ, r = .ret o τ → τ = σ) ∧ (∀ x τ, r = .threw x τ → τ = σ)) ∧ r ≠ .terminated

theorem reads_answer {α : Type} (σ : Spec.Boxes L A V) (out : α → Out L A V) (x : Except Exn α) :
    Reads σ (Spec.answer σ out x) := by
  cases x <;> refine ⟨⟨?_, ?_⟩, ?_⟩ <;> simp [Spec.answer]

theorem reads_illegal (σ : Spec.Boxes L A V) : Reads σ .illegal := ⟨⟨nofun, nofun⟩, nofun⟩

theorem reads_qstep (C : TCmp V) (f : Nat → Nat) (σ : Spec.Boxes L A V) (q : Query L V) : Reads σ (Spec.qstep C f σ q) := by
  cases q <;> simp only [Spec.qstep] <;> split <;> first | exact reads_answer _ _ _ | exact reads_illegal _

theorem reads_qstep14 (C : TCmp V) (f : Nat → Nat) (σ : Spec.Boxes L A V) (q : Query14 L V) :
    Reads σ (Spec.qstep14 C f σ q) := by
  cases q <;> simp only [Spec.qstep14] <;> split <;> first | exact reads_answer _ _ _ | exact reads_illegal _

end
end Conc
end Verif
