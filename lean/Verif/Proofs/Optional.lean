import Verif.Spec.Optional
import Verif.Proofs.CompositeLaws
import Verif.Proofs.Variant
import Verif.Proofs.Containers14

/-! Optionals of indirect or polymorphic: what each operation does to optionals as values. -/

set_option autoImplicit false
set_option linter.unusedSectionVars false
set_option linter.unusedSimpArgs false

namespace Verif.Optional
open Verif Spec

section
variable {C S A R W X I_ F : Type} [DecidableEq C]
variable {H : Holder (Cell C) S W I_ F} {sw : Cell C → Cell C → Env → M S Unit} {abs : S → Boxes (Cell C) A W}
variable {Ok : S → Prop} {tr : ATraits A R} {T : TSpec W X} {s : OS C S} {x y : C} {a b : Box A W}
variable {o p : Option (Box A W)} {β : Boxes (Cell C) A W} {f : C → Option Bool}

/-! ### Flags and objects -/

/-- The objects of the machine are those that the optionals contain. -/
def Rep (β : Boxes (Cell C) A W) (f : C → Option Bool) : Prop := ∀ x, (β (.inside x)).isSome = true ↔ f x = some true

theorem view_opt (R : Rep β f) (x : C) : match f x with
    | none => (oview β f).opts x = none ∧ β (.inside x) = none
    | some false => (oview β f).opts x = some none ∧ β (.inside x) = none
    | some true => ∃ b, β (.inside x) = some b ∧ (oview β f).opts x = some (some b) := by
  have := R x
  cases h : f x with
  | none => refine ⟨by simp [oview, h], ?_⟩; cases hb : β (.inside x) <;> simp_all
  | some c =>
    cases c with
    | false => refine ⟨by simp [oview, h], ?_⟩; cases hb : β (.inside x) <;> simp_all
    | true =>
      obtain ⟨b, hb⟩ := Option.isSome_iff_exists.1 (this.2 h)
      exact ⟨b, hb, by simp [oview, h, hb]⟩

theorem rep_dead (R : Rep β f) (h : (oview β f).opts x = none) : f x = none ∧ β (.inside x) = none := by
  have := view_opt R x
  cases hf : f x with
  | none => rw [hf] at this; exact ⟨rfl, this.2⟩
  | some c => cases c <;> simp [hf, h] at this

theorem rep_empty (R : Rep β f) (h : (oview β f).opts x = some none) : f x = some false ∧ β (.inside x) = none := by
  have := view_opt R x
  cases hf : f x with
  | none => simp [hf, h] at this
  | some c =>
    cases c with
    | false => rw [hf] at this; exact ⟨rfl, this.2⟩
    | true => simp [hf, h] at this

theorem rep_full (R : Rep β f) (h : (oview β f).opts x = some (some b)) : f x = some true ∧ β (.inside x) = some b := by
  have := view_opt R x
  cases hf : f x with
  | none => simp [hf, h] at this
  | some c =>
    cases c with
    | false => simp [hf, h] at this
    | true =>
      rw [hf] at this
      obtain ⟨c, hc, h'⟩ := this
      rw [h] at h'
      cases h'
      exact ⟨rfl, hc⟩

theorem _root_.Verif.Spec.OState.ext' {σ τ : OState C A W} (h1 : σ.opts = τ.opts) (h2 : σ.vars = τ.vars) : σ = τ := by
  cases σ; cases τ; cases h1; cases h2; rfl

theorem rep_put (R : Rep β f) (x : C) (b : Box A W) : Rep (put β (.inside x) b) (upd f x (some true)) ∧
    oview (put β (.inside x) b) (upd f x (some true)) = (oview β f).setOpt x (some (some b)) := by
  constructor
  · intro z
    by_cases hz : z = x
    · subst hz; simp [put]
    · simp only [put, Cell.inside.injEq, if_neg hz, upd_other _ _ hz]; exact R z
  · refine OState.ext' ?_ ?_
    · funext z
      by_cases hz : z = x
      · subst hz; simp [oview, OState.setOpt, put]
      · simp [oview, OState.setOpt, put, hz, upd_other _ _ hz]
    · funext z; simp [oview, OState.setOpt, put]

theorem rep_change (R : Rep β f) (hf : f x = some true) (b : Box A W) : Rep (put β (.inside x) b) f ∧
    oview (put β (.inside x) b) f = (oview β f).setOpt x (some (some b)) := by
  have := rep_put R x b
  rwa [upd_id f x _ hf] at this

theorem rep_drop (R : Rep β f) (x : C) : Rep (drop β (.inside x)) (upd f x (some false)) ∧
    oview (drop β (.inside x)) (upd f x (some false)) = (oview β f).setOpt x (some none) := by
  constructor
  · intro z
    by_cases hz : z = x
    · subst hz; simp [drop]
    · simp only [drop, Cell.inside.injEq, if_neg hz, upd_other _ _ hz]; exact R z
  · refine OState.ext' ?_ ?_
    · funext z
      by_cases hz : z = x
      · subst hz; simp [oview, OState.setOpt, drop]
      · simp [oview, OState.setOpt, drop, hz, upd_other _ _ hz]
    · funext z; simp [oview, OState.setOpt, drop]

theorem rep_flag (R : Rep β f) (hb : β (.inside x) = none) (c : Option Bool) (hc : c ≠ some true) :
    Rep β (upd f x c) ∧ oview β (upd f x c) = (oview β f).setOpt x (c.map fun _ => none) := by
  constructor
  · intro z
    by_cases hz : z = x
    · subst hz; simp [hb, hc]
    · simp only [upd_other _ _ hz]; exact R z
  · refine OState.ext' ?_ rfl
    funext z
    by_cases hz : z = x
    · subst hz
      cases c with
      | none => simp [oview, OState.setOpt]
      | some d => cases d <;> simp_all [oview, OState.setOpt]
    · simp [oview, OState.setOpt, hz, upd_other _ _ hz]

theorem rep_var (R : Rep β f) (y : C) (b : Box A W) : Rep (put β (.var y) b) f ∧
    oview (put β (.var y) b) f = (oview β f).setVar y (some b) := by
  constructor
  · intro z; simpa [put] using R z
  · refine OState.ext' ?_ ?_
    · funext z; simp [oview, OState.setVar, put]
    · funext z; simp only [oview, OState.setVar, put, Cell.var.injEq]

theorem rep_dropVar (R : Rep β f) (y : C) : Rep (drop β (.var y)) f ∧
    oview (drop β (.var y)) f = (oview β f).setVar y none := by
  constructor
  · intro z; simpa [drop] using R z
  · refine OState.ext' ?_ ?_
    · funext z; simp [oview, OState.setVar, drop]
    · funext z; simp only [oview, OState.setVar, drop, Cell.var.injEq]

theorem setOpt_setOpt (σ : OState C A W) (x : C) (o p : Option (Option (Box A W))) :
    (σ.setOpt x o).setOpt x p = σ.setOpt x p := by
  refine OState.ext' ?_ rfl
  funext z; simp only [OState.setOpt]; split <;> rfl

theorem setOpt_comm (σ : OState C A W) (h : x ≠ y) (o p : Option (Option (Box A W))) :
    (σ.setOpt x o).setOpt y p = (σ.setOpt y p).setOpt x o := by
  refine OState.ext' ?_ rfl
  funext z; simp only [OState.setOpt]
  by_cases h1 : z = x <;> by_cases h2 : z = y <;> simp_all

theorem setOpt_id (σ : OState C A W) {o : Option (Option (Box A W))} (h : σ.opts x = o) : σ.setOpt x o = σ := by
  refine OState.ext' ?_ rfl
  funext z; simp only [OState.setOpt]; split <;> simp_all

/-! ### Machine states -/

/-- What holds between operations. -/
structure Inv (abs : S → Boxes (Cell C) A W) (Ok : S → Prop) (s : OS C S) : Prop where
  ok : Ok s.1
  rep : Rep (abs s.1) s.2

/-- A state with the invariant and these values. -/
def At (abs : S → Boxes (Cell C) A W) (Ok : S → Prop) (σ : OState C A W) (s : OS C S) : Prop :=
  Inv abs Ok s ∧ ostate abs s = σ

theorem at_of {m : S} {f : C → Option Bool} {β : Boxes (Cell C) A W} {σ : OState C A W} (hm : Ok m) (ha : abs m = β)
    (h : Rep β f ∧ oview β f = σ) : At abs Ok σ (m, f) := by
  subst ha; exact ⟨⟨hm, h.1⟩, h.2⟩

theorem ends_fst {m : M S Unit} {Q E : S → Prop} {Q' E' : OS C S → Prop} {D : Prop} (h : Ends (m s.1) Q E D)
    (hq : ∀ t, Q t → Q' (t, s.2)) (he : ∀ t, E t → E' (t, s.2)) : Ends (M.fst m s) Q' E' D := by
  unfold M.fst
  cases hm : m s.1 with
  | ok u t => rw [hm] at h; exact hq t h
  | threw e t => rw [hm] at h; exact he t h
  | terminated => rw [hm] at h; exact h
  | ub u => rw [hm] at h; exact h
  | diverged => rw [hm] at h; exact h

theorem ends_fill {m : M S Unit} {Q E : S → Prop} {Q' E' : OS C S → Prop} {D : Prop} (h : Ends (m s.1) Q E D)
    (hq : ∀ t, Q t → Q' (t, upd s.2 x (some true))) (he : ∀ t, E t → E' (t, s.2)) : Ends (fill x m s) Q' E' D := by
  show Ends ((M.fst m >>= fun _ => set x (some true)) s) _ _ _
  refine Ends.bind (P := fun s' => Q s'.1 ∧ s'.2 = s.2) (ends_fst h (fun t ht => ⟨ht, rfl⟩) he) ?_
  rintro ⟨t, g⟩ ⟨ht, rfl⟩
  exact hq t ht

theorem alive_eq {k : Bool → M (OS C S) Unit} {c : Bool} (h : s.2 x = some c) : alive x k s = k c s := by
  show (match s.2 x with | some b => k b | none => M.undef .deadHandle : M (OS C S) Unit) s = _
  rw [h]

theorem unborn_eq {m : M (OS C S) Unit} (h : s.2 x = none) : (unborn x >>= fun _ => m) s = m s := by
  show M.andThen (unborn x) _ s = _
  have : unborn x s = .ok () s := by
    show (match s.2 x with | none => pure () | some _ => M.undef .liveHandle : M (OS C S) Unit) s = _
    rw [h]; rfl
  simp only [M.andThen, this]

section ops
variable (B : Behaves tr T abs Ok H)
include B

theorem reset_ends (I : Inv abs Ok s) (hx : (ostate abs s).opts x = some o) (e : Env) :
    Ends (reset H x e s) (At abs Ok ((ostate abs s).setOpt x (some none))) (fun _ => False) False := by
  cases o with
  | none =>
    obtain ⟨hf, hb⟩ := rep_empty I.rep hx
    unfold reset
    rw [alive_eq hf]
    exact ⟨I, (setOpt_id _ hx).symm⟩
  | some b =>
    obtain ⟨hf, hb⟩ := rep_full I.rep hx
    unfold reset
    rw [alive_eq hf]
    refine Ends.bind (P := fun s' => (Ok s'.1 ∧ abs s'.1 = drop (abs s.1) (.inside x)) ∧ s'.2 = s.2)
      (ends_fst (B.destroy e I.ok hb) (fun t ht => ⟨ht, rfl⟩) (fun _ h => h)) ?_
    rintro ⟨t, g⟩ ⟨⟨ht, ha⟩, rfl⟩
    exact at_of ht ha (rep_drop I.rep x)

theorem destroy_ends (I : Inv abs Ok s) (hx : (ostate abs s).opts x = some o) (es : Nat → Env) :
    Ends (call H sw (.destroy x) es s) (At abs Ok ((ostate abs s).setOpt x none)) (fun _ => False) False := by
  refine Ends.bind (reset_ends B I hx (es 0)) ?_
  rintro ⟨t, g⟩ ⟨I', h'⟩
  have hb := (rep_empty (x := x) I'.rep (by
    show (ostate abs (t, g)).opts x = _
    rw [h']; simp [OState.setOpt])).2
  have := rep_flag I'.rep hb none (by simp)
  refine ⟨⟨I'.ok, this.1⟩, ?_⟩
  show oview _ _ = _
  rw [this.2]
  show (ostate abs (t, g)).setOpt x none = _
  rw [h', setOpt_setOpt]

/-- An object made from arguments begins to live in an optional without one. -/
theorem fill_make (I : Inv abs Ok s) (hb : abs s.1 (.inside x) = none) (i : I_) (e : Env) :
    Ends (fill x (H.make (.inside x) i e) s)
      (fun s' => ∃ a v, At abs Ok ((ostate abs s).setOpt x (some (some ⟨a, some v⟩))) s')
      (At abs Ok (ostate abs s)) False := by
  refine ends_fill (B.make i e I.ok hb) ?_ ?_
  · rintro t ⟨ht, a, v, ha⟩; exact ⟨a, v, at_of ht ha (rep_put I.rep x _)⟩
  · rintro t ⟨ht, ha⟩; exact at_of ht ha ⟨I.rep, rfl⟩

/-- A copy begins to live there. -/
theorem fill_copy (I : Inv abs Ok s) (hb : abs s.1 (.inside x) = none) {l : Cell C} (hl : abs s.1 l = some b) (e : Env) :
    Ends (fill x (H.copy (.inside x) l e) s)
      (fun s' => ∃ b', CopyOf tr T b b' ∧ At abs Ok ((ostate abs s).setOpt x (some (some b'))) s')
      (At abs Ok (ostate abs s)) False := by
  refine ends_fill (B.copy e I.ok hb hl) ?_ ?_
  · rintro t ⟨ht, b', hb', ha⟩; exact ⟨b', hb', at_of ht ha (rep_put I.rep x _)⟩
  · rintro t ⟨ht, ha⟩; exact at_of ht ha ⟨I.rep, rfl⟩

/-- An object moves there from an optional. -/
theorem fill_move (I : Inv abs Ok s) (hb : abs s.1 (.inside x) = none) (hy : (ostate abs s).opts y = some (some b))
    (e : Env) : Ends (fill x (H.move (.inside x) (.inside y) e) s)
      (At abs Ok (((ostate abs s).setOpt y (some (some (leftBehind b)))).setOpt x (some (some b))))
      (fun _ => False) False := by
  obtain ⟨hf, hc⟩ := rep_full I.rep hy
  refine ends_fill (B.move e I.ok hb hc) ?_ (fun _ h => h)
  rintro t ⟨ht, ha⟩
  have h1 := rep_change I.rep hf ⟨b.alloc, none⟩
  have h2 := rep_put h1.1 x b
  rw [h1.2] at h2
  exact at_of ht ha h2

/-- An object moves there from a variable. -/
theorem fill_moveVar (I : Inv abs Ok s) (hb : abs s.1 (.inside x) = none) (hy : (ostate abs s).vars y = some b)
    (e : Env) : Ends (fill x (H.move (.inside x) (.var y) e) s)
      (At abs Ok (((ostate abs s).setVar y (some (leftBehind b))).setOpt x (some (some b))))
      (fun _ => False) False := by
  refine ends_fill (B.move e I.ok hb hy) ?_ (fun _ h => h)
  rintro t ⟨ht, ha⟩
  have h1 := rep_var I.rep y ⟨b.alloc, none⟩
  have h2 := rep_put h1.1 x b
  rw [h1.2] at h2
  exact at_of ht ha h2

theorem make_ends (I : Inv abs Ok s) (hy : (ostate abs s).vars y = none) (i : I_) (es : Nat → Env) :
    Ends (call H sw (.make y i) es s)
      (fun s' => ∃ a v, At abs Ok ((ostate abs s).setVar y (some ⟨a, some v⟩)) s') (At abs Ok (ostate abs s)) False := by
  refine ends_fst (B.make i (es 0) I.ok hy) ?_ ?_
  · rintro t ⟨ht, a, v, ha⟩; exact ⟨a, v, at_of ht ha (rep_var I.rep y _)⟩
  · rintro t ⟨ht, ha⟩; exact at_of ht ha ⟨I.rep, rfl⟩

theorem destroyVar_ends (I : Inv abs Ok s) (hy : (ostate abs s).vars y = some b) (es : Nat → Env) :
    Ends (call H sw (.destroyVar y) es s) (At abs Ok ((ostate abs s).setVar y none)) (fun _ => False) False := by
  refine ends_fst (B.destroy (es 0) I.ok hy) ?_ (fun _ h => h)
  rintro t ⟨ht, ha⟩; exact at_of ht ha (rep_dropVar I.rep y)

theorem none_ends (I : Inv abs Ok s) (hx : (ostate abs s).opts x = none) (es : Nat → Env) :
    Ends (call H sw (.none x) es s) (At abs Ok ((ostate abs s).setOpt x (some none))) (fun _ => False) False := by
  obtain ⟨hf, hb⟩ := rep_dead I.rep hx
  simp only [call]
  rw [unborn_eq hf]
  exact at_of I.ok rfl (rep_flag I.rep hb (some false) (by simp))

theorem inPlace_ends (I : Inv abs Ok s) (hx : (ostate abs s).opts x = none) (i : I_) (es : Nat → Env) :
    Ends (call H sw (.inPlace x i) es s)
      (fun s' => ∃ a v, At abs Ok ((ostate abs s).setOpt x (some (some ⟨a, some v⟩))) s')
      (At abs Ok (ostate abs s)) False := by
  obtain ⟨hf, hb⟩ := rep_dead I.rep hx
  simp only [call]
  rw [unborn_eq hf]
  exact fill_make B I hb i (es 0)

theorem fromCopy_ends (I : Inv abs Ok s) (hx : (ostate abs s).opts x = none) (hy : (ostate abs s).vars y = some b)
    (es : Nat → Env) : Ends (call H sw (.fromCopy x y) es s)
      (fun s' => ∃ b', CopyOf tr T b b' ∧ At abs Ok ((ostate abs s).setOpt x (some (some b'))) s')
      (At abs Ok (ostate abs s)) False := by
  obtain ⟨hf, hb⟩ := rep_dead I.rep hx
  simp only [call]
  rw [unborn_eq hf]
  exact fill_copy B I hb hy (es 0)

theorem fromMove_ends (I : Inv abs Ok s) (hx : (ostate abs s).opts x = none) (hy : (ostate abs s).vars y = some b)
    (es : Nat → Env) : Ends (call H sw (.fromMove x y) es s)
      (At abs Ok (((ostate abs s).setVar y (some (leftBehind b))).setOpt x (some (some b)))) (fun _ => False) False := by
  obtain ⟨hf, hb⟩ := rep_dead I.rep hx
  simp only [call]
  rw [unborn_eq hf]
  exact fill_moveVar B I hb hy (es 0)

theorem copy_ends (I : Inv abs Ok s) (hx : (ostate abs s).opts x = none) (hy : (ostate abs s).opts y = some o)
    (es : Nat → Env) : Ends (call H sw (.copy x y) es s)
      (fun s' => ∃ o', OptCopy tr T o o' ∧ At abs Ok ((ostate abs s).setOpt x (some o')) s')
      (At abs Ok (ostate abs s)) False := by
  obtain ⟨hf, hb⟩ := rep_dead I.rep hx
  simp only [call]
  rw [unborn_eq hf]
  unfold copyCtor
  cases o with
  | none =>
    rw [alive_eq (rep_empty I.rep hy).1]
    exact ⟨none, rfl, at_of I.ok rfl (rep_flag I.rep hb (some false) (by simp))⟩
  | some b =>
    obtain ⟨hg, hc⟩ := rep_full I.rep hy
    rw [alive_eq hg]
    exact (fill_copy B I hb hc (es 0)).mono (fun s' ⟨b', h1, h2⟩ => ⟨some b', ⟨b', h1, rfl⟩, h2⟩) (fun _ h => h) (fun h => h)

theorem move_ends (I : Inv abs Ok s) (hx : (ostate abs s).opts x = none) (hy : (ostate abs s).opts y = some o)
    (es : Nat → Env) : Ends (call H sw (.move x y) es s)
      (At abs Ok (((ostate abs s).setOpt y (some (o.map leftBehind))).setOpt x (some o))) (fun _ => False) False := by
  obtain ⟨hf, hb⟩ := rep_dead I.rep hx
  simp only [call]
  rw [unborn_eq hf]
  unfold moveCtor
  cases o with
  | none =>
    rw [alive_eq (rep_empty I.rep hy).1]
    rw [show (Option.map leftBehind (none : Option (Box A W))) = none from rfl, setOpt_id _ hy]
    exact at_of I.ok rfl (rep_flag I.rep hb (some false) (by simp))
  | some b =>
    rw [alive_eq (rep_full I.rep hy).1]
    exact fill_move B I hb hy (es 0)

theorem emplace_ends (I : Inv abs Ok s) (hx : (ostate abs s).opts x = some o) (i : I_) (es : Nat → Env) :
    Ends (call H sw (.emplace x i) es s)
      (fun s' => ∃ a v, At abs Ok ((ostate abs s).setOpt x (some (some ⟨a, some v⟩))) s')
      (At abs Ok ((ostate abs s).setOpt x (some none))) False := by
  refine Ends.bind (P := At abs Ok ((ostate abs s).setOpt x (some none)))
    ((reset_ends B I hx (es 1)).mono (fun _ h => h) (fun _ h => h.elim) (fun h => h)) ?_
  rintro s' ⟨I', h'⟩
  have hb := (rep_empty (x := x) I'.rep (by
    show (ostate abs s').opts x = _
    rw [h']; simp [OState.setOpt])).2
  refine (fill_make B I' hb i (es 0)).mono ?_ ?_ (fun h => h)
  · rintro s'' ⟨a, v, h⟩; rw [h', setOpt_setOpt] at h; exact ⟨a, v, h⟩
  · intro s'' h; rwa [h'] at h

/-- Assignment from anywhere but the target itself. -/
theorem assignFull (I : Inv abs Ok s) (hx : (ostate abs s).opts x = some (some a)) {l : Cell C} (hne : .inside x ≠ l)
    (hl : abs s.1 l = some b) (e : Env) : Ends (M.fst (H.assignCopy (.inside x) l e) s)
      (fun s' => ∃ a', AssignedCopy tr T a b a' ∧ At abs Ok ((ostate abs s).setOpt x (some (some a'))) s')
      (fun s' => ∃ a' : Box A W, a'.alloc = a.alloc ∧ a'.val.isSome = a.val.isSome ∧
        At abs Ok ((ostate abs s).setOpt x (some (some a'))) s') False := by
  obtain ⟨hf, ha⟩ := rep_full I.rep hx
  refine ends_fst (B.assignCopy e I.ok hne ha hl) ?_ ?_
  · rintro t ⟨ht, a', h1, h2⟩; exact ⟨a', h1, at_of ht h2 (rep_change I.rep hf a')⟩
  · rintro t ⟨ht, a', h0, h1, h2⟩; exact ⟨a', h0, h1, at_of ht h2 (rep_change I.rep hf a')⟩

theorem assignCopy_ends (I : Inv abs Ok s) (hne : x ≠ y) (hx : (ostate abs s).opts x = some o)
    (hy : (ostate abs s).opts y = some p) (es : Nat → Env) : Ends (call H sw (.assignCopy x y) es s)
      (fun s' => ∃ o', OptAssignCopy tr T o p o' ∧ At abs Ok ((ostate abs s).setOpt x (some o')) s')
      (fun s' => ∃ o', OptAssignCopyThrew o o' ∧ At abs Ok ((ostate abs s).setOpt x (some o')) s') False := by
  simp only [call, assignCopy]
  cases p with
  | none =>
    have hg := (rep_empty I.rep hy).1
    have : Ends (reset H x (es 0) s) (fun s' => ∃ o', OptAssignCopy tr T o none o' ∧ At abs Ok ((ostate abs s).setOpt x (some o')) s')
        (fun s' => ∃ o', OptAssignCopyThrew o o' ∧ At abs Ok ((ostate abs s).setOpt x (some o')) s') False :=
      (reset_ends B I hx (es 0)).mono (fun s' h => ⟨none, by cases o <;> rfl, h⟩) (fun _ h => h.elim) (fun h => h)
    cases o with
    | none => rw [alive_eq (rep_empty I.rep hx).1, alive_eq hg]; exact this
    | some a => rw [alive_eq (rep_full I.rep hx).1, alive_eq hg]; exact this
  | some b =>
    obtain ⟨hg, hc⟩ := rep_full I.rep hy
    cases o with
    | none =>
      obtain ⟨hf, hb⟩ := rep_empty I.rep hx
      rw [alive_eq hf, alive_eq hg]
      refine (fill_copy B I hb hc (es 0)).mono ?_ ?_ (fun h => h)
      · rintro s' ⟨b', h1, h2⟩; exact ⟨some b', ⟨b', h1, rfl⟩, h2⟩
      · intro s' h; exact ⟨none, rfl, by rwa [setOpt_id _ hx]⟩
    | some a =>
      rw [alive_eq (rep_full I.rep hx).1, alive_eq hg]
      refine (assignFull B I hx (by simp [hne]) hc (es 0)).mono ?_ ?_ (fun h => h)
      · rintro s' ⟨a', h1, h2⟩; exact ⟨some a', ⟨a', h1, rfl⟩, h2⟩
      · rintro s' ⟨a', h0, h1, h2⟩; exact ⟨some a', ⟨a', h0, h1, rfl⟩, h2⟩

theorem setCopy_ends (I : Inv abs Ok s) (hx : (ostate abs s).opts x = some o)
    (hy : (ostate abs s).vars y = some b) (es : Nat → Env) : Ends (call H sw (.setCopy x y) es s)
      (fun s' => ∃ o', OptAssignCopy tr T o (some b) o' ∧ At abs Ok ((ostate abs s).setOpt x (some o')) s')
      (fun s' => ∃ o', OptAssignCopyThrew o o' ∧ At abs Ok ((ostate abs s).setOpt x (some o')) s') False := by
  simp only [call, setCopy]
  cases o with
  | none =>
    obtain ⟨hf, hb⟩ := rep_empty I.rep hx
    rw [alive_eq hf]
    refine (fill_copy B I hb hy (es 0)).mono ?_ ?_ (fun h => h)
    · rintro s' ⟨b', h1, h2⟩; exact ⟨some b', ⟨b', h1, rfl⟩, h2⟩
    · intro s' h; exact ⟨none, rfl, by rwa [setOpt_id _ hx]⟩
  | some a =>
    rw [alive_eq (rep_full I.rep hx).1]
    refine (assignFull B I hx (by simp) hy (es 0)).mono ?_ ?_ (fun h => h)
    · rintro s' ⟨a', h1, h2⟩; exact ⟨some a', ⟨a', h1, rfl⟩, h2⟩
    · rintro s' ⟨a', h0, h1, h2⟩; exact ⟨some a', ⟨a', h0, h1, rfl⟩, h2⟩

theorem assignMove_ends (I : Inv abs Ok s) (hne : x ≠ y) (hx : (ostate abs s).opts x = some o)
    (hy : (ostate abs s).opts y = some p) (es : Nat → Env) : Ends (call H sw (.assignMove x y) es s)
      (fun s' => ∃ o' p', OptAssignMove tr T o p o' p' ∧
        At abs Ok (((ostate abs s).setOpt y (some p')).setOpt x (some o')) s')
      (fun s' => ∃ p', OptAssignMoveThrew tr o p p' ∧ At abs Ok ((ostate abs s).setOpt y (some p')) s')
      (OptUnequal tr o p ∧ (tr.pocma || tr.alwaysEqual) = true) := by
  simp only [call, assignMove]
  cases p with
  | none =>
    have hg := (rep_empty I.rep hy).1
    have : Ends (reset H x (es 0) s) (fun s' => ∃ o' p', OptAssignMove tr T o none o' p' ∧
          At abs Ok (((ostate abs s).setOpt y (some p')).setOpt x (some o')) s')
        (fun s' => ∃ p', OptAssignMoveThrew tr o none p' ∧ At abs Ok ((ostate abs s).setOpt y (some p')) s')
        (OptUnequal tr o none ∧ (tr.pocma || tr.alwaysEqual) = true) :=
      (reset_ends B I hx (es 0)).mono (fun s' h => ⟨none, none, by cases o <;> exact ⟨rfl, rfl⟩, by rwa [setOpt_id _ hy]⟩)
        (fun _ h => h.elim) (fun h => h.elim)
    cases o with
    | none => rw [alive_eq (rep_empty I.rep hx).1, alive_eq hg]; exact this
    | some a => rw [alive_eq (rep_full I.rep hx).1, alive_eq hg]; exact this
  | some b =>
    obtain ⟨hg, hc⟩ := rep_full I.rep hy
    cases o with
    | none =>
      obtain ⟨hf, hb⟩ := rep_empty I.rep hx
      rw [alive_eq hf, alive_eq hg]
      exact (fill_move B I hb hy (es 0)).mono (fun s' h => ⟨_, _, ⟨rfl, rfl⟩, h⟩) (fun _ h => h.elim) (fun h => h.elim)
    | some a =>
      obtain ⟨hf, ha⟩ := rep_full I.rep hx
      rw [alive_eq hf, alive_eq hg]
      refine Ends.mono (ends_fst (Q' := fun s' => ∃ o' p', OptAssignMove tr T (some a) (some b) o' p' ∧
          At abs Ok (((ostate abs s).setOpt y (some p')).setOpt x (some o')) s')
        (E' := fun s' => ∃ p', OptAssignMoveThrew tr (some a) (some b) p' ∧ At abs Ok ((ostate abs s).setOpt y (some p')) s')
        (B.assignMove (es 0) I.ok (by simp [hne]) ha hc) ?_ ?_) (fun _ h => h) (fun _ h => h) (fun h => h)
      · rintro t ⟨ht, a', b', h1, h2⟩
        refine ⟨_, _, ⟨a', b', h1, rfl, rfl⟩, at_of ht h2 ?_⟩
        have r1 := rep_change I.rep hg b'
        have r2 := rep_change r1.1 hf a'
        rwa [r1.2] at r2
      · rintro t ⟨ht, h0, b', h1, h2, h3⟩
        exact ⟨_, ⟨h0, b', h1, h2, rfl⟩, at_of ht h3 (rep_change I.rep hg b')⟩

theorem setMove_ends (I : Inv abs Ok s) (hx : (ostate abs s).opts x = some o)
    (hy : (ostate abs s).vars y = some b) (es : Nat → Env) : Ends (call H sw (.setMove x y) es s)
      (fun s' => ∃ o' b', OptAssignMove tr T o (some b) o' (some b') ∧
        At abs Ok (((ostate abs s).setVar y (some b')).setOpt x (some o')) s')
      (fun s' => ∃ b', OptAssignMoveThrew tr o (some b) (some b') ∧ At abs Ok ((ostate abs s).setVar y (some b')) s')
      (OptUnequal tr o (some b) ∧ (tr.pocma || tr.alwaysEqual) = true) := by
  simp only [call, setMove]
  cases o with
  | none =>
    obtain ⟨hf, hb⟩ := rep_empty I.rep hx
    rw [alive_eq hf]
    exact (fill_moveVar B I hb hy (es 0)).mono (fun s' h => ⟨_, _, ⟨rfl, rfl⟩, h⟩) (fun _ h => h.elim) (fun h => h.elim)
  | some a =>
    obtain ⟨hf, ha⟩ := rep_full I.rep hx
    rw [alive_eq hf]
    refine Ends.mono (ends_fst (Q' := fun s' => ∃ o' b', OptAssignMove tr T (some a) (some b) o' (some b') ∧
        At abs Ok (((ostate abs s).setVar y (some b')).setOpt x (some o')) s')
      (E' := fun s' => ∃ b', OptAssignMoveThrew tr (some a) (some b) (some b') ∧
        At abs Ok ((ostate abs s).setVar y (some b')) s')
      (B.assignMove (es 0) I.ok (by simp) ha hy) ?_ ?_) (fun _ h => h) (fun _ h => h) (fun h => h)
    · rintro t ⟨ht, a', b', h1, h2⟩
      refine ⟨_, b', ⟨a', b', h1, rfl, rfl⟩, at_of ht h2 ?_⟩
      have r1 := rep_var I.rep y b'
      have r2 := rep_change r1.1 hf a'
      rwa [r1.2] at r2
    · rintro t ⟨ht, h0, b', h1, h2, h3⟩
      exact ⟨b', ⟨h0, b', h1, h2, rfl⟩, at_of ht h3 (rep_var I.rep y b')⟩

theorem assignSelf_ends (I : Inv abs Ok s) (hx : (ostate abs s).opts x = some o) (es : Nat → Env) :
    Ends (call H sw (.assignCopy x x) es s) (At abs Ok (ostate abs s)) (fun _ => False) False ∧
    Ends (call H sw (.assignMove x x) es s) (At abs Ok (ostate abs s)) (fun _ => False) False := by
  simp only [call, assignCopy, assignMove]
  cases o with
  | none =>
    have hf := (rep_empty I.rep hx).1
    have := reset_ends B I hx (es 0)
    rw [setOpt_id _ hx] at this
    constructor <;> rw [alive_eq hf, alive_eq hf] <;> exact this
  | some a =>
    obtain ⟨hf, ha⟩ := rep_full I.rep hx
    have := B.assignSelf (es 0) I.ok ha
    constructor <;> rw [alive_eq hf, alive_eq hf]
    · exact ends_fst this.1 (fun t ⟨ht, h⟩ => at_of ht h ⟨I.rep, rfl⟩) (fun _ h => h)
    · exact ends_fst this.2 (fun t ⟨ht, h⟩ => at_of ht h ⟨I.rep, rfl⟩) (fun _ h => h)

theorem handOver_ends (I : Inv abs Ok s) (hx : (ostate abs s).opts x = some none)
    (hy : (ostate abs s).opts y = some (some b)) (es : Nat → Env) : Ends (handOver H x y es s)
      (At abs Ok (((ostate abs s).setOpt y (some none)).setOpt x (some (some b)))) (fun _ => False) False := by
  have hne : x ≠ y := by rintro rfl; rw [hx] at hy; cases hy
  refine Ends.bind (fill_move B I (rep_empty I.rep hx).2 hy (es 0)) ?_
  rintro s' ⟨I', h'⟩
  have hy' : (ostate abs s').opts y = some (some (leftBehind b)) := by
    rw [h']; simp [OState.setOpt, hne.symm]
  obtain ⟨hf, hb⟩ := rep_full I'.rep hy'
  refine Ends.bind (P := fun s'' => (Ok s''.1 ∧ abs s''.1 = drop (abs s'.1) (.inside y)) ∧ s''.2 = s'.2)
    (ends_fst (B.destroy (es 1) I'.ok hb) (fun t ht => ⟨ht, rfl⟩) (fun _ h => h)) ?_
  rintro ⟨t, g⟩ ⟨⟨ht, ha⟩, rfl⟩
  have := at_of ht ha (rep_drop I'.rep y)
  refine ⟨this.1, this.2.trans ?_⟩
  show (ostate abs s').setOpt y (some none) = _
  rw [h', setOpt_comm _ hne, setOpt_setOpt]

theorem swap_ends (K : Swaps tr abs Ok sw) (I : Inv abs Ok s) (hne : x ≠ y) (hx : (ostate abs s).opts x = some o)
    (hy : (ostate abs s).opts y = some p) (hs : ∀ a b, o = some a → p = some b → MaySwap tr a b) (es : Nat → Env) :
    Ends (call H sw (.swap x y) es s)
      (At abs Ok (((ostate abs s).setOpt y (some (OptSwap tr o p).2)).setOpt x (some (OptSwap tr o p).1)))
      (fun _ => False) False := by
  simp only [call, swap]
  cases o with
  | none =>
    rw [alive_eq (rep_empty I.rep hx).1]
    cases p with
    | none =>
      rw [alive_eq (rep_empty I.rep hy).1]
      refine ⟨I, ?_⟩
      simp only [OptSwap]
      rw [setOpt_id _ hy, setOpt_id _ hx]
    | some b =>
      rw [alive_eq (rep_full I.rep hy).1]
      exact handOver_ends B I hx hy es
  | some a =>
    obtain ⟨hf, ha⟩ := rep_full I.rep hx
    rw [alive_eq hf]
    cases p with
    | none =>
      rw [alive_eq (rep_empty I.rep hy).1]
      refine (handOver_ends B I hy hx es).mono (fun s' h => ?_) (fun _ h => h) (fun h => h)
      simp only [OptSwap]
      rwa [setOpt_comm _ hne] at h
    | some b =>
      obtain ⟨hg, hb⟩ := rep_full I.rep hy
      rw [alive_eq hg]
      refine ends_fst (K.swap (es 0) I.ok (by simp [hne]) ha hb (hs a b rfl rfl)) ?_ (fun _ h => h)
      rintro t ⟨ht, h2⟩
      have r1 := rep_change I.rep hg (swappedWith tr b a)
      have r2 := rep_change r1.1 hf (swappedWith tr a b)
      rw [r1.2] at r2
      exact at_of ht h2 r2

theorem swapSelf_ends (K : Swaps tr abs Ok sw) (I : Inv abs Ok s) (hx : (ostate abs s).opts x = some o) (es : Nat → Env) :
    Ends (call H sw (.swap x x) es s) (At abs Ok (ostate abs s)) (fun _ => False) False := by
  simp only [call, swap]
  cases o with
  | none =>
    have hf := (rep_empty I.rep hx).1
    rw [alive_eq hf, alive_eq hf]; exact ⟨I, rfl⟩
  | some a =>
    obtain ⟨hf, ha⟩ := rep_full I.rep hx
    rw [alive_eq hf, alive_eq hf]
    exact ends_fst (K.self (es 0) I.ok ha) (fun t ⟨ht, h⟩ => at_of ht h ⟨I.rep, rfl⟩) (fun _ h => h)

theorem takeCopy_ends (I : Inv abs Ok s) (hy : (ostate abs s).vars y = none) (hx : (ostate abs s).opts x = some o)
    (es : Nat → Env) : Ends (call H sw (.takeCopy y x) es s)
      (fun s' => ∃ b b', o = some b ∧ CopyOf tr T b b' ∧ At abs Ok ((ostate abs s).setVar y (some b')) s')
      (At abs Ok (ostate abs s)) False := by
  simp only [call]
  cases o with
  | none => rw [alive_eq (rep_empty I.rep hx).1]; exact ⟨I, rfl⟩
  | some b =>
    obtain ⟨hf, hb⟩ := rep_full I.rep hx
    rw [alive_eq hf]
    refine ends_fst (B.copy (es 0) I.ok hy hb) ?_ ?_
    · rintro t ⟨ht, b', h1, ha⟩; exact ⟨b, b', rfl, h1, at_of ht ha (rep_var I.rep y b')⟩
    · rintro t ⟨ht, ha⟩; exact at_of ht ha ⟨I.rep, rfl⟩

theorem takeMove_ends (I : Inv abs Ok s) (hy : (ostate abs s).vars y = none) (hx : (ostate abs s).opts x = some o)
    (es : Nat → Env) : Ends (call H sw (.takeMove y x) es s)
      (fun s' => ∃ b, o = some b ∧
        At abs Ok (((ostate abs s).setOpt x (some (some (leftBehind b)))).setVar y (some b)) s')
      (fun s' => o = none ∧ At abs Ok (ostate abs s) s') False := by
  simp only [call]
  cases o with
  | none => rw [alive_eq (rep_empty I.rep hx).1]; exact ⟨rfl, I, rfl⟩
  | some b =>
    obtain ⟨hf, hb⟩ := rep_full I.rep hx
    rw [alive_eq hf]
    refine ends_fst (B.move (es 0) I.ok hy hb) ?_ (fun _ h => h.elim)
    rintro t ⟨ht, ha⟩
    have r1 := rep_change I.rep hf (leftBehind b)
    have r2 := rep_var r1.1 y b
    rw [r1.2] at r2
    exact ⟨b, rfl, at_of ht ha r2⟩

theorem modify_ends (I : Inv abs Ok s) {c : A} {v : W} (hx : (ostate abs s).opts x = some (some ⟨c, some v⟩)) (g : F)
    (es : Nat → Env) : Ends (call H sw (.modify x g) es s)
      (At abs Ok ((ostate abs s).setOpt x (some (some ⟨c, some (H.app g v)⟩)))) (fun _ => False) False := by
  obtain ⟨hf, hb⟩ := rep_full I.rep hx
  simp only [call]
  rw [alive_eq hf]
  exact ends_fst (B.modify g (es 0) I.ok hb) (fun t ⟨ht, ha⟩ => at_of ht ha (rep_change I.rep hf _)) (fun _ h => h)

/-- Every legal operation keeps the invariant. -/
theorem call_inv (K : Swaps tr abs Ok sw) (I : Inv abs Ok s) (q : OOp C I_ F) (es : Nat → Env)
    (hl : OLegal tr (ostate abs s) q) : Ends (call H sw q es s) (Inv abs Ok) (Inv abs Ok) True := by
  cases q with
  | make y i => exact (make_ends B I hl i es).mono (fun _ ⟨_, _, h⟩ => h.1) (fun _ h => h.1) (fun h => h.elim)
  | destroyVar y =>
    obtain ⟨b, hb⟩ := hl
    exact (destroyVar_ends B I hb es).mono (fun _ h => h.1) (fun _ h => h.elim) (fun h => h.elim)
  | none x => exact (none_ends B I hl es).mono (fun _ h => h.1) (fun _ h => h.elim) (fun h => h.elim)
  | inPlace x i => exact (inPlace_ends B I hl i es).mono (fun _ ⟨_, _, h⟩ => h.1) (fun _ h => h.1) (fun h => h.elim)
  | fromCopy x y =>
    obtain ⟨h1, b, hb⟩ := hl
    exact (fromCopy_ends B I h1 hb es).mono (fun _ ⟨_, _, h⟩ => h.1) (fun _ h => h.1) (fun h => h.elim)
  | fromMove x y =>
    obtain ⟨h1, b, hb⟩ := hl
    exact (fromMove_ends B I h1 hb es).mono (fun _ h => h.1) (fun _ h => h.elim) (fun h => h.elim)
  | copy x y =>
    obtain ⟨h1, b, hb⟩ := hl
    exact (copy_ends B I h1 hb es).mono (fun _ ⟨_, _, h⟩ => h.1) (fun _ h => h.1) (fun h => h.elim)
  | move x y =>
    obtain ⟨h1, b, hb⟩ := hl
    exact (move_ends B I h1 hb es).mono (fun _ h => h.1) (fun _ h => h.elim) (fun h => h.elim)
  | destroy x =>
    obtain ⟨b, hb⟩ := hl
    exact (destroy_ends B I hb es).mono (fun _ h => h.1) (fun _ h => h.elim) (fun h => h.elim)
  | reset x =>
    obtain ⟨b, hb⟩ := hl
    exact (reset_ends B I hb (es 0)).mono (fun _ h => h.1) (fun _ h => h.elim) (fun h => h.elim)
  | emplace x i =>
    obtain ⟨b, hb⟩ := hl
    exact (emplace_ends B I hb i es).mono (fun _ ⟨_, _, h⟩ => h.1) (fun _ h => h.1) (fun h => h.elim)
  | assignCopy x y =>
    obtain ⟨⟨a, ha⟩, b, hb⟩ := hl
    by_cases hne : x = y
    · subst hne
      exact (assignSelf_ends B I ha es).1.mono (fun _ h => h.1) (fun _ h => h.elim) (fun h => h.elim)
    · exact (assignCopy_ends B I hne ha hb es).mono (fun _ ⟨_, _, h⟩ => h.1) (fun _ ⟨_, _, h⟩ => h.1) (fun h => h.elim)
  | assignMove x y =>
    obtain ⟨⟨a, ha⟩, b, hb⟩ := hl
    by_cases hne : x = y
    · subst hne
      exact (assignSelf_ends B I ha es).2.mono (fun _ h => h.1) (fun _ h => h.elim) (fun h => h.elim)
    · exact (assignMove_ends B I hne ha hb es).mono (fun _ ⟨_, _, _, h⟩ => h.1) (fun _ ⟨_, _, h⟩ => h.1) (fun _ => trivial)
  | setCopy x y =>
    obtain ⟨⟨a, ha⟩, b, hb⟩ := hl
    exact (setCopy_ends B I ha hb es).mono (fun _ ⟨_, _, h⟩ => h.1) (fun _ ⟨_, _, h⟩ => h.1) (fun h => h.elim)
  | setMove x y =>
    obtain ⟨⟨a, ha⟩, b, hb⟩ := hl
    exact (setMove_ends B I ha hb es).mono (fun _ ⟨_, _, _, h⟩ => h.1) (fun _ ⟨_, _, h⟩ => h.1) (fun _ => trivial)
  | swap x y =>
    obtain ⟨o, p, ho, hp, hs⟩ := hl
    by_cases hne : x = y
    · subst hne
      exact (swapSelf_ends B K I ho es).mono (fun _ h => h.1) (fun _ h => h.elim) (fun h => h.elim)
    · exact (swap_ends B K I hne ho hp hs es).mono (fun _ h => h.1) (fun _ h => h.elim) (fun h => h.elim)
  | takeCopy y x =>
    obtain ⟨h1, b, hb⟩ := hl
    exact (takeCopy_ends B I h1 hb es).mono (fun _ ⟨_, _, _, _, h⟩ => h.1) (fun _ h => h.1) (fun h => h.elim)
  | takeMove y x =>
    obtain ⟨h1, b, hb⟩ := hl
    exact (takeMove_ends B I h1 hb es).mono (fun _ ⟨_, _, h⟩ => h.1) (fun _ h => h.2.1) (fun h => h.elim)
  | modify x g =>
    obtain ⟨c, v, hb⟩ := hl
    exact (modify_ends B I hb g es).mono (fun _ h => h.1) (fun _ h => h.elim) (fun h => h.elim)

theorem Reach.inv (K : Swaps tr abs Ok sw) {init : S} (h0 : Ok init) (hd : ∀ l, abs init l = none)
    (h : Reach tr H sw abs init s) : Inv abs Ok s := by
  induction h with
  | init => exact ⟨h0, fun x => by simp [hd]⟩
  | ret q es _ hl hc ih => have := call_inv B K ih q es hl; rw [hc] at this; exact this
  | threw q es e _ hl hc ih => have := call_inv B K ih q es hl; rw [hc] at this; exact this

end ops
end

/-! ### `swap` of the four class templates -/

section
variable {L A R V X Ty : Type} [DecidableEq L] [DecidableEq R] [DecidableEq Ty] {tr : ATraits A R}

theorem swap_put (σ : Boxes L A V) {x y : L} {a b : Box A V} (hne : x ≠ y) :
    (if tr.pocs then put (put σ x b) y a else put (put σ x ⟨a.alloc, b.val⟩) y ⟨b.alloc, a.val⟩) =
      put (put σ y (swappedWith tr b a)) x (swappedWith tr a b) := by
  funext z
  cases hp : tr.pocs <;> simp only [swappedWith, hp, put, if_true, Bool.false_eq_true, if_false] <;>
    by_cases h1 : z = x <;> by_cases h2 : z = y <;> simp_all

theorem indirect_swaps (S : tr.Sound) (Rf : tr.Reflexive) (T : TSpec V X) :
    Swaps tr Indirect.abs (Composite.IOk tr) (swapIndirect (L := L) tr T) where
  swap := by
    intro s x y a b e hs hne hx hy hm
    refine (Composite.ofCall_ends (.friendSwap x y)
      (Q := fun σ => σ = put (put (Indirect.abs s) y (swappedWith tr b a)) x (swappedWith tr a b))
      (E := fun _ => False) (D := False) S hs ⟨a, b, hx, hy, hm⟩ fun m n => ?_).mono (fun _ h => h) (fun _ h => h.2)
      (fun h => h)
    simp only [step, Spec.swap, hx, hy]
    rw [← swap_put _ hne]
    split <;> simp_all [Composite.SEnds]
  self := by
    intro s x a e hs hx
    refine (Composite.ofCall_ends (.friendSwap x x) (Q := fun σ => σ = Indirect.abs s)
      (E := fun _ => False) (D := False) S hs ⟨a, a, hx, hx, .inr (Rf.eq_refl _)⟩ fun m n => ?_).mono (fun _ h => h)
      (fun _ h => h.2) (fun h => h)
    have : put (put (Indirect.abs s) x a) x a = Indirect.abs s := by
      funext z; simp only [put]; split <;> simp_all
    simp only [step, Spec.swap, hx]
    split <;> exact this

theorem indirect14_swaps (S : tr.Sound) (Rf : tr.Reflexive) (T : TSpec V X) :
    Swaps tr Indirect.abs (Composite.IOk tr) (swapIndirect14 (L := L) tr T) := by
  have : swapIndirect14 (L := L) tr T = swapIndirect tr T.cxx14 := by
    funext x y e; unfold swapIndirect14 swapIndirect; congr 1
  rw [this]; exact indirect_swaps S Rf T.cxx14

theorem polymorphic_swaps (S : tr.Sound) (Rf : tr.Reflexive) (P : PSpec Ty V X) :
    Swaps tr Polymorphic.abs (Composite.POk tr) (swapPolymorphic (L := L) tr P) where
  swap := by
    intro s x y a b e hs hne hx hy hm
    have := (indirect_swaps (L := L) S Rf P.owned).swap (s := Polymorphic.view s) (x := x) (y := y) (a := a) (b := b) e
      hs.2 hne (by rw [Polymorphic.abs_view]; exact hx) (by rw [Polymorphic.abs_view]; exact hy) hm
    rw [Polymorphic.abs_view] at this
    exact (Composite.ofCall_view
      (Q := fun σ => σ = put (put (Polymorphic.abs s) y (swappedWith tr b a)) x (swappedWith tr a b)) (E := fun _ => False)
      (.friendSwap x y) hs ⟨a, b, hx, hy, hm⟩ (this.mono (fun _ h => h) (fun _ h => h.elim) (fun h => h))).mono
        (fun _ h => h) (fun _ h => h.2) (fun h => h)
  self := by
    intro s x a e hs hx
    have := (indirect_swaps (L := L) S Rf P.owned).self (s := Polymorphic.view s) (x := x) (a := a) e
      hs.2 (by rw [Polymorphic.abs_view]; exact hx)
    rw [Polymorphic.abs_view] at this
    exact (Composite.ofCall_view (Q := fun σ => σ = Polymorphic.abs s) (E := fun _ => False)
      (.friendSwap x x) hs ⟨a, a, hx, hx, .inr (Rf.eq_refl _)⟩
      (this.mono (fun _ h => h) (fun _ h => h.elim) (fun h => h))).mono (fun _ h => h) (fun _ h => h.2) (fun h => h)

theorem polymorphic14_swaps (E : tr.Equality) (S : tr.Sound) (Rf : tr.Reflexive) (P : PSpec Ty V X) :
    Swaps tr Polymorphic.abs (Composite.POk tr) (swapPolymorphic14 (L := L) tr P) := by
  have : swapPolymorphic14 (L := L) tr P = swapPolymorphic tr P := by
    funext x y e s; exact Containers14.call_same E P _ e s (by exact trivial)
  rw [this]; exact polymorphic_swaps S Rf P

end
end Verif.Optional
