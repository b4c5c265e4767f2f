import Verif.Proofs.Maps
import Verif.Proofs.VectorUniform

/-! What operations on maps leave alone; maps whose elements all have the same allocator. -/

set_option autoImplicit false
set_option linter.unusedSectionVars false
set_option linter.unusedSimpArgs false

namespace Verif.Maps
open Verif Spec

section
variable {C K S A W R X I_ J F : Type} [DecidableEq C] [DecidableEq K]
variable {H : Holder (Cell C) S W I_ F} {H' : Holder (Cell C) S W J F} {abs : S → Boxes (Cell C) A W} {Ok : S → Prop}
variable {ρ ρ' : Rules A W} {s : MS C K S} {x y : C} {k : K} {b : Box A W} {σ σ' : KState C K A W}

/-- A mapped value is made and becomes the element. -/
def Inserted (ρ : Rules A W) (σ σ' : KState C K A W) (x : C) (k : K) (a : Arg C K I_) : Prop :=
  ∃ b τ, KArgMade ρ σ b τ a ∧ σ' = τ.setAt x k (some b)

/-- What operations that return may have done. -/
def Step (ρ ρ' : Rules A W) (app : F → W → W) (σ σ' : KState C K A W) : MapOp C K I_ J F → Prop
  | .make y _ => ∃ b, ρ'.Make b ∧ σ' = σ.setVar y (some b)
  | .destroyVar y => σ' = σ.setVar y none
  | .empty x => σ' = σ.setMap x (some noElems)
  | .copy x y => ∃ m m', σ.maps y = some m ∧ MapCopy ρ m m' ∧ σ' = σ.setMap x (some m')
  | .move x y => ∃ m, σ.maps y = some m ∧ σ' = (σ.setMap x (some m)).setMap y (some noElems)
  | .destroy x => σ' = σ.setMap x none
  | .emplace x k a => Inserted ρ σ σ' x k a ∨ σ' = σ ∨ ∃ b, KArgMade ρ σ b σ' a
  | .tryEmplace x k a => Inserted ρ σ σ' x k a ∨ σ' = σ
  | .insertOrAssign x k mv r => Inserted ρ σ σ' x k (if mv then .move r else .copy r : Arg C K I_) ∨
      ∃ a d, σ.get (.at x k) = some a ∧ σ.get r = some d ∧
        if mv then ∃ a' d', ρ.MoveAssign a d a' d' ∧ σ' = (σ.set r d').setAt x k (some a')
        else ∃ a', ρ.Assign a d a' ∧ σ' = σ.setAt x k (some a')
  | .erase x k => σ' = σ.setAt x k none
  | .clear x => σ' = σ.setMap x (some noElems)
  | .assignCopy x y => σ' = σ ∨ ∃ m m', σ.maps y = some m ∧ MapCopy ρ m m' ∧ σ' = σ.setMap x (some m')
  | .assignMove x y => ∃ m, σ.maps y = some m ∧ σ' = (σ.setMap x (some m)).setMap y (some noElems)
  | .swap x y => ∃ m o, σ.maps x = some m ∧ σ.maps y = some o ∧ σ' = (σ.setMap x (some o)).setMap y (some m)
  | .merge x y => σ' = σ ∨ ∃ m o, σ.maps x = some m ∧ σ.maps y = some o ∧
      σ' = (σ.setMap x (some (merged m o))).setMap y (some (unmerged m o))
  | .take y mv x k => ∃ b, σ.get (.at x k) = some b ∧
      if mv then ∃ b' d, ρ'.Move b b' d ∧ σ' = (σ.setAt x k (some d)).setVar y (some b')
      else ∃ b', ρ'.Copy b b' ∧ σ' = σ.setVar y (some b')
  | .modify r f => ∃ a v, σ.get r = some ⟨a, some v⟩ ∧ σ' = σ.set r ⟨a, some (app f v)⟩

/-- What operations that throw may have done. -/
def Threw (ρ ρ' : Rules A W) (σ σ' : KState C K A W) : MapOp C K I_ J F → Prop
  | .emplace _ _ a => KArgThrew ρ σ σ' a
  | .tryEmplace _ _ a => KArgThrew ρ σ σ' a
  | .insertOrAssign x k mv r => KArgThrew ρ σ σ' (if mv then .move r else .copy r : Arg C K I_) ∨
      ∃ a d, σ.get (.at x k) = some a ∧ σ.get r = some d ∧
        if mv then ∃ d', ρ.MoveAssignThrew a d d' ∧ σ' = σ.set r d' else ∃ a', ρ.AssignThrew a a' ∧ σ' = σ.setAt x k (some a')
  | .assignCopy x _ => σ' = σ.setMap x (some noElems)
  | .take _ mv x k => σ' = σ ∨ (mv = true ∧ ∃ b d, σ.get (.at x k) = some b ∧ ρ'.MoveThrew b d ∧ σ' = σ.setAt x k (some d))
  | _ => σ' = σ

theorem get_at {mx : K → Option (Box A W)} (hx : σ.maps x = some mx) (k : K) : σ.get (.at x k) = mx k := by
  simp [KState.get, hx]

theorem call_step (B : Follows ρ abs Ok H) (B' : Follows ρ' abs Ok H') (I : Inv abs Ok s) (q : MapOp C K I_ J F)
    (hl : KLegal (kstate abs s) q) (c : Ctx) :
    Ends (call H H' q c s) (fun s' => Step ρ ρ' H.app (kstate abs s) (kstate abs s') q)
      (fun s' => Threw ρ ρ' (kstate abs s) (kstate abs s') q) True := by
  cases q with
  | make y j => exact (make_ends B' I hl j c).mono (fun _ ⟨b, hb, h⟩ => ⟨b, hb, h.2⟩) (fun _ h => h.2) (fun h => h.elim)
  | destroyVar y =>
    obtain ⟨b, hb⟩ := hl
    exact (destroyVar_ends B' I hb c).mono (fun _ h => h.2) (fun _ h => h.elim) (fun h => h.elim)
  | empty x => exact (empty_ends B I hl c).mono (fun _ h => h.2) (fun _ h => h.elim) (fun h => h.elim)
  | copy x y =>
    obtain ⟨hx, m, hy⟩ := hl
    exact (copy_ends B I hx hy c).mono (fun _ ⟨m', h1, h⟩ => ⟨m, m', hy, h1, h.2⟩) (fun _ h => h.2) (fun h => h.elim)
  | move x y =>
    obtain ⟨hx, m, hy⟩ := hl
    exact (move_ends B I hx hy c).mono (fun _ h => ⟨m, hy, h.2.2⟩) (fun _ h => h.elim) (fun h => h.elim)
  | destroy x =>
    obtain ⟨m, hx⟩ := hl
    exact (destroy_ends B I hx c).mono (fun _ h => h.2) (fun _ h => h.elim) (fun h => h.elim)
  | emplace x k a =>
    obtain ⟨⟨m, hx⟩, ha⟩ := hl
    refine (emplace_ends (k := k) B I hx a ha c).mono ?_ (fun _ ⟨τ, h1, h⟩ => by rw [← h.2] at h1; exact h1) (fun h => h.elim)
    intro s' h
    cases hk : m k with
    | none => simp only [hk] at h; obtain ⟨b, τ, h1, h⟩ := h; exact .inl ⟨b, τ, h1, h.2⟩
    | some b =>
      simp only [hk] at h
      rcases h with rfl | ⟨b, τ, h1, h⟩
      · exact .inr (.inl rfl)
      · rw [← h.2] at h1; exact .inr (.inr ⟨b, h1⟩)
  | tryEmplace x k a =>
    obtain ⟨⟨m, hx⟩, ha⟩ := hl
    refine (tryEmplace_ends (k := k) B I hx a ha c).mono ?_ (fun _ ⟨_, τ, h1, h⟩ => by rw [← h.2] at h1; exact h1) (fun h => h.elim)
    intro s' h
    cases hk : m k with
    | none => simp only [hk] at h; obtain ⟨b, τ, h1, h⟩ := h; exact .inl ⟨b, τ, h1, h.2⟩
    | some b => simp only [hk] at h; subst h; exact .inr rfl
  | insertOrAssign x k mv r =>
    obtain ⟨hne, ⟨m, hx⟩, d, hd⟩ := hl
    cases hk : m k with
    | none =>
      exact (insertOrAssign_new B I hx hk mv hd c).mono (fun _ ⟨b, τ, h1, h⟩ => .inl ⟨b, τ, h1, h.2⟩)
        (fun _ ⟨τ, h1, h⟩ => .inl (by rw [← h.2] at h1; exact h1)) (fun h => h.elim)
    | some a =>
      have hk' : (kstate abs s).get (.at x k) = some a := by rw [get_at hx, hk]
      cases mv with
      | false =>
        exact (insertOrAssign_copy B I hx hk hne hd c).mono (fun _ ⟨a', h1, h⟩ => .inr ⟨a, d, hk', hd, a', h1, h.2⟩)
          (fun _ ⟨a', h1, h⟩ => .inr ⟨a, d, hk', hd, a', h1, h.2⟩) (fun h => h.elim)
      | true =>
        exact (insertOrAssign_move B I hx hk hne hd c).mono
          (fun _ ⟨a', d', h1, h⟩ => .inr ⟨a, d, hk', hd, a', d', h1, h.2⟩)
          (fun _ ⟨d', h1, h⟩ => .inr ⟨a, d, hk', hd, d', h1, h.2⟩) (fun _ => trivial)
  | erase x k =>
    obtain ⟨m, hx⟩ := hl
    refine (erase_ends B I hx k (c.env 0)).mono (fun _ h => ?_) (fun _ h => h.elim) (fun h => h.elim)
    exact h.2.trans (setAt_eq hx k none).symm
  | clear x =>
    obtain ⟨m, hx⟩ := hl
    exact (clear_ends B I hx c.env).mono (fun _ h => h.2) (fun _ h => h.elim) (fun h => h.elim)
  | assignCopy x y =>
    obtain ⟨⟨m, hx⟩, o, hy⟩ := hl
    by_cases hne : x = y
    · subst hne; rw [assignCopy_self B hx c]; exact .inl rfl
    · exact (assignCopy_ends B I hne hx hy c).mono (fun _ ⟨m', h1, h⟩ => .inr ⟨o, m', hy, h1, h.2⟩) (fun _ h => h.2)
        (fun h => h.elim)
  | assignMove x y =>
    obtain ⟨hne, ⟨m, hx⟩, o, hy⟩ := hl
    exact (assignMove_ends B I hne hx hy c).mono (fun _ h => ⟨o, hy, h.2⟩) (fun _ h => h.elim) (fun h => h.elim)
  | swap x y =>
    obtain ⟨⟨m, hx⟩, o, hy⟩ := hl
    exact (swap_ends B I hx hy c).mono (fun _ h => ⟨m, o, hx, hy, h.2.2⟩) (fun _ h => h.elim) (fun h => h.elim)
  | merge x y =>
    obtain ⟨⟨m, hx⟩, o, hy⟩ := hl
    by_cases hne : x = y
    · subst hne; rw [merge_self B hx c]; exact .inl rfl
    · exact (merge_ends B I hne hx hy c).mono (fun _ h => .inr ⟨m, o, hx, hy, h.2.2⟩) (fun _ h => h.elim) (fun h => h.elim)
  | take y mv x k =>
    obtain ⟨hy, m, hx⟩ := hl
    cases hk : m k with
    | none => rw [take_missing B' I hx hk mv c]; exact .inl rfl
    | some b =>
      have hk' : (kstate abs s).get (.at x k) = some b := by rw [get_at hx, hk]
      cases mv with
      | false =>
        exact (takeCopy_ends B' I hy hx hk c).mono (fun _ ⟨b', h1, h⟩ => ⟨b, hk', b', h1, h.2⟩) (fun _ h => .inl h.2)
          (fun h => h.elim)
      | true =>
        exact (takeMove_ends B' I hy hx hk c).mono (fun _ ⟨b', d, h1, h⟩ => ⟨b, hk', b', d, h1, h.2⟩)
          (fun _ ⟨d, h1, h⟩ => .inr ⟨rfl, b, d, hk', h1, h.2⟩) (fun h => h.elim)
  | modify r f =>
    obtain ⟨a, v, h⟩ := hl
    exact (modify_ends B I h f c).mono (fun _ h' => ⟨a, v, h, h'.2⟩) (fun _ h => h.elim) (fun h => h.elim)

/-! ### What is left alone -/

theorem get_setVar {r : Ref C K} (h : r ≠ .var y) (b : Option (Box A W)) : (σ.setVar y b).get r = σ.get r := by
  cases r with
  | var z => simp only [KState.get, KState.setVar]; rw [if_neg]; rintro rfl; exact h rfl
  | «at» z k => rfl

theorem get_setMap {r : Ref C K} (h : ∀ k, r ≠ .at x k) (m : Option (K → Option (Box A W))) :
    (σ.setMap x m).get r = σ.get r := by
  cases r with
  | var z => rfl
  | «at» z k => simp only [KState.get, KState.setMap]; rw [if_neg]; rintro rfl; exact h k rfl

theorem get_setAt {r : Ref C K} (h : r ≠ .at x k) (b : Option (Box A W)) : (σ.setAt x k b).get r = σ.get r := by
  cases r with
  | var z => rfl
  | «at» z k' =>
    simp only [KState.get, KState.setAt]
    by_cases hz : z = x
    · subst hz
      have : k' ≠ k := fun e => h (by rw [e])
      cases σ.maps z <;> simp [this]
    · simp [hz]

theorem get_set {r r' : Ref C K} (h : r ≠ r') (b : Box A W) : (σ.set r' b).get r = σ.get r := by
  cases r' with
  | var z => exact get_setVar h _
  | «at» z k => exact get_setAt h _

theorem get_argMade {r : Ref C K} {a : Arg C K I_} (h : KArgMade ρ σ b σ' a) (hr : ¬ MovesFrom r a) :
    σ'.get r = σ.get r := by
  cases a with
  | make i => rw [h.2]
  | copy r' => obtain ⟨c, -, -, rfl⟩ := h; rfl
  | move r' => obtain ⟨c, q, -, -, rfl⟩ := h; exact get_set (fun e => hr e.symm) q

theorem get_argThrew {r : Ref C K} {a : Arg C K I_} (h : KArgThrew ρ σ σ' a) (hr : ¬ MovesFrom r a) :
    σ'.get r = σ.get r := by
  cases a with
  | make i => rw [show σ' = σ from h]
  | copy r' => rw [show σ' = σ from h]
  | move r' =>
    rcases h with rfl | ⟨c, q, -, -, rfl⟩
    · rfl
    · exact get_set (fun e => hr e.symm) q

theorem get_inserted {r : Ref C K} {a : Arg C K I_} (h : Inserted ρ σ σ' x k a) (hr : ¬ (r = .at x k ∨ MovesFrom r a)) :
    σ'.get r = σ.get r := by
  obtain ⟨b, τ, h1, rfl⟩ := h
  rw [get_setAt (fun e => hr (.inl e)), get_argMade h1 (fun e => hr (.inr e))]

theorem movesFrom_arg {r r' : Ref C K} {mv : Bool}
    (h : MovesFrom r (if mv then .move r' else .copy r' : Arg C K I_)) : mv = true ∧ r = r' := by
  cases mv with
  | false => exact h.elim
  | true => exact ⟨rfl, Eq.symm h⟩

theorem step_get {app : F → W → W} {q : MapOp C K I_ J F} (h : Step ρ ρ' app σ σ' q) {r : Ref C K} (hr : ¬ Concerns r q) :
    σ'.get r = σ.get r := by
  cases q with
  | make y j => obtain ⟨b, -, rfl⟩ := h; exact get_setVar hr _
  | destroyVar y => rw [show σ' = _ from h]; exact get_setVar hr _
  | empty x => rw [show σ' = _ from h]; exact get_setMap (fun k e => hr ⟨k, e⟩) _
  | copy x y => obtain ⟨m, m', -, -, rfl⟩ := h; exact get_setMap (fun k e => hr ⟨k, e⟩) _
  | move x y =>
    obtain ⟨m, -, rfl⟩ := h
    rw [get_setMap (fun k e => hr ⟨k, .inr e⟩), get_setMap (fun k e => hr ⟨k, .inl e⟩)]
  | destroy x => rw [show σ' = _ from h]; exact get_setMap (fun k e => hr ⟨k, e⟩) _
  | emplace x k a =>
    rcases h with h | rfl | ⟨b, h⟩
    · exact get_inserted h hr
    · rfl
    · exact get_argMade h (fun e => hr (.inr e))
  | tryEmplace x k a =>
    rcases h with h | rfl
    · exact get_inserted h hr
    · rfl
  | insertOrAssign x k mv r' =>
    rcases h with h | ⟨a, d, -, -, h⟩
    · exact get_inserted h (fun e => hr (e.imp_right movesFrom_arg))
    · cases mv with
      | false => obtain ⟨a', -, rfl⟩ := h; exact get_setAt (fun e => hr (.inl e)) _
      | true =>
        obtain ⟨a', d', -, rfl⟩ := h
        rw [get_setAt (fun e => hr (.inl e)), get_set (fun e => hr (.inr ⟨rfl, e⟩))]
  | erase x k => rw [show σ' = _ from h]; exact get_setAt hr _
  | clear x => rw [show σ' = _ from h]; exact get_setMap (fun k e => hr ⟨k, e⟩) _
  | assignCopy x y =>
    rcases h with rfl | ⟨m, m', -, -, rfl⟩
    · rfl
    · exact get_setMap (fun k e => hr ⟨k, e⟩) _
  | assignMove x y =>
    obtain ⟨m, -, rfl⟩ := h
    rw [get_setMap (fun k e => hr ⟨k, .inr e⟩), get_setMap (fun k e => hr ⟨k, .inl e⟩)]
  | swap x y =>
    obtain ⟨m, o, -, -, rfl⟩ := h
    rw [get_setMap (fun k e => hr ⟨k, .inr e⟩), get_setMap (fun k e => hr ⟨k, .inl e⟩)]
  | merge x y =>
    rcases h with rfl | ⟨m, o, -, -, rfl⟩
    · rfl
    · rw [get_setMap (fun k e => hr ⟨k, .inr e⟩), get_setMap (fun k e => hr ⟨k, .inl e⟩)]
  | take y mv x k =>
    obtain ⟨b, -, h⟩ := h
    cases mv with
    | false => obtain ⟨b', -, rfl⟩ := h; exact get_setVar (fun e => hr (.inl e)) _
    | true =>
      obtain ⟨b', d, -, rfl⟩ := h
      rw [get_setVar (fun e => hr (.inl e)), get_setAt (fun e => hr (.inr ⟨rfl, e⟩))]
  | modify r' f => obtain ⟨a, v, -, rfl⟩ := h; exact get_set hr _

theorem threw_get {q : MapOp C K I_ J F} (h : Threw ρ ρ' σ σ' q) {r : Ref C K} (hr : ¬ Concerns r q) :
    σ'.get r = σ.get r := by
  cases q with
  | emplace x k a => exact get_argThrew h (fun e => hr (.inr e))
  | tryEmplace x k a => exact get_argThrew h (fun e => hr (.inr e))
  | insertOrAssign x k mv r' =>
    rcases h with h | ⟨a, d, -, -, h⟩
    · exact get_argThrew h (fun e => hr (.inr (movesFrom_arg e)))
    · cases mv with
      | false => obtain ⟨a', -, rfl⟩ := h; exact get_setAt (fun e => hr (.inl e)) _
      | true => obtain ⟨d', -, rfl⟩ := h; exact get_set (fun e => hr (.inr ⟨rfl, e⟩)) _
  | assignCopy x y => rw [show σ' = _ from h]; exact get_setMap (fun k e => hr ⟨k, e⟩) _
  | take y mv x k =>
    rcases h with rfl | ⟨hm, b, d, -, -, rfl⟩
    · rfl
    · exact get_setAt (fun e => hr (.inr ⟨hm, e⟩)) _
  | _ => rw [show σ' = σ from h]

/-! ### Maps whose elements all have the same allocator -/

/-- Functions that make elements give them allocator `α`, and no other function changes an allocator. -/
structure Keeps (α : A) (ρ : Rules A W) : Prop where
  make : ∀ {b}, ρ.Make b → b.alloc = α
  copy : ∀ {b b'}, ρ.Copy b b' → b'.alloc = α
  move : ∀ {b b' r}, ρ.Move b b' r → b'.alloc = α ∧ r.alloc = b.alloc
  moveThrew : ∀ {b r}, ρ.MoveThrew b r → r.alloc = b.alloc
  assign : ∀ {a b a'}, ρ.Assign a b a' → a'.alloc = a.alloc
  assignThrew : ∀ {a a'}, ρ.AssignThrew a a' → a'.alloc = a.alloc
  moveAssign : ∀ {a b a' b'}, ρ.MoveAssign a b a' b' → a'.alloc = a.alloc ∧ b'.alloc = b.alloc
  moveAssignThrew : ∀ {a b b'}, ρ.MoveAssignThrew a b b' → b'.alloc = b.alloc

theorem keeps_scoped (α : A) (tr : ATraits A R) (T : TSpec W X) (h1 : tr.pocca = false) (h2 : tr.pocma = false) :
    Keeps α (Rules.scoped α tr T) where
  make h := h.1
  copy h := h.1
  move h := ⟨h.1, h.2.1⟩
  moveThrew h := h.2.1
  assign h := by
    have : _ = if tr.pocca then _ else _ := h.1
    rw [this, h1]; rfl
  assignThrew h := h.1
  moveAssign h := by
    have : _ = if tr.pocma then _ else _ := h.alloc
    exact ⟨by rw [this, h2]; rfl, h.keep⟩
  moveAssignThrew h := h.2.1

/-- Every element of every map has allocator `α`. -/
def AllIn (α : A) (σ : KState C K A W) : Prop := ∀ x k b, σ.get (.at x k) = some b → b.alloc = α

variable {α : A}

theorem AllIn.setVar (h : AllIn α σ) (y : C) (b : Option (Box A W)) : AllIn α (σ.setVar y b) := h

theorem AllIn.setMap (h : AllIn α σ) {m : Option (K → Option (Box A W))}
    (hm : ∀ m' k b, m = some m' → m' k = some b → b.alloc = α) : AllIn α (σ.setMap x m) := by
  intro z k b hz
  by_cases e : z = x
  · subst e
    simp only [KState.get, KState.setMap, if_true, Option.bind_eq_some_iff] at hz
    obtain ⟨m', h1, h2⟩ := hz
    exact hm m' k b h1 h2
  · rw [get_setMap (by rintro k' ⟨⟩; exact e rfl)] at hz
    exact h z k b hz

theorem AllIn.setAt (h : AllIn α σ) {b : Option (Box A W)} (hb : ∀ b', b = some b' → b'.alloc = α) :
    AllIn α (σ.setAt x k b) := by
  intro z k' c hz
  by_cases e : (Ref.at z k' : Ref C K) = .at x k
  · cases e
    simp only [KState.get, KState.setAt, if_true, Option.bind_eq_some_iff, Option.map_eq_some_iff] at hz
    obtain ⟨m', ⟨m, -, rfl⟩, h2⟩ := hz
    simp only [if_true] at h2
    exact hb c h2
  · rw [get_setAt e] at hz
    exact h z k' c hz

theorem AllIn.set (h : AllIn α σ) {r : Ref C K} {c q : Box A W} (hr : σ.get r = some c) (hq : q.alloc = c.alloc) :
    AllIn α (σ.set r q) := by
  cases r with
  | var y => exact h
  | «at» x k => exact h.setAt (by rintro _ ⟨⟩; rw [hq]; exact h x k c hr)

theorem AllIn.map (h : AllIn α σ) {m : K → Option (Box A W)} (hx : σ.maps x = some m) {k : K} {b : Box A W}
    (hb : m k = some b) : b.alloc = α := h x k b (by rw [get_at hx, hb])

theorem AllIn.argMade (h : AllIn α σ) (U : Keeps α ρ) {a : Arg C K I_} (ha : KArgMade ρ σ b σ' a) :
    AllIn α σ' ∧ b.alloc = α := by
  cases a with
  | make i => obtain ⟨hb, rfl⟩ := ha; exact ⟨h, U.make hb⟩
  | copy r => obtain ⟨c, -, hb, rfl⟩ := ha; exact ⟨h, U.copy hb⟩
  | move r => obtain ⟨c, q, hc, hb, rfl⟩ := ha; exact ⟨h.set hc (U.move hb).2, (U.move hb).1⟩

theorem AllIn.argThrew (h : AllIn α σ) (U : Keeps α ρ) {a : Arg C K I_} (ha : KArgThrew ρ σ σ' a) : AllIn α σ' := by
  cases a with
  | make i => rw [show σ' = σ from ha]; exact h
  | copy r => rw [show σ' = σ from ha]; exact h
  | move r =>
    rcases ha with rfl | ⟨c, q, hc, hb, rfl⟩
    · exact h
    · exact h.set hc (U.moveThrew hb)

theorem AllIn.inserted (h : AllIn α σ) (U : Keeps α ρ) {a : Arg C K I_} (ha : Inserted ρ σ σ' x k a) : AllIn α σ' := by
  obtain ⟨b, τ, h1, rfl⟩ := ha
  have := h.argMade U h1
  exact this.1.setAt (by rintro _ ⟨⟩; exact this.2)

theorem none_in (α : A) : ∀ (m' : K → Option (Box A W)) k b, some (noElems : K → Option (Box A W)) = some m' → m' k = some b →
    b.alloc = α := by
  rintro _ k b ⟨⟩ h; cases h

theorem AllIn.copied (U : Keeps α ρ) {m m' : K → Option (Box A W)} (hc : MapCopy ρ m m') {k : K} {b : Box A W} (hb : m' k = some b) :
    b.alloc = α := by
  have := hc k
  cases hm : m k with
  | none => simp only [hm] at this; rw [this] at hb; cases hb
  | some c =>
    simp only [hm] at this
    obtain ⟨b', h1, h2⟩ := this
    rw [h2] at hb; cases hb; exact U.copy h1

theorem AllIn.step (h : AllIn α σ) (U : Keeps α ρ) (U' : ∀ {b b' r}, ρ'.Move b b' r → r.alloc = b.alloc) {app : F → W → W}
    {q : MapOp C K I_ J F} (hs : Step ρ ρ' app σ σ' q) : AllIn α σ' := by
  cases q with
  | make y j => obtain ⟨b, -, rfl⟩ := hs; exact h
  | destroyVar y => rw [show σ' = _ from hs]; exact h
  | empty x => rw [show σ' = _ from hs]; exact h.setMap (none_in α)
  | copy x y => obtain ⟨m, m', -, hc, rfl⟩ := hs; exact h.setMap (by rintro _ k b ⟨⟩ hb; exact AllIn.copied U hc hb)
  | move x y =>
    obtain ⟨m, hm, rfl⟩ := hs
    exact (h.setMap (by rintro _ k b ⟨⟩ hb; exact h.map hm hb)).setMap (none_in α)
  | destroy x => rw [show σ' = _ from hs]; exact h.setMap (by rintro _ _ _ ⟨⟩)
  | emplace x k a =>
    rcases hs with hs | rfl | ⟨b, hs⟩
    · exact h.inserted U hs
    · exact h
    · exact (h.argMade U hs).1
  | tryEmplace x k a =>
    rcases hs with hs | rfl
    · exact h.inserted U hs
    · exact h
  | insertOrAssign x k mv r =>
    rcases hs with hs | ⟨a, d, ha, hd, hs⟩
    · exact h.inserted U hs
    · cases mv with
      | false =>
        obtain ⟨a', h1, rfl⟩ := hs
        exact h.setAt (by rintro _ ⟨⟩; rw [U.assign h1]; exact h x k a ha)
      | true =>
        obtain ⟨a', d', h1, rfl⟩ := hs
        exact (h.set hd (U.moveAssign h1).2).setAt (by rintro _ ⟨⟩; rw [(U.moveAssign h1).1]; exact h x k a ha)
  | erase x k => rw [show σ' = _ from hs]; exact h.setAt (by rintro _ ⟨⟩)
  | clear x => rw [show σ' = _ from hs]; exact h.setMap (none_in α)
  | assignCopy x y =>
    rcases hs with rfl | ⟨m, m', -, hc, rfl⟩
    · exact h
    · exact h.setMap (by rintro _ k b ⟨⟩ hb; exact AllIn.copied U hc hb)
  | assignMove x y =>
    obtain ⟨m, hm, rfl⟩ := hs
    exact (h.setMap (by rintro _ k b ⟨⟩ hb; exact h.map hm hb)).setMap (none_in α)
  | swap x y =>
    obtain ⟨m, o, hm, ho, rfl⟩ := hs
    exact (h.setMap (by rintro _ k b ⟨⟩ hb; exact h.map ho hb)).setMap (by rintro _ k b ⟨⟩ hb; exact h.map hm hb)
  | merge x y =>
    rcases hs with rfl | ⟨m, o, hm, ho, rfl⟩
    · exact h
    · refine (h.setMap ?_).setMap ?_
      · rintro _ k b ⟨⟩ hb
        simp only [merged] at hb
        split at hb
        · rename_i c hc; cases hb; exact h.map hm hc
        · exact h.map ho hb
      · rintro _ k b ⟨⟩ hb
        simp only [unmerged] at hb
        split at hb
        · exact h.map ho hb
        · cases hb
  | take y mv x k =>
    obtain ⟨b, hb, hs⟩ := hs
    cases mv with
    | false => obtain ⟨b', -, rfl⟩ := hs; exact h
    | true =>
      obtain ⟨b', d, h1, rfl⟩ := hs
      exact AllIn.setVar (h.setAt (by rintro _ ⟨⟩; rw [U' h1]; exact h x k b hb)) _ _
  | modify r f => obtain ⟨a, v, hr, rfl⟩ := hs; exact h.set hr rfl

theorem AllIn.threw (h : AllIn α σ) (U : Keeps α ρ) (U' : ∀ {b r}, ρ'.MoveThrew b r → r.alloc = b.alloc)
    {q : MapOp C K I_ J F} (hs : Threw ρ ρ' σ σ' q) : AllIn α σ' := by
  cases q with
  | emplace x k a => exact h.argThrew U hs
  | tryEmplace x k a => exact h.argThrew U hs
  | insertOrAssign x k mv r =>
    rcases hs with hs | ⟨a, d, ha, hd, hs⟩
    · exact h.argThrew U hs
    · cases mv with
      | false =>
        obtain ⟨a', h1, rfl⟩ := hs
        exact h.setAt (by rintro _ ⟨⟩; rw [U.assignThrew h1]; exact h x k a ha)
      | true => obtain ⟨d', h1, rfl⟩ := hs; exact h.set hd (U.moveAssignThrew h1)
  | assignCopy x y => rw [show σ' = _ from hs]; exact h.setMap (none_in α)
  | take y mv x k =>
    rcases hs with rfl | ⟨-, b, d, hb, h1, rfl⟩
    · exact h
    · exact h.setAt (by rintro _ ⟨⟩; rw [U' h1]; exact h x k b hb)
  | _ => rw [show σ' = σ from hs]; exact h

theorem Reach.all (B : Follows ρ abs Ok H) (B' : Follows ρ' abs Ok H') (U : Keeps α ρ)
    (U' : ∀ {b b' r}, ρ'.Move b b' r → r.alloc = b.alloc) (U'' : ∀ {b r}, ρ'.MoveThrew b r → r.alloc = b.alloc) {init : S}
    (h0 : Ok init) (hn : ∀ l, abs init l = none) {s : MS C K S} (h : Reach H H' abs init s) : AllIn α (kstate abs s) := by
  induction h with
  | init => rintro x k b h; simp [KState.get, kstate, kview] at h
  | ret q c hr hl he ih =>
    have := call_step B B' (hr.inv B B' h0 hn) q hl c
    rw [he] at this; exact ih.step U U' this
  | threw q c e hr hl he ih =>
    have := call_step B B' (hr.inv B B' h0 hn) q hl c
    rw [he] at this; exact ih.threw U U'' this

/-! ### Where owned objects are -/

section
variable {at_ : S → Cell C → Option Addr} {tr : ATraits A R}

theorem eraseAll_placed (x : C) (e : Nat → Env) (ks : List K) :
    (eraseAll H.placed x e ks : M (MS C K S) Unit) = eraseAll H x e ks := by
  induction ks with
  | nil => rfl
  | cons k ks ih =>
    show (erase H.placed x k _ >>= fun _ => eraseAll H.placed x e ks) = (erase H x k _ >>= fun _ => eraseAll H x e ks)
    rw [ih]; rfl

theorem clear_placed (x : C) (e : Nat → Env) : (clear H.placed x e : M (MS C K S) Unit) = clear H x e := by
  unfold clear; simp only [eraseAll_placed]

theorem copyAll_placed (x y : C) (env : Nat → Env) (fails : Nat → Bool) (ks : List K) :
    (copyAll H.placed x y env fails ks : M (MS C K S) Unit) = copyAll H x y env fails ks := by
  induction ks with
  | nil => rfl
  | cons k ks ih =>
    show (insertNew H.placed x k _ _ >>= fun _ => copyAll H.placed x y env fails ks) =
      (insertNew H x k _ _ >>= fun _ => copyAll H x y env fails ks)
    rw [ih]; rfl

theorem call_placed (q : MapOp C K I_ J F) (c : Ctx) :
    (call H.placed H'.placed q c : M (MS C K S) Unit) = call H H' q c := by
  cases q <;> simp only [call, clear_placed, copyAll_placed] <;> rfl

/-- The invariant only depends on which objects exist. -/
theorem Inv.placed (I : Inv abs Ok s) : Inv (placed abs at_) Ok s where
  ok := I.ok
  rep :=
    { nodup := I.rep.nodup
      uniq := I.rep.uniq
      live := fun n => by rw [← I.rep.live n]; simp [Spec.placed]
      bound := I.rep.bound }

theorem get_placed (I : Inv abs Ok s) {r : Ref C K} : ((kstate (placed abs at_) s).get r).map (·.alloc) =
    ((kstate abs s).get r).map (·.alloc) := by
  cases r with
  | var y =>
    simp only [KState.get, kstate, kview, Spec.placed]
    cases abs s.mach (.var y) <;> rfl
  | «at» x k =>
    simp only [KState.get, kstate, kview, Spec.placed]
    cases s.maps x with
    | none => rfl
    | some m =>
      simp only [Option.map_some, Option.bind_some]
      cases m.find k with
      | none => rfl
      | some n => simp only [Option.bind_some]; cases abs s.mach (.node n) <;> rfl

theorem maps_placed {x : C} : ((kstate (placed abs at_) s).maps x).isSome = ((kstate abs s).maps x).isSome := by
  simp only [kstate, kview, Option.isSome_map]

theorem get_isSome_placed (I : Inv abs Ok s) {r : Ref C K} : ((kstate (placed abs at_) s).get r).isSome =
    ((kstate abs s).get r).isSome := by
  have := congrArg Option.isSome (get_placed (at_ := at_) I (r := r))
  simpa only [Option.isSome_map] using this

theorem legal_placed (L : Vector.Located tr abs at_ Ok H) (I : Inv abs Ok s) {q : MapOp C K I_ J F}
    (h : KLegal (kstate abs s) q) : KLegal (kstate (placed abs at_) s) q := by
  have mm : ∀ {x : C}, (∃ m, (kstate abs s).maps x = some m) → ∃ m, (kstate (placed abs at_) s).maps x = some m := by
    intro x hx
    rw [← Option.isSome_iff_exists] at hx ⊢
    rw [maps_placed]; exact hx
  have mn : ∀ {x : C}, (kstate abs s).maps x = none → (kstate (placed abs at_) s).maps x = none := by
    intro x hx
    rw [← Option.not_isSome_iff_eq_none] at hx ⊢
    rwa [maps_placed]
  have gm : ∀ {r : Ref C K}, (∃ b, (kstate abs s).get r = some b) → ∃ b, (kstate (placed abs at_) s).get r = some b := by
    intro r hr
    rw [← Option.isSome_iff_exists] at hr ⊢
    rw [get_isSome_placed I]; exact hr
  have gn : ∀ {y : C}, (kstate abs s).vars y = none → (kstate (placed abs at_) s).vars y = none := by
    intro y hy
    have := get_isSome_placed (at_ := at_) I (r := .var y)
    rw [← Option.not_isSome_iff_eq_none] at hy ⊢
    intro h
    exact hy (this.symm.trans h)
  have ga : ∀ {a : Arg C K I_}, KArgOk (kstate abs s) a → KArgOk (kstate (placed abs at_) s) a := by
    intro a ha
    cases a with
    | make i => trivial
    | copy r => exact gm ha
    | move r => exact gm ha
  cases q with
  | make y j => exact gn h
  | destroyVar y => exact gm (r := .var y) h
  | empty x => exact mn h
  | copy x y => exact ⟨mn h.1, mm h.2⟩
  | move x y => exact ⟨mn h.1, mm h.2⟩
  | destroy x => exact mm h
  | emplace x k a => exact ⟨mm h.1, ga h.2⟩
  | tryEmplace x k a => exact ⟨mm h.1, ga h.2⟩
  | insertOrAssign x k mv r => exact ⟨h.1, mm h.2.1, gm h.2.2⟩
  | erase x k => exact mm h
  | clear x => exact mm h
  | assignCopy x y => exact ⟨mm h.1, mm h.2⟩
  | assignMove x y => exact ⟨h.1, mm h.2.1, mm h.2.2⟩
  | swap x y => exact ⟨mm h.1, mm h.2⟩
  | merge x y => exact ⟨mm h.1, mm h.2⟩
  | take y mv x k => exact ⟨gn h.1, mm h.2⟩
  | modify r f =>
    obtain ⟨a, v, hr⟩ := h
    obtain ⟨q, hq⟩ : ∃ q, abs s.mach q = some ⟨a, some v⟩ ∧
        (kstate (placed abs at_) s).get r = Spec.placed abs at_ s.mach q := by
      cases r with
      | var y => exact ⟨.var y, hr, rfl⟩
      | «at» x k =>
        simp only [KState.get, kstate, kview] at hr ⊢
        cases hg : s.maps x with
        | none => simp [hg] at hr
        | some m =>
          simp only [hg, Option.map_some, Option.bind_some] at hr ⊢
          cases hf : m.find k with
          | none => simp [hf] at hr
          | some n => exact ⟨.node n, by simpa [hf] using hr, rfl⟩
    have := L.has I.ok hq.1
    obtain ⟨p, hp⟩ := Option.isSome_iff_exists.1 (this.trans rfl)
    exact ⟨a, (v, p), by rw [hq.2]; simp [Spec.placed, hq.1, hp]⟩

theorem stay {T : TSpec W X} {T' : TSpec W X} (B : Behaves tr T abs Ok H) (L : Vector.Located tr abs at_ Ok H)
    (B' : Behaves tr T' abs Ok H') (L' : Vector.Located tr abs at_ Ok H') (I : Inv abs Ok s) (q : MapOp C K I_ J F) (c : Ctx)
    (hl : KLegal (kstate abs s) q) {r : Ref C K} (hr : ¬ Concerns r q) : Ends (call H H' q c s)
      (fun s' => (kstate (placed abs at_) s').get r = (kstate (placed abs at_) s).get r)
      (fun s' => (kstate (placed abs at_) s').get r = (kstate (placed abs at_) s).get r) True := by
  have := call_step (Vector.follows_placed B L) (Vector.follows_placed B' L') I.placed q (legal_placed L I hl) c
  rw [call_placed] at this
  exact this.mono (fun _ h => step_get h hr) (fun _ h => threw_get h hr) (fun h => h)

end
end
end Verif.Maps
