import Verif.NodeCompare
import Verif.Spec.NodeCompare
import Verif.Proofs.Compare
import Verif.Proofs.NodeFacts
import Verif.Proofs.NodeSet

/-! Evaluation of comparisons of trees, and the laws of comparison of trees. -/

set_option autoImplicit false
set_option linter.unusedSectionVars false
set_option linter.unusedSimpArgs false

namespace Verif

namespace Tree
variable {A V H : Type} {K : Nat}

/-- `f 0 && … && f (k-1)` -/
def allBelow (f : Nat → Bool) : Nat → Bool
  | 0 => true
  | k + 1 => allBelow f k && f k

theorem allBelow_iff {f : Nat → Bool} : ∀ {k : Nat}, allBelow f k = true ↔ ∀ j, j < k → f j = true
  | 0 => by simp [allBelow]
  | k + 1 => by
    simp only [allBelow, Bool.and_eq_true, allBelow_iff (k := k)]
    constructor
    · rintro ⟨h1, h2⟩ j hj
      by_cases e : j = k
      · exact e ▸ h2
      · exact h1 j (by omega)
    · intro h
      exact ⟨fun j hj => h j (by omega), h k (by omega)⟩

/-- Equality of trees. -/
def eqb (f : V → V → Bool) (K : Nat) : Tree A V → Tree A V → Bool
  | absent, t => match t with
    | absent => true
    | _ => false
  | hollow _, t => match t with
    | hollow _ => true
    | _ => false
  | node _ _ v ks, t => match t with
    | node _ _ w js => f v w && allBelow (fun k => (ks k).eqb f K (js k)) K
    | _ => false

theorem eqb_iff {f : V → V → Bool} : ∀ {t u : Tree A V}, t.eqb f K u = true ↔ t.Like (fun v w => f v w = true) K u := by
  intro t
  induction t with
  | absent => intro u; cases u <;> simp [eqb, Like]
  | hollow a => intro u; cases u <;> simp [eqb, Like]
  | node p a v ks ih =>
    intro u
    cases u with
    | absent => simp [eqb, Like]
    | hollow b => simp [eqb, Like]
    | node q b w js =>
      simp only [eqb, Like, Bool.and_eq_true, allBelow_iff]
      constructor
      · rintro ⟨h1, h2⟩
        exact ⟨q, b, w, js, rfl, h1, fun k hk => ih k |>.1 (h2 k hk)⟩
      · rintro ⟨q', b', w', js', e, h1, h2⟩
        cases e
        exact ⟨h1, fun k hk => ih k |>.2 (h2 k hk)⟩

theorem kid_height {p : Addr} {a : A} {v : V} {ks : Nat → Tree A V} {n k : Nat}
    (h : (node p a v ks).height K ≤ n + 1) (hk : k < K) : (ks k).height K ≤ n := by
  have := le_maxBelow (fun k => (ks k).height K) K k hk
  simp only [height] at h
  omega

end Tree

namespace Node
section
variable {N A R V H : Type} [DecidableEq N] [DecidableEq R]
variable {res : A → R} {K : Nat} {s : NSt N A R V}

/-- The block of the node, if there is one. -/
def block : Tree A V → Option Addr
  | .node p _ _ _ => some p
  | _ => none

/-- Is there an `indirect`? -/
def present : Tree A V → Bool
  | .absent => false
  | _ => true

theorem engaged_eq {l : Loc N} {t : Tree A V} (h : Holds res K s (s.hs l) t) : engaged l s = .ok (present t) s := by
  unfold engaged
  cases t with
  | absent => rw [show s.hs l = none from h]; rfl
  | hollow a => rw [show s.hs l = some ⟨none, a⟩ from h]; rfl
  | node p a v ks => rw [h.1]; rfl

theorem nref_views {l : Loc N} {t : Tree A V} (h : Holds res K s (s.hs l) t) (ht : t ≠ .absent) :
    Views (nref l) s (block t) := by
  cases t with
  | absent => exact absurd rfl ht
  | hollow a => exact ⟨by show Indirect.valueless l s = _; rw [valueless_eq h]; rfl, nofun⟩
  | node p a v ks =>
    refine ⟨by show Indirect.valueless l s = _; rw [valueless_eq h.1]; rfl, ?_⟩
    rintro _ ⟨⟩
    exact deref_eq h.1

theorem eqMembers_eval {f : Nat → M (NSt N A R V) Bool} {g : Nat → Bool} : ∀ {k : Nat},
    (∀ j, j < k → f j s = .ok (g j) s) → eqMembers f k s = .ok (Tree.allBelow g k) s
  | 0, _ => rfl
  | k + 1, h => by
    unfold eqMembers Tree.allBelow
    rw [M.bind_ok (eqMembers_eval fun j hj => h j (by omega))]
    cases Tree.allBelow g k
    · rfl
    · simp only [if_true, Bool.true_and]
      exact h k (by omega)

theorem Header.eq_run {hd : Header} {f : Addr → Addr → M (NSt N A R V) Bool} {x y : Ref (NSt N A R V) Addr}
    {a b : Option Addr} (hx : Views x s a) (hy : Views y s b) :
    hd.eq f x y s = Spec.onValues (fun a b => a == b) f a b s := by
  cases hd
  · exact eq20_run hx hy f
  · exact eq14_run hx hy f

theorem eqOpt_eval (hd : Header) (f : V → V → Bool) : ∀ {t u : Tree A V} {l m : Loc N} {n : Nat},
    Holds res K s (s.hs l) t → Holds res K s (s.hs m) u → (t.height K ≤ n ∨ u.height K ≤ n) →
    eqOpt hd (eqNode hd (pureOp f) K n) l m s = .ok (t.eqb f K u) s := by
  intro t
  induction t with
  | absent =>
    intro u l m n ht hu _
    unfold eqOpt
    rw [M.bind_ok (engaged_eq ht), M.bind_ok (engaged_eq hu)]
    cases u <;> rfl
  | hollow a =>
    intro u l m n ht hu _
    unfold eqOpt
    rw [M.bind_ok (engaged_eq ht), M.bind_ok (engaged_eq hu)]
    cases u with
    | absent => rfl
    | hollow b => exact Header.eq_run (nref_views ht nofun) (nref_views hu nofun)
    | node q b w js => exact Header.eq_run (nref_views ht nofun) (nref_views hu nofun)
  | node p a v ks ih =>
    intro u l m n ht hu hn
    unfold eqOpt
    rw [M.bind_ok (engaged_eq ht), M.bind_ok (engaged_eq hu)]
    cases u with
    | absent => rfl
    | hollow b => exact Header.eq_run (nref_views ht nofun) (nref_views hu nofun)
    | node q b w js =>
      refine Eq.trans (Header.eq_run (nref_views ht nofun) (nref_views hu nofun)) ?_
      show eqNode hd (pureOp f) K n p q s = _
      cases n with
      | zero => rcases hn with hn | hn <;> simp [Tree.height] at hn
      | succ n =>
        unfold eqNode
        rw [M.bind_ok (readObj_some ht.2.1), M.bind_ok (readObj_some hu.2.1)]
        simp only [pureOp, pure_bind, Tree.eqb]
        cases f v w
        · rfl
        · simp only [if_true, Bool.true_and]
          refine eqMembers_eval fun k hk => ih k (ht.2.2 k hk) (hu.2.2 k hk) ?_
          exact hn.imp (fun h => Tree.kid_height h hk) (fun h => Tree.kid_height h hk)

theorem cmpMembers_eval {f : Nat → M (NSt N A R V) Cmp} {g : Nat → Cmp} : ∀ {k : Nat},
    (∀ j, j < k → f j s = .ok (g j) s) → cmpMembers f k s = .ok (firstDifference g k) s
  | 0, _ => rfl
  | k + 1, h => by
    unfold cmpMembers firstDifference
    rw [M.bind_ok (cmpMembers_eval fun j hj => h j (by omega))]
    cases firstDifference g k
    case equivalent => exact h k (by omega)
    all_goals rfl

theorem cmpOpt_eval (f : V → V → Cmp) : ∀ {t u : Tree A V} {l m : Loc N} {n : Nat},
    Holds res K s (s.hs l) t → Holds res K s (s.hs m) u → (t.height K ≤ n ∨ u.height K ≤ n) →
    cmpOpt (cmpNode (pureOp f) K n) l m s = .ok (t.cmp f K u) s := by
  intro t
  induction t with
  | absent =>
    intro u l m n ht hu _
    unfold cmpOpt
    rw [M.bind_ok (engaged_eq ht), M.bind_ok (engaged_eq hu)]
    cases u <;> rfl
  | hollow a =>
    intro u l m n ht hu _
    unfold cmpOpt
    rw [M.bind_ok (engaged_eq ht), M.bind_ok (engaged_eq hu)]
    cases u with
    | absent => rfl
    | hollow b => exact cmp20_run (nref_views ht nofun) (nref_views hu nofun) _
    | node q b w js => exact cmp20_run (nref_views ht nofun) (nref_views hu nofun) _
  | node p a v ks ih =>
    intro u l m n ht hu hn
    unfold cmpOpt
    rw [M.bind_ok (engaged_eq ht), M.bind_ok (engaged_eq hu)]
    cases u with
    | absent => rfl
    | hollow b => exact cmp20_run (nref_views ht nofun) (nref_views hu nofun) _
    | node q b w js =>
      refine Eq.trans (cmp20_run (nref_views ht nofun) (nref_views hu nofun) _) ?_
      show cmpNode (pureOp f) K n p q s = _
      cases n with
      | zero => rcases hn with hn | hn <;> simp [Tree.height] at hn
      | succ n =>
        unfold cmpNode
        rw [M.bind_ok (readObj_some ht.2.1), M.bind_ok (readObj_some hu.2.1)]
        simp only [pureOp, pure_bind, Tree.cmp]
        cases f v w
        case equivalent =>
          simp only [if_true]
          refine cmpMembers_eval fun k hk => ih k (ht.2.2 k hk) (hu.2.2 k hk) ?_
          exact hn.imp (fun h => Tree.kid_height h hk) (fun h => Tree.kid_height h hk)
        all_goals rfl

theorem hashMembers_eval {mix : H → H → H} {h : H} {f : Nat → M (NSt N A R V) H} {g : Nat → H} : ∀ {k : Nat},
    (∀ j, j < k → f j s = .ok (g j) s) → hashMembers mix h f k s = .ok (Tree.mixed mix h g k) s
  | 0, _ => rfl
  | k + 1, hk => by
    unfold hashMembers Tree.mixed
    rw [M.bind_ok (hashMembers_eval fun j hj => hk j (by omega)), M.bind_ok (hk k (by omega))]
    rfl

theorem Header.hash_run {hd : Header} {npos : H} {f : Addr → M (NSt N A R V) H} {x : Ref (NSt N A R V) Addr}
    {a : Option Addr} (hx : Views x s a) : hd.hash npos f x s = a.elim (pure npos) f s := by
  cases hd
  · exact hash20_run hx npos f
  · exact hash14_run hx npos f

theorem hashOpt_eval (hd : Header) (nothing npos : H) (mix : H → H → H) (f : V → H) :
    ∀ {t : Tree A V} {l : Loc N} {n : Nat}, Holds res K s (s.hs l) t → t.height K ≤ n →
    hashOpt hd nothing npos (hashNode hd nothing npos mix (fun v => pure (f v)) K n) l s =
      .ok (t.hash nothing npos mix f K) s := by
  intro t
  induction t with
  | absent =>
    intro l n ht _
    unfold hashOpt
    rw [M.bind_ok (engaged_eq ht)]; rfl
  | hollow a =>
    intro l n ht _
    unfold hashOpt
    rw [M.bind_ok (engaged_eq ht)]
    exact Header.hash_run (nref_views ht nofun)
  | node p a v ks ih =>
    intro l n ht hn
    unfold hashOpt
    rw [M.bind_ok (engaged_eq ht)]
    refine Eq.trans (Header.hash_run (nref_views ht nofun)) ?_
    show hashNode hd nothing npos mix (fun v => pure (f v)) K n p s = _
    cases n with
    | zero => simp [Tree.height] at hn
    | succ n =>
      unfold hashNode
      rw [M.bind_ok (readObj_some ht.2.1)]
      simp only [pure_bind, Tree.hash]
      exact hashMembers_eval fun k hk => ih k (ht.2.2 k hk) (Tree.kid_height hn hk)

/-- The place denoted by a path holds the tree there. -/
theorem place_holds : ∀ (r : List Nat) {l : Loc N} {t : Tree A V}, Holds res K s (s.hs l) t → t.Has K r →
    Holds res K s (s.hs (place l t r)) (t.at' r)
  | [], _, t, h, _ => by cases t <;> exact h
  | _ :: _, _, .absent, _, h => h.elim
  | _ :: _, _, .hollow _, _, h => h.elim
  | k :: r, _, .node _ _ _ ks, h, hr => place_holds r (t := ks k) (h.2.2 k hr.1) hr.2

theorem shows_resolve {W : N → Tree A V} (h : Shows res K W s) {P : Path N} (hP : Exists K W P) :
    resolve P s = .ok (loc W P) s := walk_eq P.steps (h P.root) hP

theorem shows_holds {W : N → Tree A V} (h : Shows res K W s) {P : Path N} (hP : Exists K W P) :
    Holds res K s (s.hs (loc W P)) (treeAt W P) := place_holds P.steps (h P.root) hP

theorem equal_eval {W : N → Tree A V} (h : Shows res K W s) (hd : Header) (f : V → V → Bool) {P Q : Path N} {n : Nat}
    (hP : Exists K W P) (hQ : Exists K W Q) (hn : Fits K n W P ∨ Fits K n W Q) :
    equal hd (pureOp f) K n P Q s = .ok ((treeAt W P).eqb f K (treeAt W Q)) s := by
  unfold equal
  rw [M.bind_ok (shows_resolve h hP), M.bind_ok (shows_resolve h hQ)]
  exact eqOpt_eval hd f (shows_holds h hP) (shows_holds h hQ) hn

theorem compare_eval {W : N → Tree A V} (h : Shows res K W s) (f : V → V → Cmp) {P Q : Path N} {n : Nat}
    (hP : Exists K W P) (hQ : Exists K W Q) (hn : Fits K n W P ∨ Fits K n W Q) :
    compare (pureOp f) K n P Q s = .ok ((treeAt W P).cmp f K (treeAt W Q)) s := by
  unfold compare
  rw [M.bind_ok (shows_resolve h hP), M.bind_ok (shows_resolve h hQ)]
  exact cmpOpt_eval f (shows_holds h hP) (shows_holds h hQ) hn

theorem hash_eval {W : N → Tree A V} (h : Shows res K W s) (hd : Header) (nothing npos : H) (mix : H → H → H)
    (f : V → H) {P : Path N} {n : Nat} (hP : Exists K W P) (hn : Fits K n W P) :
    hash hd nothing npos mix (fun v => pure (f v)) K n P s = .ok ((treeAt W P).hash nothing npos mix f K) s := by
  unfold hash
  rw [M.bind_ok (shows_resolve h hP)]
  exact hashOpt_eval hd nothing npos mix f (shows_holds h hP) hn

/-! Comparisons of payloads that may throw. -/

theorem eqMembers_looks {f : Nat → M (NSt N A R V) Bool} : ∀ {k : Nat},
    (∀ j, j < k → (∃ b, f j s = .ok b s) ∨ ∃ e, f j s = .threw e s) →
    (∃ b, eqMembers f k s = .ok b s) ∨ ∃ e, eqMembers f k s = .threw e s
  | 0, _ => Or.inl ⟨true, rfl⟩
  | k + 1, h => by
    unfold eqMembers
    rcases eqMembers_looks (k := k) fun j hj => h j (by omega) with ⟨b, hb⟩ | ⟨e, he⟩
    · rw [M.bind_ok hb]
      cases b
      · exact Or.inl ⟨false, rfl⟩
      · exact h k (by omega)
    · right; exact ⟨e, by rw [M.bind_eq, he]⟩

theorem eqOpt_looks (hd : Header) {f : V → V → M (NSt N A R V) Bool} (hf : ∀ v w, OnlyLooks (f v w)) :
    ∀ {t u : Tree A V} {l m : Loc N} {n : Nat},
    Holds res K s (s.hs l) t → Holds res K s (s.hs m) u → (t.height K ≤ n ∨ u.height K ≤ n) →
    (∃ b, eqOpt hd (eqNode hd f K n) l m s = .ok b s) ∨ ∃ e, eqOpt hd (eqNode hd f K n) l m s = .threw e s := by
  intro t
  induction t with
  | absent =>
    intro u l m n ht hu _
    unfold eqOpt
    rw [M.bind_ok (engaged_eq ht), M.bind_ok (engaged_eq hu)]
    cases u <;> exact Or.inl ⟨_, rfl⟩
  | hollow a =>
    intro u l m n ht hu _
    unfold eqOpt
    rw [M.bind_ok (engaged_eq ht), M.bind_ok (engaged_eq hu)]
    cases u with
    | absent => exact Or.inl ⟨_, rfl⟩
    | hollow b => exact Or.inl ⟨_, Header.eq_run (nref_views ht nofun) (nref_views hu nofun)⟩
    | node q b w js => exact Or.inl ⟨_, Header.eq_run (nref_views ht nofun) (nref_views hu nofun)⟩
  | node p a v ks ih =>
    intro u l m n ht hu hn
    unfold eqOpt
    rw [M.bind_ok (engaged_eq ht), M.bind_ok (engaged_eq hu)]
    cases u with
    | absent => exact Or.inl ⟨_, rfl⟩
    | hollow b => exact Or.inl ⟨_, Header.eq_run (nref_views ht nofun) (nref_views hu nofun)⟩
    | node q b w js =>
      have e : ∀ g, hd.eq g (nref l) (nref m) s = g p q s :=
        fun g => Header.eq_run (nref_views ht nofun) (nref_views hu nofun)
      simp only [present, bne_self_eq_false, Bool.false_eq_true, if_false, Bool.not_true]
      rw [e]
      cases n with
      | zero => rcases hn with hn | hn <;> simp [Tree.height] at hn
      | succ n =>
        unfold eqNode
        rw [M.bind_ok (readObj_some ht.2.1), M.bind_ok (readObj_some hu.2.1)]
        rcases hf v w s with ⟨b, hb⟩ | ⟨x, hx⟩
        · rw [M.bind_ok hb]
          cases b
          · exact Or.inl ⟨false, rfl⟩
          · exact eqMembers_looks fun k hk => ih k (ht.2.2 k hk) (hu.2.2 k hk)
              (hn.imp (fun h => Tree.kid_height h hk) (fun h => Tree.kid_height h hk))
        · right; exact ⟨x, by rw [M.bind_eq, hx]⟩

theorem cmpMembers_looks {f : Nat → M (NSt N A R V) Cmp} : ∀ {k : Nat},
    (∀ j, j < k → (∃ b, f j s = .ok b s) ∨ ∃ e, f j s = .threw e s) →
    (∃ b, cmpMembers f k s = .ok b s) ∨ ∃ e, cmpMembers f k s = .threw e s
  | 0, _ => Or.inl ⟨.equivalent, rfl⟩
  | k + 1, h => by
    unfold cmpMembers
    rcases cmpMembers_looks (k := k) fun j hj => h j (by omega) with ⟨b, hb⟩ | ⟨e, he⟩
    · rw [M.bind_ok hb]
      cases b
      case equivalent => exact h k (by omega)
      all_goals exact Or.inl ⟨_, rfl⟩
    · right; exact ⟨e, by rw [M.bind_eq, he]⟩

theorem cmpOpt_looks {f : V → V → M (NSt N A R V) Cmp} (hf : ∀ v w, OnlyLooks (f v w)) :
    ∀ {t u : Tree A V} {l m : Loc N} {n : Nat},
    Holds res K s (s.hs l) t → Holds res K s (s.hs m) u → (t.height K ≤ n ∨ u.height K ≤ n) →
    (∃ b, cmpOpt (cmpNode f K n) l m s = .ok b s) ∨ ∃ e, cmpOpt (cmpNode f K n) l m s = .threw e s := by
  intro t
  induction t with
  | absent =>
    intro u l m n ht hu _
    unfold cmpOpt
    rw [M.bind_ok (engaged_eq ht), M.bind_ok (engaged_eq hu)]
    cases u <;> exact Or.inl ⟨_, rfl⟩
  | hollow a =>
    intro u l m n ht hu _
    unfold cmpOpt
    rw [M.bind_ok (engaged_eq ht), M.bind_ok (engaged_eq hu)]
    cases u with
    | absent => exact Or.inl ⟨_, rfl⟩
    | hollow b => exact Or.inl ⟨_, cmp20_run (nref_views ht nofun) (nref_views hu nofun) _⟩
    | node q b w js => exact Or.inl ⟨_, cmp20_run (nref_views ht nofun) (nref_views hu nofun) _⟩
  | node p a v ks ih =>
    intro u l m n ht hu hn
    have e0 : ∀ g, cmpOpt g l m s = (if present (.node p a v ks : Tree A V) && present u then
        Compare20.cmp ⟨some g, fun _ _ => M.diverge, fun _ _ => M.diverge⟩ (nref l) (nref m)
        else pure (Cmp.ofBool (present (.node p a v ks : Tree A V)) (present u))) s := by
      intro g
      unfold cmpOpt
      rw [M.bind_ok (engaged_eq ht), M.bind_ok (engaged_eq hu)]
    cases u with
    | absent => exact Or.inl ⟨_, e0 _⟩
    | hollow b => exact Or.inl ⟨_, (e0 _).trans (cmp20_run (nref_views ht nofun) (nref_views hu nofun) _)⟩
    | node q b w js =>
      have e : ∀ g, cmpOpt g l m s = g p q s :=
        fun g => (e0 g).trans (cmp20_run (nref_views ht nofun) (nref_views hu nofun) _)
      rw [e]
      cases n with
      | zero => rcases hn with hn | hn <;> simp [Tree.height] at hn
      | succ n =>
        unfold cmpNode
        rw [M.bind_ok (readObj_some ht.2.1), M.bind_ok (readObj_some hu.2.1)]
        rcases hf v w s with ⟨b, hb⟩ | ⟨x, hx⟩
        · rw [M.bind_ok hb]
          cases b
          case equivalent =>
            exact cmpMembers_looks fun k hk => ih k (ht.2.2 k hk) (hu.2.2 k hk)
              (hn.imp (fun h => Tree.kid_height h hk) (fun h => Tree.kid_height h hk))
          all_goals exact Or.inl ⟨_, rfl⟩
        · right; exact ⟨x, by rw [M.bind_eq, hx]⟩

end
end Node

/-! ## Laws -/

namespace Tree
variable {A V H : Type} {K : Nat}

theorem Like.refl {C : V → V → Prop} (hC : ∀ v, C v v) : ∀ (t : Tree A V), t.Like C K t := by
  intro t
  induction t with
  | absent => rfl
  | hollow a => exact ⟨a, rfl⟩
  | node p a v ks ih => exact ⟨p, a, v, ks, rfl, hC v, fun k _ => ih k⟩

theorem Like.symm {C D : V → V → Prop} (hC : ∀ v w, C v w → D w v) : ∀ {t u : Tree A V}, t.Like C K u → u.Like D K t := by
  intro t
  induction t with
  | absent => intro u h; rw [show u = absent from h]; rfl
  | hollow a => rintro u ⟨b, rfl⟩; exact ⟨a, rfl⟩
  | node p a v ks ih =>
    rintro u ⟨q, b, w, js, rfl, h1, h2⟩
    exact ⟨p, a, v, ks, rfl, hC _ _ h1, fun k hk => ih k (h2 k hk)⟩

theorem Like.trans {C D E : V → V → Prop} (hC : ∀ u v w, C u v → D v w → E u w) : ∀ {t u r : Tree A V},
    t.Like C K u → u.Like D K r → t.Like E K r := by
  intro t
  induction t with
  | absent => intro u r h h'; rw [show u = absent from h] at h'; exact h'
  | hollow a => rintro u r ⟨b, rfl⟩ h'; exact h'
  | node p a v ks ih =>
    rintro u r ⟨q, b, w, js, rfl, h1, h2⟩ ⟨q', b', w', js', rfl, h1', h2'⟩
    exact ⟨q', b', w', js', rfl, hC _ _ _ h1 h1', fun k hk => ih k (h2 k hk) (h2' k hk)⟩

theorem firstDifference_congr {f g : Nat → Cmp} : ∀ {k : Nat}, (∀ j, j < k → f j = g j) →
    firstDifference f k = firstDifference g k
  | 0, _ => rfl
  | k + 1, h => by
    unfold firstDifference
    rw [firstDifference_congr fun j hj => h j (by omega), h k (by omega)]

theorem firstDifference_equivalent {f : Nat → Cmp} : ∀ {k : Nat},
    firstDifference f k = .equivalent ↔ ∀ j, j < k → f j = .equivalent
  | 0 => by simp [firstDifference]
  | k + 1 => by
    unfold firstDifference
    have ih := firstDifference_equivalent (f := f) (k := k)
    constructor
    · intro h j hj
      split at h
      · rename_i h0
        by_cases e : j = k
        · exact e ▸ h
        · exact ih.1 h0 j (by omega)
      · exact absurd h ‹_›
    · intro h
      rw [if_pos (ih.2 fun j hj => h j (by omega))]
      exact h k (by omega)

/-- The result is the comparison at the first place that is not equivalent. -/
theorem firstDifference_eq {f : Nat → Cmp} {c : Cmp} (hc : c ≠ .equivalent) : ∀ {k : Nat},
    firstDifference f k = c ↔ ∃ j, j < k ∧ f j = c ∧ ∀ i, i < j → f i = .equivalent
  | 0 => by simp [firstDifference, hc.symm]
  | k + 1 => by
    unfold firstDifference
    have ih := firstDifference_eq (f := f) hc (k := k)
    have ie := firstDifference_equivalent (f := f) (k := k)
    constructor
    · intro h
      split at h
      · rename_i h0; exact ⟨k, by omega, h, ie.1 h0⟩
      · obtain ⟨j, h1, h2, h3⟩ := ih.1 h; exact ⟨j, by omega, h2, h3⟩
    · rintro ⟨j, h1, h2, h3⟩
      by_cases e : j = k
      · subst e; rw [if_pos (ie.2 h3)]; exact h2
      · have := ih.2 ⟨j, by omega, h2, h3⟩
        rw [if_neg (by rw [this]; exact hc)]; exact this

theorem cmp_equivalent {f : V → V → Cmp} : ∀ {t u : Tree A V},
    t.cmp f K u = .equivalent ↔ t.Like (fun v w => f v w = .equivalent) K u := by
  intro t
  induction t with
  | absent => intro u; cases u <;> simp [cmp, Like]
  | hollow a => intro u; cases u <;> simp [cmp, Like]
  | node p a v ks ih =>
    intro u
    cases u with
    | absent => simp [cmp, Like]
    | hollow b => simp [cmp, Like]
    | node q b w js =>
      simp only [cmp, Like]
      constructor
      · intro h
        split at h
        · rename_i h0
          exact ⟨q, b, w, js, rfl, h0, fun k hk => ih k |>.1 (firstDifference_equivalent.1 h k hk)⟩
        · exact absurd h ‹_›
      · rintro ⟨q', b', w', js', e, h1, h2⟩
        cases e
        rw [if_pos h1]
        exact firstDifference_equivalent.2 fun k hk => ih k |>.2 (h2 k hk)

theorem firstDifference_reverse {f g : Nat → Cmp} : ∀ {k : Nat}, (∀ j, j < k → g j = Spec.reverse (f j)) →
    firstDifference g k = Spec.reverse (firstDifference f k)
  | 0, _ => rfl
  | k + 1, h => by
    unfold firstDifference
    rw [firstDifference_reverse fun j hj => h j (by omega), h k (by omega)]
    cases firstDifference f k <;> simp [Spec.reverse]

theorem cmp_reverse {f : V → V → Cmp} (hf : ∀ a b, f b a = Spec.reverse (f a b)) : ∀ (t u : Tree A V),
    u.cmp f K t = Spec.reverse (t.cmp f K u) := by
  intro t
  induction t with
  | absent => intro u; cases u <;> rfl
  | hollow a => intro u; cases u <;> rfl
  | node p a v ks ih =>
    intro u
    cases u with
    | absent => rfl
    | hollow b => rfl
    | node q b w js =>
      simp only [cmp]
      rw [hf v w, firstDifference_reverse (f := fun k => (ks k).cmp f K (js k)) fun k _ => ih k (js k)]
      cases f v w <;> simp [Spec.reverse]

theorem firstDifference_trans {f g h : Nat → Cmp}
    (h1 : ∀ j, f j = .less → g j = .less → h j = .less)
    (h2 : ∀ j, f j = .equivalent → h j = g j) (h3 : ∀ j, g j = .equivalent → h j = f j) {k : Nat}
    (hf : firstDifference f k = .less) (hg : firstDifference g k = .less) : firstDifference h k = .less := by
  obtain ⟨i, i1, i2, i3⟩ := (firstDifference_eq (by decide)).1 hf
  obtain ⟨j, j1, j2, j3⟩ := (firstDifference_eq (by decide)).1 hg
  refine (firstDifference_eq (by decide)).2 ?_
  rcases Nat.lt_trichotomy i j with hij | hij | hij
  · exact ⟨i, i1, (h3 i (j3 i hij)).trans i2, fun a ha => (h2 a (i3 a ha)).trans (j3 a (by omega))⟩
  · subst hij; exact ⟨i, i1, h1 i i2 j2, fun a ha => (h2 a (i3 a ha)).trans (j3 a ha)⟩
  · exact ⟨j, j1, (h2 j (i3 j hij)).trans j2, fun a ha => (h2 a (i3 a (by omega))).trans (j3 a ha)⟩

theorem cmp_congr {f : V → V → Cmp} (hf : Spec.Lawful f) : ∀ {t u : Tree A V} (r : Tree A V),
    t.cmp f K u = .equivalent → t.cmp f K r = u.cmp f K r := by
  intro t
  induction t with
  | absent => intro u r h; rw [show u = absent from cmp_equivalent.1 h]
  | hollow a => intro u r h; obtain ⟨b, rfl⟩ := cmp_equivalent.1 h; cases r <;> rfl
  | node p a v ks ih =>
    intro u r h
    obtain ⟨q, b, w, js, rfl, h1, h2⟩ := cmp_equivalent.1 h
    cases r with
    | absent => rfl
    | hollow c => rfl
    | node q' b' w' js' =>
      simp only [cmp]
      rw [hf.congr v w w' h1, firstDifference_congr fun k hk => ih k (js' k) (cmp_equivalent.2 (h2 k hk))]

theorem cmp_congr_right {f : V → V → Cmp} (hf : Spec.Lawful f) {t u r : Tree A V} (h : u.cmp f K r = .equivalent) :
    t.cmp f K r = t.cmp f K u := by
  rw [cmp_reverse hf.reverse r t, cmp_reverse hf.reverse u t, cmp_congr hf t h]

theorem cmp_trans {f : V → V → Cmp} (hf : Spec.Lawful f) : ∀ {t u r : Tree A V},
    t.cmp f K u = .less → u.cmp f K r = .less → t.cmp f K r = .less := by
  intro t
  induction t with
  | absent => intro u r h1 h2; cases u <;> cases r <;> simp [cmp] at h1 h2 ⊢
  | hollow a => intro u r h1 h2; cases u <;> cases r <;> simp [cmp] at h1 h2 ⊢
  | node p a v ks ih =>
    intro u r h1 h2
    cases u with
    | absent => simp [cmp] at h1
    | hollow b => simp [cmp] at h1
    | node q b w js =>
      cases r with
      | absent => simp [cmp] at h2
      | hollow b => simp [cmp] at h2
      | node q' b' w' js' =>
        simp only [cmp] at h1 h2 ⊢
        by_cases e1 : f v w = .equivalent
        · rw [if_pos e1] at h1
          rw [hf.congr v w w' e1]
          by_cases e2 : f w w' = .equivalent
          · rw [if_pos e2] at h2 ⊢
            exact firstDifference_trans (f := fun k => (ks k).cmp f K (js k)) (g := fun k => (js k).cmp f K (js' k))
              (fun k => ih k) (fun k h => cmp_congr hf (js' k) h) (fun k h => cmp_congr_right hf h) h1 h2
          · rw [if_neg e2] at h2 ⊢; exact h2
        · rw [if_neg e1] at h1
          by_cases e2 : f w w' = .equivalent
          · have : f v w' = f v w := by
              rw [hf.reverse w' v, hf.reverse w v, hf.congr w w' v e2]
            rw [this, if_neg e1]; exact h1
          · rw [if_neg e2] at h2
            have := hf.trans _ _ _ h1 h2
            rw [this, if_neg (by decide)]

theorem cmp_lawful {f : V → V → Cmp} (hf : Spec.Lawful f) : Spec.Lawful (Tree.cmp (A := A) f K) where
  refl t := cmp_equivalent.2 (Like.refl hf.refl t)
  reverse t u := cmp_reverse hf.reverse t u
  trans _ _ _ := cmp_trans hf
  congr _ _ r h := cmp_congr hf r h

theorem firstDifference_total {f : Nat → Cmp} (h : ∀ j, f j ≠ .unordered) : ∀ {k : Nat},
    firstDifference f k ≠ .unordered
  | 0 => by simp [firstDifference]
  | k + 1 => by
    unfold firstDifference
    split
    · exact h k
    · exact firstDifference_total h

theorem cmp_total {f : V → V → Cmp} (hf : Spec.Total f) : Spec.Total (Tree.cmp (A := A) f K) := by
  intro t
  induction t with
  | absent => intro u; cases u <;> simp [cmp]
  | hollow a => intro u; cases u <;> simp [cmp]
  | node p a v ks ih =>
    intro u
    cases u with
    | absent => simp [cmp]
    | hollow b => simp [cmp]
    | node q b w js =>
      simp only [cmp]
      split
      · exact firstDifference_total fun k => ih k (js k)
      · exact hf v w

theorem mixed_congr {mix : H → H → H} {h : H} {f g : Nat → H} : ∀ {k : Nat}, (∀ j, j < k → f j = g j) →
    mixed mix h f k = mixed mix h g k
  | 0, _ => rfl
  | k + 1, e => by
    unfold mixed
    rw [mixed_congr fun j hj => e j (by omega), e k (by omega)]

theorem Like.hash {C : V → V → Prop} {f : V → H} {nothing npos : H} {mix : H → H → H}
    (hf : ∀ v w, C v w → f v = f w) : ∀ {t u : Tree A V}, t.Like C K u →
    t.hash nothing npos mix f K = u.hash nothing npos mix f K := by
  intro t
  induction t with
  | absent => intro u h; rw [show u = absent from h]
  | hollow a => rintro u ⟨b, rfl⟩; rfl
  | node p a v ks ih =>
    rintro u ⟨q, b, w, js, rfl, h1, h2⟩
    simp only [Tree.hash]
    rw [hf v w h1, mixed_congr fun k hk => ih k (h2 k hk)]

end Tree
end Verif
