import Verif.Proofs.NodeInside

set_option autoImplicit false
set_option linter.unusedSectionVars false
set_option linter.unusedSimpArgs false

/-! Copy assignment of a tree from a part of itself. -/

namespace Verif.Node
open Verif

/-- As `Post`, with undefined behaviour allowed if `U`. -/
def PostU {σ α : Type} (U : Prop) (Q : α → σ → Prop) (E : σ → Prop) : Res σ α → Prop
  | .ok a s => Q a s
  | .threw _ s => E s
  | .terminated => False
  | .ub _ => U
  | .diverged => False

section
variable {σ α β : Type} {U : Prop}

theorem PostU.bind {Q : α → σ → Prop} {Q' : β → σ → Prop} {E : σ → Prop} {m : M σ α} {f : α → M σ β}
    {s : σ} (h : PostU U Q E (m s)) (hf : ∀ a s', Q a s' → PostU U Q' E (f a s')) :
    PostU U Q' E ((m >>= f) s) := by
  rw [M.bind_eq]
  revert h
  cases m s <;> intro h
  · exact hf _ _ h
  · exact h
  · exact h
  · exact h
  · exact h

theorem PostU.mono {Q Q' : α → σ → Prop} {E E' : σ → Prop} {U' : Prop} {r : Res σ α}
    (h : PostU U Q E r) (hq : ∀ a s, Q a s → Q' a s) (he : ∀ s, E s → E' s) (ht : U → U') :
    PostU U' Q' E' r := by
  cases r with
  | ok a s => exact hq a s h
  | threw e s => exact he s h
  | terminated => exact h
  | ub u => exact ht h
  | diverged => exact h

theorem Post.toU {Q : α → σ → Prop} {E : σ → Prop} {r : Res σ α} (h : Post False Q E r) : PostU U Q E r := by
  cases r with
  | ok a s => exact h
  | threw e s => exact h
  | terminated => exact h
  | ub u => exact h.elim
  | diverged => exact h

end

section
variable {N A R V X : Type} [DecidableEq N] [DecidableEq R]
variable {res : A → R} {K : Nat}

/-- Once a member cannot be assigned, neither can the members after it. -/
theorem each_stuck {U : Prop} {f : Nat → M (NSt N A R V) Unit} {Q Q' : Unit → NSt N A R V → Prop}
    {E : NSt N A R V → Prop} {i : Nat} {s : NSt N A R V} (h : PostU U Q E (eachMember f i s))
    (hf : ∀ z, Q () z → U ∧ ∃ u, f i z = .ub u) : ∀ n, i < n → PostU U Q' E (eachMember f n s)
  | 0, hn => absurd hn (Nat.not_lt_zero _)
  | n + 1, hn => by
    show PostU U Q' E ((eachMember f n >>= fun _ => f n) s)
    by_cases e : i = n
    · subst e
      refine PostU.bind h ?_
      rintro ⟨⟩ z hz
      obtain ⟨hU, u, hu⟩ := hf z hz
      rw [hu]; exact hU
    · have := each_stuck (Q' := fun _ _ => False) h hf n (by omega)
      exact PostU.bind this (fun _ _ hF => hF.elim)

theorem hasMember_dead {p : Addr} {k : Nat} {z : NSt N A R V} (h : z.heap p = none) :
    ∃ u, hasMember (N := N) (A := A) p k z = .ub u := by
  refine ⟨.deadObject, ?_⟩
  unfold hasMember
  simp [readObj, readBody, M.bind_eq, h]

/-- A way in which some step does not go to the last member. -/
def Stray (K : Nat) (r : List Nat) : Prop := ∃ m, m ∈ r ∧ m + 1 < K

theorem stray_split : ∀ {r : List Nat}, Stray K r → (∀ m, m ∈ r → m < K) →
    ∃ j m r', r = List.replicate j (K - 1) ++ m :: r' ∧ m + 1 < K
  | [], ⟨_, h, _⟩, _ => nomatch h
  | x :: r, ⟨m, h, hm⟩, hK => by
    by_cases hx : x + 1 < K
    · exact ⟨0, x, r, rfl, hx⟩
    · have hx' : x = K - 1 := by have := hK x (List.mem_cons_self); omega
      have hmr : m ∈ r := by
        rcases List.mem_cons.1 h with e | h
        · subst e; exact absurd hm hx
        · exact h
      obtain ⟨j, m', r', e, hm'⟩ := stray_split (r := r) ⟨m, hmr, hm⟩ (fun y hy => hK y (List.mem_cons_of_mem _ hy))
      exact ⟨j + 1, m', r', by rw [e, hx', List.replicate_succ]; rfl, hm'⟩

theorem has_lt : ∀ {r : List Nat} {t : Tree A V}, t.Has K r → ∀ m, m ∈ r → m < K
  | [], _, _, _, h => nomatch h
  | _ :: _, .absent, h, _, _ => h.elim
  | _ :: _, .hollow _, h, _, _ => h.elim
  | k :: r, .node _ _ _ ks, h, m, hm => by
    rcases List.mem_cons.1 hm with e | hm
    · subst e; exact h.1
    · exact has_lt (t := ks k) h.2 m hm

theorem has_snoc : ∀ {r r' : List Nat} {t : Tree A V}, t.Has K r → (t.at' r).Has K r' → t.Has K (r ++ r')
  | [], _, t, _, h => by cases t <;> exact h
  | _ :: _, _, .absent, h, _ => h.elim
  | _ :: _, _, .hollow _, h, _ => h.elim
  | k :: _, _, .node _ _ _ ks, h, h' => ⟨h.1, has_snoc (t := ks k) h.2 h'⟩

variable (tr : ATraits A R) (T : TSpec V X)

/-- Assignment of a node from a node inside its own tree, up to the member that contains the other. -/
theorem copyAssign_upto {U : Prop} {l : Loc N} {ts : Loc N → Tree A V} {s : NSt N A R V} {m : Nat} (a : A)
    {d q : Addr} {c b : A} {u v : V} {ks js : Nat → Tree A V} {k : Nat} {r : List Nat}
    {Qk Q : NSt N A R V → Prop} {E : NSt N A R V → Prop} (hS : tr.Sound)
    (hf : Forest tr.res K (· = l) ts s) (hc : Clean K s) (ht : ts l = .node d c u ks)
    (hr : (Tree.node d c u ks).Has K (k :: r)) (hq : (ks k).at' r = .node q b v js)
    (hks : ∀ i, i < K → (ks i).height K ≤ m)
    (hE : ∀ t' s', t' ≠ Tree.absent → Chng tr.res K (· = l) ts (upd ts l t') s s' → E s')
    (hk : ∀ (w : V) (s₁ z : NSt N A R V) (os ts' : Loc N → Tree A V), (∃ ch, T.copyAssign u v ch = (none, w)) →
      Chng tr.res K (Members d K) os ts' s₁ z → Clean K s₁ →
      (∀ j, os (.field d j) = ks j) →
      (∀ j, j < k → (js j).Like (Given T) K (ts' (.field d j))) →
      (∀ j, k ≤ j → ts' (.field d j) = ks j) →
      z.heap d = some ⟨tr.res c, some w⟩ → Source tr.res K q b v js z →
      (∀ {ts'' : Loc N → Tree A V} {z' : NSt N A R V}, Chng tr.res K (Members d K) os ts'' s₁ z' →
        Chng tr.res K (· = l) ts (upd ts l (.node d c w (fun k => ts'' (.field d k)))) s z') →
      PostU U (fun _ => Qk) E (copyAssignMember tr (ops tr T K m) d q k z))
    (hdead : ∀ z, Qk z → k + 1 < K → U ∧ z.heap q = none)
    (hdone : ∀ z, Qk z → k + 1 = K → Q z) :
    PostU U (fun _ => Q) E ((ops tr T K (m + 1)).copyAssign d q s) := by
  have h1 := hf.holds l rfl
  have hsp := hf.sep l rfl
  rw [ht] at h1 hsp
  have hfo := (focusOne (r := k :: r) hf rfl (by rw [ht]; exact hr)).1.holds _ rfl
  rw [ht] at hfo
  have hfo : Holds tr.res K s (s.hs (place (.field d k) (ks k) r)) ((ks k).at' r) := hfo
  rw [hq] at hfo
  obtain ⟨hkK, hr⟩ := hr
  have hqk : (ks k).Mem K q := Tree.Mem.at' (r := r) hr (by rw [hq]; exact Or.inl rfl)
  have hjk : ∀ i x, i < K → (js i).Mem K x → (ks k).Mem K x := fun i x hi hx =>
    Tree.Mem.at' (r := r) hr (by rw [hq]; exact Or.inr ⟨i, hi, hx⟩)
  have hqsep : (Tree.node q b v js).Sep K := by rw [← hq]; exact Tree.Sep.at' hr (hsp.2.2 k hkK)
  have hqd : q ≠ d := fun e => hsp.1 k hkK (e ▸ hqk)
  have hqh : (Tree.node q b v js).height K ≤ m := by
    rw [← hq]; exact Nat.le_trans (at_height r (ks k) hr) (hks k hkK)
  have hjs : ∀ i, i < K → (js i).height K ≤ m := fun i hi => by
    obtain ⟨m', e, h⟩ := Tree.height_kid hqh
    have := h i hi; omega
  show PostU _ _ _ ((readObj d >>= fun d' => readObj q >>= fun v => choose >>= fun ch =>
    emit (.assign d (.copyOf q)) >>= fun _ => writeObj d (T.copyAssign d' v ch).2 >>= fun _ =>
    rethrow (T.copyAssign d' v ch).1 >>= fun _ =>
    eachMember (copyAssignMember tr (ops tr T K m) d q) K) s)
  rw [M.bind_ok (readObj_some h1.2.1), M.bind_ok (readObj_some hfo.2.1)]
  have hch : (choose : M (NSt N A R V) Nat) s =
    .ok (s.env.choice s.ti) { s with ti := s.ti + 1 } := rfl
  rw [M.bind_ok hch]
  have hem : emit (Ev.assign d (.copyOf q)) ({ s with ti := s.ti + 1 } : NSt N A R V) =
    .ok () { s with ti := s.ti + 1, trace := s.trace ++ [.assign d (.copyOf q)] } := rfl
  rw [M.bind_ok hem]
  generalize hca : T.copyAssign u v (s.env.choice s.ti) = ca
  obtain ⟨ex, w⟩ := ca
  have hwr := writeObj_some (p := d) (r := tr.res c) (v := u) w
    (s := { s with ti := s.ti + 1, trace := s.trace ++ [.assign d (.copyOf q)] }) h1.2.1
  rw [M.bind_ok hwr]
  have ct := Chng.touch (b := c) (w := w) hf hc ht rfl
  generalize hs₁ : ({ s with
    ti := s.ti + 1, trace := s.trace ++ [.assign d (.copyOf q)]
    heap := upd s.heap d (some ⟨tr.res c, some w⟩) } : NSt N A R V) = s₁
  have h1heap : s₁.heap = upd s.heap d (some ⟨tr.res c, some w⟩) := by rw [← hs₁]
  have h1hs : s₁.hs = s.hs := by rw [← hs₁]
  have c1 : Chng tr.res K (· = l) ts (upd ts l (.node d c w ks)) s s₁ :=
    ct.congr rfl rfl h1heap (by rw [h1hs]; exact (upd_id _ _ _ h1.1).symm)
  cases ex with
  | some e => exact hE _ _ (by simp) c1
  | none =>
    show PostU _ _ _ (eachMember (copyAssignMember tr (ops tr T K m) d q) K s₁)
    have hmem := c1.post.members (s' := s₁) (upd_same _ _ _) (fun _ _ => rfl)
      (by rw [h1heap, upd_same]; simp) rfl
    have hd₁ : s₁.heap d = some ⟨tr.res c, some w⟩ := by rw [h1heap, upd_same]
    generalize hos : opened (upd ts l (Tree.node d c w ks)) d ks = os at hmem
    have hos' : ∀ k, os (.field d k) = ks k := fun k => by rw [← hos, opened_member]
    have hclose : ∀ {ts' : Loc N → Tree A V} {z : NSt N A R V},
        Chng tr.res K (Members d K) os ts' s₁ z →
        Chng tr.res K (· = l) ts (upd ts l (.node d c w (fun k => ts' (.field d k)))) s z := by
      intro ts' z cz
      have cz' : Chng tr.res K (Opened (· = l) l d K) os ts' s₁ z := cz.dset (fun x => by
        constructor
        · rintro (⟨h1, h2⟩ | h)
          · exact absurd h1 h2
          · exact h
        · intro h; exact Or.inr h)
      rw [← hos] at cz'
      have cc := Chng.close c1.post rfl (upd_same _ _ _) cz'
      refine Chng.trans hc c1 (cc.eqOn (fun _ _ => rfl) (fun x e => ?_))
      cases e
      rw [upd_same, upd_same]
    let P : Nat → NSt N A R V → Prop := fun i z => ∃ ts',
      Chng tr.res K (Members d K) os ts' s₁ z ∧
      (∀ j, j < i → (js j).Like (Given T) K (ts' (.field d j))) ∧
      (∀ j, i ≤ j → ts' (.field d j) = ks j)
    have hfacts : ∀ {i z ts'}, i ≤ k → Chng tr.res K (Members d K) os ts' s₁ z →
        (∀ j, i ≤ j → ts' (.field d j) = ks j) →
        z.heap d = some ⟨tr.res c, some w⟩ ∧ Source tr.res K q b v js z := by
      intro i z ts' hik cz hold
      constructor
      · rw [cz.keeps_heap (by rw [hd₁]; simp) ?_]
        · exact hd₁
        · rintro x ⟨k, hk, rfl⟩
          exact hmem.out d k _ ⟨k, hk, rfl⟩ ⟨k, hk, rfl⟩
      · have hko := hold k hik
        have hfk := (focusOne (r := r) cz.post (⟨k, hkK, rfl⟩ : Members d K (.field d k))
          (by rw [hko]; exact hr)).1.holds _ rfl
        rw [hko, hq] at hfk
        exact { node := hfk.2.1, kids := hfk.2.2, sep := hqsep.2.2, self := hqsep.1 }
    have hstep : ∀ j, j < k → ∀ z, P j z → Post False (fun _ z' => P (j + 1) z')
        (fun z' => ∃ ts', Chng tr.res K (Members d K) os ts' s₁ z')
        (copyAssignMember tr (ops tr T K m) d q j z) := by
      rintro j hj z ⟨ts', cz, hlk, hold⟩
      have hjK : j < K := Nat.lt_trans hj hkK
      have hoj := hold j (Nat.le_refl j)
      obtain ⟨hdz, hsz⟩ := hfacts (Nat.le_of_lt hj) cz hold
      have hspec := copyAssignMember_spec tr T (ops tr T K m) (ts := ts') hjK
        (fun _ => by rw [hoj]; exact dtor_spec tr T _ m (hks j hjK))
        (copy_of_build tr T _ _ (build_spec tr T (js j) m (hjs j hjK)))
        (by rw [hoj]; exact assignCopy_spec tr T hS (js j) (ks j) m (hks j hjK) (hjs j hjK)) a hdz hsz
        cz.post cz.clean hqd
        (by rw [hoj]; exact fun h => hsp.2.1 j k hjK hkK (Nat.ne_of_lt hj) q h hqk)
        (fun h => hsp.1 k hkK (hjk j d hjK h))
        (fun y hy => by rw [hoj]; exact fun h => hsp.2.1 j k hjK hkK (Nat.ne_of_lt hj) y h (hjk j y hjK hy))
      refine hspec.mono ?_ ?_ id
      · rintro _ z' ⟨t', c', hl'⟩
        refine ⟨_, Chng.trans (hc := ?_) cz c', ?_, ?_⟩
        · exact c1.clean
        · intro i hi
          by_cases e : i = j
          · subst e; rw [upd_same]; exact hl'
          · rw [upd_other _ _ (by intro e'; cases e'; exact e rfl)]
            exact hlk i (by omega)
        · intro i hi
          rw [upd_other _ _ (by intro e'; cases e'; omega)]
          exact hold i (by omega)
      · rintro z' ⟨t', c'⟩
        exact ⟨_, Chng.trans c1.clean cz c'⟩
    have hP0 : P 0 s₁ := ⟨os, Chng.refl hmem c1.clean, fun j hj => absurd hj (Nat.not_lt_zero j),
      fun j _ => hos' j⟩
    have hfirst : PostU U (fun _ => Qk) E (eachMember (copyAssignMember tr (ops tr T K m) d q) (k + 1) s₁) := by
      show PostU _ _ _ ((eachMember (copyAssignMember tr (ops tr T K m) d q) k >>= fun _ =>
        copyAssignMember tr (ops tr T K m) d q k) s₁)
      refine PostU.bind (((each_rule hstep hP0).toU (U := U)).mono (fun _ _ h => h)
        (fun z ⟨ts', cz⟩ => hE _ _ (by simp) (hclose cz)) id) ?_
      rintro _ z ⟨ts', cz, hlk, hold⟩
      obtain ⟨hdz, hsz⟩ := hfacts (Nat.le_refl k) cz hold
      exact hk w s₁ z os ts' ⟨_, hca⟩ cz c1.clean hos' hlk hold hdz hsz hclose
    by_cases hlast : k + 1 = K
    · have := hfirst.mono (Q' := fun _ => Q) (E' := E) (U' := U) (fun _ z hz => hdone z hz hlast) (fun _ h => h) id
      rw [hlast] at this
      exact this
    · have hlt : k + 1 < K := by omega
      refine each_stuck hfirst ?_ K hlt
      intro z hz
      obtain ⟨hU, hdq⟩ := hdead z hz hlt
      obtain ⟨x, hx⟩ := hasMember_dead (N := N) (A := A) (k := k + 1) hdq
      refine ⟨hU, x, ?_⟩
      unfold copyAssignMember
      rw [M.bind_eq, hx]

/-- The assignment of the member that contains the other node. -/
theorem member_cases {d q : Addr} {b : A} {x : R} {v w : V} {js ks : Nat → Tree A V} {k m : Nat} {r : List Nat}
    {os ts' : Loc N → Tree A V} {s₁ z : NSt N A R V} (hkK : k < K) (hr : (ks k).Has K r)
    (hq : (ks k).at' r = .node q b v js) (hks : (ks k).height K ≤ m) (hc : Clean K s₁)
    (cz : Chng tr.res K (Members d K) os ts' s₁ z)
    (hold : ts' (.field d k) = ks k) (hd : z.heap d = some ⟨x, some w⟩) (hs : Source tr.res K q b v js z) :
    (js k = .absent ∧ ∃ z', copyAssignMember tr (ops tr T K m) d q k z = .ok () z' ∧
      Chng tr.res K (Members d K) os (upd ts' (.field d k) .absent) s₁ z' ∧
      (∀ y, (ks k).Mem K y → z'.heap y = none) ∧ z'.hs (.field d k) = none) ∨
    (js k ≠ .absent ∧ (ks k).Has K (r ++ [k]) ∧ (ks k).at' (r ++ [k]) = js k ∧
      copyAssignMember tr (ops tr T K m) d q k z =
        (Indirect.assignCopy tr (ops tr T K m) (.field d k) (place (.field d k) (ks k) (r ++ [k])) >>=
          fun _ => pure ()) z) := by
  have hm : Members (N := N) d K (.field d k) := ⟨k, hkK, rfl⟩
  have hsrc := hs.kids k hkK
  have hdst := cz.post.holds _ hm
  have hed : ts' (.field d k) ≠ .absent := by
    rw [hold]; intro e; rw [e] at hq; cases r <;> cases hq
  have hasq : hasMember (N := N) (A := A) q k z = .ok (z.hs (.field q k)).isSome z := by
    unfold hasMember; rw [M.bind_ok (readObj_some hs.node)]; rfl
  have hasd : hasMember (N := N) (A := A) d k z = .ok (z.hs (.field d k)).isSome z := by
    unfold hasMember; rw [M.bind_ok (readObj_some hd)]; rfl
  unfold copyAssignMember
  rw [M.bind_ok hasq]
  by_cases hes : js k = .absent
  · left
    refine ⟨hes, ?_⟩
    have e1 : z.hs (.field q k) = none := by rw [hes] at hsrc; exact hsrc
    rw [e1]
    simp only [Option.isSome_none, Bool.false_eq_true, if_false]
    rw [M.bind_ok hasd, hdst.isSome hed]
    simp only [if_true]
    have hdt := dtor_spec (N := N) tr T (ts' (.field d k)) m (by rw [hold]; exact hks)
    obtain ⟨z', h1, c1, _⟩ := hdt (.field d k) ts' z rfl hed (cz.post.one hm) cz.clean
    refine ⟨z', h1, Chng.trans hc cz (c1.extend cz.post (fun l e => by cases e; exact hm)
      (fun l _ hn => upd_other _ _ hn)), fun y hy => ?_, ?_⟩
    · rcases c1.freed _ y rfl (by rw [hold]; exact hy) with ⟨l', e, h⟩ | h
      · cases e; rw [upd_same] at h; exact h.elim
      · exact h
    · have := c1.post.holds _ rfl
      rw [upd_same] at this
      exact this
  · right
    have hap : (ks k).Has K (r ++ [k]) := by
      refine has_snoc hr ?_
      rw [hq]
      exact ⟨hkK, by cases js k <;> trivial⟩
    refine ⟨hes, hap, ?_, ?_⟩
    · rw [at_append r [k] (ks k) hr, hq]
      show (js k).at' [] = _
      cases js k <;> rfl
    · rw [hsrc.isSome hes]
      simp only [if_true]
      rw [M.bind_ok hasd, hdst.isSome hed]
      simp only [if_true]
      rw [place_append r [k] _ (ks k) hr, hq]
      show _ = (Indirect.assignCopy tr (ops tr T K m) (.field d k) (place (.field q k) (js k) []) >>= _) z
      rw [show place (N := N) (.field q k) (js k) [] = .field q k by cases js k <;> rfl]

/-- What `assignCopy` does when both objects have values, the allocators agree and the type is assignable. -/
theorem assignCopy_memberwise {l l₂ : Loc N} {s : NSt N A R V} {d q : Addr} {c b : A} {n : Nat} (hne : l ≠ l₂)
    (h1 : s.hs l = some ⟨some d, c⟩) (h2 : s.hs l₂ = some ⟨some q, b⟩) (hta : T.assignable = true)
    (heq : tr.eq c b = true) :
    Indirect.assignCopy tr (ops tr T K n) l l₂ s =
      ((ops tr T K n).copyAssign d q >>= fun _ =>
        (if tr.pocca then (do let o ← getH l₂; setAlloc l o.alloc; pure l) else pure l)) s := by
  unfold Indirect.assignCopy
  rw [if_neg hne, M.bind_ok (valueless_eq h2)]
  simp only [show ((some q : Option Addr) == none) = false from rfl, Bool.false_eq_true, if_false]
  rw [M.bind_ok (getH_some h1), M.bind_ok (getH_some h2)]
  rw [ops_assignable]
  have hasg : (T.assignable && !((some d : Option Addr) == none) && tr.eq c b) = true := by
    rw [hta, heq]; rfl
  simp only [hasg, if_true]
  rw [M.bind_ok (deref_eq h1), M.bind_ok (deref_eq h2)]

theorem prefix_of {j m k : Nat} {r r' : List Nat} {x : Nat} (e : r ++ [k] = List.replicate j x ++ m :: r') :
    ∃ r'', r = List.replicate j x ++ r'' := by
  rcases List.eq_nil_or_concat r' with rfl | ⟨r₀, y, rfl⟩
  · refine ⟨[], ?_⟩
    have := List.append_inj_left' (s₁ := r) (s₂ := List.replicate j x) (t₁ := [k]) (t₂ := [m]) e rfl
    simpa using this
  · refine ⟨m :: r₀, ?_⟩
    have e' : r ++ [k] = (List.replicate j x ++ m :: r₀) ++ [y] := by simpa using e
    exact List.append_inj_left' e' rfl

/-- Copy assignment from a part, without propagation of the allocator. -/
theorem alias (hS : tr.Sound) (hpo : tr.pocca = false) (a : A) : ∀ (n : Nat) (t : Tree A V) (way : List Nat)
    (l : Loc N) (ts : Loc N → Tree A V) (s : NSt N A R V), ts l = t → way ≠ [] →
    Forest tr.res K (· = l) ts s → Clean K s → t.Has K way → t.at' way ≠ .absent → t.height K ≤ n →
    PostU (Stray K way)
      (fun _ s' => ∃ t', Chng tr.res K (· = l) ts (upd ts l t') s s' ∧
        (t.at' way).Like (Given T) K t' ∧ t'.allocOr a = t.allocOr a ∧
        (∀ d c u ks q b v js, t = .node d c u ks → t.at' way = .node q b v js → T.assignable = true →
          tr.eq c b = true → ∃ w ks', t' = .node d c w ks') ∧
        ∀ j m r', way = List.replicate j (K - 1) ++ m :: r' → m + 1 < K →
          ∀ x, (t.at' (List.replicate j (K - 1))).Mem K x → s'.heap x = none)
      (fun s' => ∃ t', t' ≠ .absent ∧ Chng tr.res K (· = l) ts (upd ts l t') s s')
      (Indirect.assignCopy tr (ops tr T K n) l (place l t way) s)
  | _, _, [], _, _, _, _, h, _, _, _, _, _ => absurd rfl h
  | n, t, k :: r, l, ts, s, ht, _, hf, hc, hr, hna, hn => by
    have hlh := hf.holds l rfl
    have hnab : t ≠ .absent := by intro e; rw [e] at hr; exact hr
    -- all of the old tree is gone when the new one shares nothing with it
    have hgone : ∀ {t' : Tree A V} {s' : NSt N A R V}, Chng tr.res K (· = l) ts (upd ts l t') s s' →
        (∀ x, t'.Mem K x → s.heap x = none) →
        ∀ j m r', k :: r = List.replicate j (K - 1) ++ m :: r' → m + 1 < K →
          ∀ x, (t.at' (List.replicate j (K - 1))).Mem K x → s'.heap x = none := by
      intro t' s' cz hnew j m r' e _ x hx
      have hxt : t.Mem K x := Tree.Mem.at' (r := List.replicate j (K - 1))
        (has_append _ (m :: r') t (e ▸ hr)).1 hx
      rcases cz.freed l x rfl (by rw [ht]; exact hxt) with ⟨l', e', h⟩ | h
      · cases e'
        rw [upd_same] at h
        exact absurd (hnew x h) (hlh.alloc (by rw [ht]; exact hxt))
      · exact h
    cases hq : t.at' (k :: r) with
    | absent => exact absurd hq hna
    | hollow b =>
      obtain ⟨_, h⟩ := assignCopy_hollow_inside tr T (b := b) a hf hc (by rw [ht]; exact hr)
        (by rw [ht]; exact hn) (by rw [ht]; exact hq)
      obtain ⟨s', h1, c1⟩ := h hpo
      rw [ht] at h1 c1
      rw [h1]
      exact ⟨_, c1, ⟨_, rfl⟩, rfl,
        (fun _ _ _ _ _ _ _ _ _ h => by cases h), hgone c1 (fun _ h => h.elim)⟩
    | node q b v js =>
      by_cases hasg : (T.assignable && tr.eq (t.allocOr a) b) = true
      · obtain ⟨hta, heq⟩ := Bool.and_eq_true _ _ ▸ hasg
        cases t with
        | absent => exact absurd rfl hnab
        | hollow _ => exact hr.elim
        | node d c u ks =>
          obtain ⟨m, rfl, hks⟩ := Tree.height_kid hn
          have hfo := (focusOne (r := k :: r) hf rfl (by rw [ht]; exact hr)).1.holds _ rfl
          rw [ht, hq] at hfo
          have hne := inside_ne hf (by rw [ht]; exact hr)
          rw [ht] at hlh hne
          rw [assignCopy_memberwise tr T hne hlh.1 hfo.1 hta heq, hpo]
          simp only [Bool.false_eq_true, if_false]
          refine PostU.bind (Q := fun _ s' => ∃ w ks', Chng tr.res K (· = l) ts (upd ts l (.node d c w ks')) s s' ∧
            (Tree.node q b v js).Like (Given T) K (.node d c w ks') ∧
            (∀ j m r', k :: r = List.replicate j (K - 1) ++ m :: r' → m + 1 < K →
              ∀ x, ((Tree.node d c u ks).at' (List.replicate j (K - 1))).Mem K x → s'.heap x = none)) ?_ ?_
          · refine copyAssign_upto tr T a (Qk := fun z' => k + 1 < K ∧ z'.heap q = none ∨ k + 1 = K ∧
              ∃ w ks', Chng tr.res K (· = l) ts (upd ts l (.node d c w ks')) s z' ∧
              (Tree.node q b v js).Like (Given T) K (.node d c w ks') ∧
              (∀ j m r', k :: r = List.replicate j (K - 1) ++ m :: r' → m + 1 < K →
                ∀ x, ((Tree.node d c u ks).at' (List.replicate j (K - 1))).Mem K x → z'.heap x = none))
              hS hf hc ht hr hq hks (fun t' s' h c => ⟨t', h, c⟩) ?_ ?_ ?_
            · rintro w s₁ z os ts' ⟨ch, hw⟩ cz hc₁ hos hlk hold hdz hsz hclose
              have hm : Members (N := N) d K (.field d k) := ⟨k, hr.1, rfl⟩
              have hqk : (ks k).Mem K q := Tree.Mem.at' (r := r) hr.2 (by
                rw [show (ks k).at' r = .node q b v js from hq]; exact Or.inl rfl)
              -- the members before `k` are assigned, and `k` is
              have hall : ∀ (t' : Tree A V), k + 1 = K → (js k).Like (Given T) K t' →
                  (Tree.node q b v js).Like (Given T) K
                    (.node d c w (fun j => upd ts' (.field d k) t' (.field d j))) := by
                intro t' hK hl
                refine ⟨d, c, w, _, rfl, Or.inr ⟨u, ch, hw⟩, fun j hj => ?_⟩
                by_cases e : j = k
                · subst e; show (js j).Like _ _ (upd ts' (Loc.field d j) t' _); rw [upd_same]; exact hl
                · show (js j).Like _ _ (upd ts' (Loc.field d k) t' _)
                  rw [upd_other _ _ (by intro e'; cases e'; exact e rfl)]
                  exact hlk j (by omega)
              rcases member_cases tr T hr.1 hr.2 hq (hks k hr.1) hc₁ cz (hold k (Nat.le_refl k)) hdz hsz with
                ⟨hja, z', h1, c1, hdead, _⟩ | ⟨hjn, hap, hat, h1⟩
              · rw [h1]
                rcases Nat.lt_or_ge (k + 1) K with hlt | hge
                · exact Or.inl ⟨hlt, hdead q hqk⟩
                · have hK : k + 1 = K := by have := hr.1; omega
                  refine Or.inr ⟨hK, w, _, hclose c1, hall _ hK (by rw [hja]; rfl), ?_⟩
                  intro j i r' e hi x hx
                  cases j with
                  | zero => cases e; omega
                  | succ j =>
                    rw [List.replicate_succ] at e hx
                    have ek : k = K - 1 := by omega
                    have hx : ((ks (K - 1)).at' (List.replicate j (K - 1))).Mem K x := hx
                    rw [← ek] at hx
                    have er : r = List.replicate j (K - 1) ++ i :: r' := (List.cons.inj e).2
                    refine hdead x (Tree.Mem.at' (r := List.replicate j (K - 1)) ?_ (by rw [← ek]; exact hx))
                    exact (has_append _ _ (ks k) (er ▸ hr.2)).1
              · rw [h1]
                have ih := alias hS hpo a m (ks k) (r ++ [k]) (.field d k) ts' z (hold k (Nat.le_refl k)) (by simp)
                  (cz.post.one hm) cz.clean hap (by rw [hat]; exact hjn) (hks k hr.1)
                have hext : ∀ {t' : Tree A V} {z' : NSt N A R V},
                    Chng tr.res K (· = .field d k) ts' (upd ts' (.field d k) t') z z' →
                    Chng tr.res K (Members d K) os (upd ts' (.field d k) t') s₁ z' := fun c =>
                  Chng.trans hc₁ cz (c.extend cz.post (fun l e => by cases e; exact hm)
                    (fun l _ hn => upd_other _ _ hn))
                refine PostU.bind (ih.mono (fun _ _ h => h) ?_ ?_) ?_
                · rintro z' ⟨t', _, c'⟩
                  exact ⟨_, by simp, hclose (hext c')⟩
                · rintro ⟨i, hi, hi'⟩
                  refine ⟨i, ?_, hi'⟩
                  simp only [List.mem_append, List.mem_cons, List.not_mem_nil, or_false] at hi ⊢
                  exact hi.symm
                · rintro _ z' ⟨t', c', hl', _, _, hdead⟩
                  rw [hat] at hl'
                  rcases Nat.lt_or_ge (k + 1) K with hlt | hge
                  · refine Or.inl ⟨hlt, ?_⟩
                    obtain ⟨j, i, r', e, hi⟩ := stray_split (K := K) (r := r ++ [k]) ⟨k, by simp, hlt⟩ (has_lt hap)
                    refine hdead j i r' e hi q ?_
                    obtain ⟨r'', e'⟩ := prefix_of e
                    have hh := has_append (List.replicate j (K - 1)) r'' (ks k) (e' ▸ hr.2)
                    refine Tree.Mem.at' (r := r'') hh.2 ?_
                    rw [← at_append _ _ _ hh.1, ← e', show (ks k).at' r = .node q b v js from hq]
                    exact Or.inl rfl
                  · have hK : k + 1 = K := by have := hr.1; omega
                    refine Or.inr ⟨hK, w, _, hclose (hext c'), hall _ hK hl', ?_⟩
                    intro j i r' e hi x hx
                    cases j with
                    | zero => cases e; omega
                    | succ j =>
                      rw [List.replicate_succ] at e hx
                      have ek : k = K - 1 := by omega
                      have hx : ((ks (K - 1)).at' (List.replicate j (K - 1))).Mem K x := hx
                      have er : r = List.replicate j (K - 1) ++ i :: r' := (List.cons.inj e).2
                      refine hdead j i (r' ++ [k]) (by rw [er]; simp) hi x ?_
                      rw [ek]; exact hx
            · rintro z (⟨_, h⟩ | ⟨hK, _⟩) hlt
              · exact ⟨⟨k, List.mem_cons_self, hlt⟩, h⟩
              · omega
            · rintro z (⟨hlt, _⟩ | ⟨_, h⟩) hK
              · omega
              · exact h
          · rintro _ s' ⟨w, ks', c1, h1, h2⟩
            exact ⟨_, c1, h1, rfl, fun _ _ _ _ _ _ _ _ h _ _ _ => by cases h; exact ⟨w, ks', rfl⟩, h2⟩
      · have hasg : (T.assignable && tr.eq (t.allocOr a) b) = false := by
          cases h : (T.assignable && tr.eq (t.allocOr a) b)
          · rfl
          · exact absurd h hasg
        obtain ⟨_, h⟩ := assignCopy_make_inside tr T a hf hc (by rw [ht]; exact hr)
          (by rw [ht]; exact hn) (by rw [ht]; exact hq) (by rw [ht]; exact hasg)
        have h := h hpo
        rw [ht] at h
        refine (h.toU).mono ?_ ?_ id
        · rintro _ s' ⟨t', c1, hcp, hnew⟩
          refine ⟨t', c1, hcp.like (fun _ _ h => Or.inl h), hcp.allocOr (by simp), ?_, hgone c1 hnew⟩
          intro d c u ks q' b' v' js' e1 e2 h1 h2
          subst e1
          cases e2
          rw [h1, show (Tree.node d c u ks).allocOr a = c from rfl, h2] at hasg
          cases hasg
        · rintro s' ⟨e1, e2⟩
          refine ⟨t, hnab, ?_⟩
          rw [upd_eq ht]
          exact (Chng.refl hf hc).congr rfl rfl e1 e2

/-- Copy assignment from a part that is not in the last member, when the node itself is assigned. -/
theorem alias_first (hS : tr.Sound) (hpo : tr.pocca = false) (a : A) {n k : Nat} {r : List Nat} {l : Loc N}
    {ts : Loc N → Tree A V} {s : NSt N A R V} {d q : Addr} {c b : A} {u v : V} {ks js : Nat → Tree A V}
    (ht : ts l = .node d c u ks) (hf : Forest tr.res K (· = l) ts s) (hc : Clean K s)
    (hr : (Tree.node d c u ks).Has K (k :: r)) (hq : (Tree.node d c u ks).at' (k :: r) = .node q b v js)
    (hn : (Tree.node d c u ks).height K ≤ n) (hk : k + 1 < K) (hta : T.assignable = true)
    (heq : tr.eq c b = true) :
    PostU True (fun _ _ => False) (fun s' => ∃ t', t' ≠ .absent ∧ Chng tr.res K (· = l) ts (upd ts l t') s s')
      (Indirect.assignCopy tr (ops tr T K n) l (place l (.node d c u ks) (k :: r)) s) := by
  refine (alias tr T hS hpo a n _ (k :: r) l ts s ht (by simp) hf hc hr (by rw [hq]; simp) hn).mono ?_
    (fun _ h => h) (fun _ => trivial)
  rintro _ s' ⟨t', c', _, _, hsh, hdead⟩
  obtain ⟨w, ks', rfl⟩ := hsh _ _ _ _ _ _ _ _ rfl hq hta heq
  have h1 := c'.post.holds l rfl
  rw [upd_same] at h1
  have h2 := hdead 0 k r rfl hk d (Or.inl rfl)
  rw [h1.2.1] at h2
  cases h2

/-- Copy assignment from a part, with propagation of the allocator, never completes. -/
theorem alias_pocca (hS : tr.Sound) (hpo : tr.pocca = true) (a : A) : ∀ (n : Nat) (t : Tree A V) (way : List Nat)
    (l : Loc N) (ts : Loc N → Tree A V) (s : NSt N A R V), ts l = t → way ≠ [] →
    Forest tr.res K (· = l) ts s → Clean K s → t.Has K way → t.at' way ≠ .absent → t.height K ≤ n →
    PostU True (fun _ _ => False) (fun s' => ∃ t', t' ≠ .absent ∧ Chng tr.res K (· = l) ts (upd ts l t') s s')
      (Indirect.assignCopy tr (ops tr T K n) l (place l t way) s)
  | _, _, [], _, _, _, _, h, _, _, _, _, _ => absurd rfl h
  | n, t, k :: r, l, ts, s, ht, _, hf, hc, hr, hna, hn => by
    have hlh := hf.holds l rfl
    have hnab : t ≠ .absent := by intro e; rw [e] at hr; exact hr
    cases hq : t.at' (k :: r) with
    | absent => exact absurd hq hna
    | hollow b =>
      obtain ⟨h, _⟩ := assignCopy_hollow_inside tr T (b := b) a hf hc (by rw [ht]; exact hr)
        (by rw [ht]; exact hn) (by rw [ht]; exact hq)
      have h := h hpo
      rw [ht] at h
      rw [h]; trivial
    | node q b v js =>
      by_cases hasg : (T.assignable && tr.eq (t.allocOr a) b) = true
      · obtain ⟨hta, heq⟩ := Bool.and_eq_true _ _ ▸ hasg
        cases t with
        | absent => exact absurd rfl hnab
        | hollow _ => exact hr.elim
        | node d c u ks =>
          obtain ⟨m, rfl, hks⟩ := Tree.height_kid hn
          have hfo := (focusOne (r := k :: r) hf rfl (by rw [ht]; exact hr)).1.holds _ rfl
          rw [ht, hq] at hfo
          have hne := inside_ne hf (by rw [ht]; exact hr)
          rw [ht] at hlh hne
          rw [assignCopy_memberwise tr T hne hlh.1 hfo.1 hta heq, hpo]
          simp only [if_true]
          refine PostU.bind (Q := fun _ s' => s'.hs (place l (.node d c u ks) (k :: r)) = none) ?_ ?_
          · refine copyAssign_upto tr T a (Qk := fun z' => z'.heap q = none ∧
              z'.hs (place l (.node d c u ks) (k :: r)) = none)
              hS hf hc ht hr hq hks (fun t' s' h c => ⟨t', h, c⟩) ?_ (fun _ h _ => ⟨trivial, h.1⟩)
              (fun _ h _ => h.2)
            rintro w s₁ z os ts' ⟨ch, hw⟩ cz hc₁ hos hlk hold hdz hsz hclose
            have hm : Members (N := N) d K (.field d k) := ⟨k, hr.1, rfl⟩
            have hqk : (ks k).Mem K q := Tree.Mem.at' (r := r) hr.2 (by
              rw [show (ks k).at' r = .node q b v js from hq]; exact Or.inl rfl)
            rcases member_cases tr T hr.1 hr.2 hq (hks k hr.1) hc₁ cz (hold k (Nat.le_refl k)) hdz hsz with
              ⟨hja, z', h1, c1, hdead, hgone⟩ | ⟨hjn, hap, hat, h1⟩
            · rw [h1]
              refine ⟨hdead q hqk, ?_⟩
              show z'.hs (place (.field d k) (ks k) r) = none
              rcases place_cases (N := N) r (.field d k) (ks k) hr.2 with h | ⟨p, i, h, hp, hi⟩
              · rw [h]; exact hgone
              · rw [h]
                exact c1.clean p i (Or.inl (hdead p hp))
            · rw [h1]
              have ih := alias_pocca hS hpo a m (ks k) (r ++ [k]) (.field d k) ts' z (hold k (Nat.le_refl k)) (by simp)
                (cz.post.one hm) cz.clean hap (by rw [hat]; exact hjn) (hks k hr.1)
              refine PostU.bind (ih.mono (fun _ _ h => h) ?_ id) (fun _ _ h => h.elim)
              rintro z' ⟨t', _, c'⟩
              exact ⟨_, by simp, hclose (Chng.trans hc₁ cz (c'.extend cz.post
                (fun l e => by cases e; exact hm) (fun l _ hn => upd_other _ _ hn)))⟩
          · rintro _ s' h1
            rw [M.bind_eq, getH_gone h1]
            trivial
      · have hasg : (T.assignable && tr.eq (t.allocOr a) b) = false := by
          cases h : (T.assignable && tr.eq (t.allocOr a) b)
          · rfl
          · exact absurd h hasg
        obtain ⟨h, _⟩ := assignCopy_make_inside tr T a hf hc (by rw [ht]; exact hr)
          (by rw [ht]; exact hn) (by rw [ht]; exact hq) (by rw [ht]; exact hasg)
        have h := h hpo
        rw [ht] at h
        rcases h with h | ⟨e, s', h, e1, e2⟩
        · rw [h]; trivial
        · rw [h]
          refine ⟨t, hnab, ?_⟩
          rw [upd_eq ht]
          exact (Chng.refl hf hc).congr rfl rfl e1 e2

end
end Verif.Node
