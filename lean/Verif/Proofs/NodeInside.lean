import Verif.Proofs.NodeAlias

set_option autoImplicit false
set_option linter.unusedSectionVars false
set_option linter.unusedSimpArgs false

/-! Assigning a tree from a part of itself: the cases in which a new node is made. -/

namespace Verif.Node
open Verif

section
variable {N A R V X : Type} [DecidableEq N] [DecidableEq R]
variable {res : A → R} {K : Nat}

theorem put_mem : ∀ (r : List Nat) (t u : Tree A V) (q : Addr), (t.put r u).Mem K q → t.Mem K q ∨ u.Mem K q
  | [], t, u, q, h => Or.inr (by cases t <;> exact h)
  | _ :: _, .absent, _, _, h => Or.inl h
  | _ :: _, .hollow _, _, _, h => Or.inl h
  | k :: r, .node p a v ks, u, q, h => by
    rw [put_node] at h
    rcases h with h | ⟨j, hj, h⟩
    · exact Or.inl (Or.inl h)
    · by_cases e : j = k
      · subst e
        rw [upd_same] at h
        exact (put_mem r (ks j) u q h).imp (fun h => Or.inr ⟨j, hj, h⟩) id
      · rw [upd_other _ _ e] at h
        exact Or.inl (Or.inr ⟨j, hj, h⟩)

theorem le_maxBelow (f : Nat → Nat) : ∀ {n k : Nat}, k < n → f k ≤ maxBelow f n
  | 0, _, h => absurd h (Nat.not_lt_zero _)
  | n + 1, k, h => by
    show f k ≤ max (maxBelow f n) (f n)
    by_cases e : k = n
    · subst e; omega
    · have := le_maxBelow f (n := n) (k := k) (by omega); omega

theorem maxBelow_le {f : Nat → Nat} {m : Nat} : ∀ {n : Nat}, (∀ k, k < n → f k ≤ m) → maxBelow f n ≤ m
  | 0, _ => Nat.zero_le _
  | n + 1, h => by
    have h1 := maxBelow_le (n := n) (fun k hk => h k (by omega))
    have h2 := h n (by omega)
    show max (maxBelow f n) (f n) ≤ m
    omega

theorem put_height : ∀ (r : List Nat) (t u : Tree A V), u.height K ≤ (t.at' r).height K →
    (t.put r u).height K ≤ t.height K
  | [], t, u, h => by cases t <;> exact h
  | _ :: _, .absent, _, _ => Nat.le_refl _
  | _ :: _, .hollow _, _, _ => Nat.le_refl _
  | k :: r, .node p a v ks, u, h => by
    rw [put_node]
    show 1 + maxBelow _ K ≤ 1 + maxBelow _ K
    refine Nat.add_le_add_left (maxBelow_le (fun j hj => ?_)) 1
    refine Nat.le_trans ?_ (le_maxBelow (fun k => (ks k).height K) hj)
    by_cases e : j = k
    · subst e; rw [upd_same]; exact put_height r (ks j) u h
    · rw [upd_other _ _ e]; exact Nat.le_refl _

theorem at_height : ∀ (r : List Nat) (t : Tree A V), t.Has K r → (t.at' r).height K ≤ t.height K
  | [], t, _ => by cases t <;> exact Nat.le_refl _
  | _ :: _, .absent, h => h.elim
  | _ :: _, .hollow _, h => h.elim
  | k :: r, .node _ _ _ ks, h =>
    Nat.le_trans (at_height r (ks k) h.2) (Nat.le_trans (le_maxBelow (fun k => (ks k).height K) h.1) (Nat.le_add_left _ _))

/-- A place strictly inside a tree is a member of one of its nodes. -/
theorem place_inside {k : Nat} {r : List Nat} {l : Loc N} {t : Tree A V} (hr : t.Has K (k :: r)) :
    ∃ q i, place l t (k :: r) = .field q i ∧ t.Mem K q ∧ i < K := by
  cases t with
  | absent => exact hr.elim
  | hollow _ => exact hr.elim
  | node p a v ks =>
    rcases place_cases (N := N) r (.field p k) (ks k) hr.2 with h | ⟨q, i, h, hm, hi⟩
    · exact ⟨p, k, h, Or.inl rfl, hr.1⟩
    · exact ⟨q, i, h, Or.inr ⟨k, hr.1, hm⟩, hi⟩

theorem inside_ne {ts : Loc N → Tree A V} {s : NSt N A R V} {l : Loc N} {k : Nat} {r : List Nat}
    (hf : Forest res K (· = l) ts s) (hr : (ts l).Has K (k :: r)) : l ≠ place l (ts l) (k :: r) := by
  intro e
  obtain ⟨q, i, h, hm, _⟩ := place_inside (l := l) hr
  exact hf.out q i l (e.trans h).symm rfl hm

/-- The objects inside a tree are gone when the tree is replaced. -/
theorem inside_gone {ts : Loc N → Tree A V} {s s' : NSt N A R V} {l : Loc N} {t : Tree A V} {k : Nat}
    {r : List Nat} (hf : Forest res K (· = l) ts s) (hr : (ts l).Has K (k :: r))
    (c : Chng res K (· = l) ts (upd ts l t) s s')
    (hsub : ∀ q, t.Mem K q → ((ts l).at' (k :: r)).Mem K q ∨ s.heap q = none) :
    s'.hs (place l (ts l) (k :: r)) = none := by
  obtain ⟨q, i, h, hm, _⟩ := place_inside (l := l) hr
  have hfo := (focusOne (r := k :: r) hf rfl hr).1
  have hout := hfo.out q i _ h.symm rfl
  have hb := hfo.base q i h.symm
  rcases c.freed l q rfl hm with ⟨l', e, hm'⟩ | hn
  · cases e
    rw [upd_same] at hm'
    exact absurd hm' (fun hm' => (hsub q hm').elim hout hb)
  · rw [h]; exact c.clean q i (Or.inl hn)

/-- The tree from whose inside a new tree was taken. -/
theorem spawn_inside {h : Handle A} {t u : Tree A V} {l : Loc N} {ts : Loc N → Tree A V} {r : List Nat}
    {s s₁ : NSt N A R V} (sp : Spawn res K h t (place l (ts l) r) (fun _ => (ts l).at' r) u s s₁)
    (hf : Forest res K (· = l) ts s) (hc : Clean K s) (hr : (ts l).Has K r) :
    Forest res K (· = l) (upd ts l ((ts l).put r u)) s₁ ∧
      (∀ q, ((ts l).put r u).Mem K q → ¬ t.Mem K q) ∧
      ∀ q, (ts l).Mem K q → ((ts l).put r u).Mem K q ∨ t.Mem K q ∨ s₁.heap q = none := by
  classical
  obtain ⟨hfo, hback⟩ := focusOne (r := r) hf rfl hr
  generalize hm : place l (ts l) r = m at sp hfo hback
  have hown : ∀ p k, m = .field p k → ¬ ((ts l).at' r).Mem K p ∧ ¬ t.Mem K p ∧ s.heap p ≠ none := by
    intro p k e
    have h1 := hfo.out p k m e.symm rfl
    have h2 := hfo.base p k e.symm
    exact ⟨h1, fun hm => (sp.src p hm).elim h1 h2, h2⟩
  let s' : NSt N A R V := { s₁ with
    heap := fun q => if t.Mem K q then none else s₁.heap q
    hs := fun x => match x with
      | .field q k => if t.Mem K q then none else s₁.hs (.field q k)
      | .var x => s₁.hs (.var x) }
  have e1 : ∀ q, ¬ t.Mem K q → s'.heap q = s₁.heap q := fun q hq => if_neg hq
  have e2 : ∀ q, t.Mem K q → s'.heap q = none := fun q hq => if_pos hq
  have e3 : ∀ q k, ¬ t.Mem K q → s'.hs (.field q k) = s₁.hs (.field q k) := fun q k hq => if_neg hq
  have e4 : ∀ q k, t.Mem K q → s'.hs (.field q k) = none := fun q k hq => if_pos hq
  have e5 : ∀ x : Loc N, (∀ p k, x = .field p k → ¬ t.Mem K p) → s'.hs x = s₁.hs x := by
    intro x hx
    cases x with
    | var x => rfl
    | field p k => exact e3 p k (hx p k rfl)
  have hsm : s'.hs m = s₁.hs m := e5 m (fun p k e => (hown p k e).2.1)
  have c : Chng res K (· = m) (fun _ => (ts l).at' r) (fun _ => u) s s' :=
    { post := by
        refine Forest.single ?_ sp.leftSep ?_
        · rw [hsm]
          exact sp.left.frame (fun q hq => e1 q (sp.apart q hq)) (fun q k hq => e3 q k (sp.apart q hq))
        · intro p k e
          obtain ⟨h1, h2, h3⟩ := hown p k e
          refine ⟨fun hm => h1 (sp.srcLeft p hm), ?_⟩
          rw [e1 p h2, sp.heap p h1 h2]; exact h3
      src := fun x q e hq => Or.inl ⟨m, rfl, sp.srcLeft q hq⟩
      freed := fun x q e hq => (sp.freed q hq).imp (fun h => ⟨m, rfl, h⟩) (fun h => e2 q h)
      heap := by
        intro q h1 h2
        by_cases hq : t.Mem K q
        · rw [e2 q hq]
          exact ((sp.src q hq).resolve_left (h1 m rfl)).symm
        · rw [e1 q hq, sp.heap q (h1 m rfl) hq]
      hs := by
        intro x hx ho
        cases x with
        | var y => exact (sp.hs _ hx (fun p k e => by cases e))
        | field p k =>
          have hp := ho p k rfl m rfl
          by_cases hq : t.Mem K p
          · rw [e4 p k hq]
            exact (hc p k (Or.inl ((sp.src p hq).resolve_left hp.1))).symm
          · rw [e3 p k hq]
            exact sp.hs _ hx (fun p' k' e => by cases e; exact ⟨hp.1, hq⟩)
      clean := by
        intro p k hp
        by_cases hq : t.Mem K p
        · exact e4 p k hq
        · rw [e1 p hq] at hp
          rw [e3 p k hq]; exact sp.clean p k hp }
  have c' := hback _ _ c
  have hnot : ∀ q, ((ts l).put r u).Mem K q → ¬ t.Mem K q := by
    intro q hq hq'
    have := c'.post.holds l rfl
    rw [upd_same] at this
    exact this.alloc hq (e2 q hq')
  have hlo : ∀ p k, l = .field p k → ¬ t.Mem K p := by
    intro p k e hm
    rcases sp.src p hm with h | h
    · exact hf.out p k l e.symm rfl (h.at' hr)
    · exact hf.base p k e.symm h
  refine ⟨?_, hnot, ?_⟩
  · have hh := c'.post.holds l rfl
    rw [e5 l hlo, upd_same] at hh
    refine Forest.single ?_ (c'.post.sep l rfl) ?_
    · rw [upd_same]
      exact hh.frame (fun q hq => (e1 q (hnot q hq)).symm) (fun q k hq => (e3 q k (hnot q hq)).symm)
    · intro p k e
      refine ⟨c'.post.out p k l e.symm rfl, ?_⟩
      rw [← e1 p (hlo p k e)]
      exact c'.post.base p k e.symm
  · intro q hq
    rcases c'.freed l q rfl hq with ⟨l', e, hq'⟩ | hn
    · cases e; rw [upd_same] at hq'; exact Or.inl hq'
    · by_cases hm : t.Mem K q
      · exact Or.inr (Or.inl hm)
      · rw [e1 q hm] at hn; exact Or.inr (Or.inr hn)

/-- The new tree replaces the tree from whose inside it was taken. -/
theorem spawn_replace {h : Handle A} {t u : Tree A V} {l : Loc N} {ts : Loc N → Tree A V} {r : List Nat}
    {s s₁ s₂ : NSt N A R V} {a₁ : A}
    (sp : Spawn res K h t (place l (ts l) r) (fun _ => (ts l).at' r) u s s₁)
    (hf : Forest res K (· = l) ts s) (hcl : Clean K s) (hr : (ts l).Has K r)
    (hc : Chng res K (· = l) (upd ts l ((ts l).put r u)) (upd (upd ts l ((ts l).put r u)) l (.hollow a₁)) s₁ s₂)
    (hk : ∀ p k, l = .field p k → k < K) (hpl : ∀ p k, place l (ts l) r = .field p k → l ≠ .field p k → (ts l).Mem K p)
    (hvar : ∀ x, place l (ts l) r = .var x → l = .var x) :
    Chng res K (· = l) ts (upd ts l t) s { s₂ with hs := upd s₂.hs l (some h) } := by
  obtain ⟨hf1, hnot, hfr⟩ := spawn_inside sp hf hcl hr
  rw [upd_upd] at hc
  have hlp : ∀ p k, l = .field p k → ¬ t.Mem K p := by
    intro p k e hm
    rcases sp.src p hm with h | h
    · exact hf.out p k l e.symm rfl (h.at' hr)
    · exact hf.base p k e.symm h
  have hput : ∀ q, ((ts l).put r u).Mem K q → (ts l).Mem K q := fun q hq =>
    (put_mem r _ u q hq).elim id (fun h => (sp.srcLeft q h).at' hr)
  have hnew : ∀ q, ¬ (upd ts l (.hollow a₁) l).Mem K q := fun q => by rw [upd_same]; exact id
  have hold : ∀ q, ¬ (ts l).Mem K q → ¬ (upd ts l ((ts l).put r u) l).Mem K q := fun q hq => by
    rw [upd_same]; exact fun h => hq (hput q h)
  exact
    { post := by
        refine Forest.single ?_ ?_ ?_
        · show Holds res K _ (upd s₂.hs l _ l) (upd ts l t l)
          rw [upd_same, upd_same]
          have h2 : Holds res K s₂ (some h) t :=
            hc.keeps sp.holds (fun l' q e hm => by
                cases e; rw [upd_same]; exact fun h' => hnot q h' hm)
              (fun p k e => hlp p k e.symm)
          exact h2.frame (fun _ _ => rfl) (fun q k hq => upd_other _ _ (fun e => hlp q k e.symm hq))
        · rw [upd_same]; exact sp.sep
        · intro p k e
          rw [upd_same]
          exact ⟨hlp p k e, hc.post.base p k e.symm⟩
      src := by
        intro l' q e hm
        cases e
        rw [upd_same] at hm
        exact (sp.src q hm).imp (fun h => ⟨_, rfl, h.at' hr⟩) id
      freed := by
        intro l' q e hm
        cases e
        rcases hfr q hm with h | h | h
        · rcases hc.freed _ q rfl (by rw [upd_same]; exact h) with ⟨l'', e, hm'⟩ | h'
          · cases e; exact absurd hm' (hnew q)
          · exact Or.inr h'
        · exact Or.inl ⟨_, rfl, by rw [upd_same]; exact h⟩
        · by_cases hp : ((ts l).put r u).Mem K q
          · rcases hc.freed _ q rfl (by rw [upd_same]; exact hp) with ⟨l'', e, hm'⟩ | h'
            · cases e; exact absurd hm' (hnew q)
            · exact Or.inr h'
          · right
            show s₂.heap q = none
            rw [hc.heap q (fun x e => by cases e; rw [upd_same]; exact hp) (fun x e => by cases e; exact hnew q)]
            exact h
      heap := by
        intro q h1 h2
        have a1 := h1 l rfl
        have a2 := h2 l rfl
        rw [upd_same] at a2
        show s₂.heap q = s.heap q
        rw [hc.heap q (fun x e => by cases e; exact hold q a1) (fun x e => by cases e; exact hnew q)]
        exact sp.heap q (fun h => a1 (h.at' hr)) a2
      hs := by
        intro x hx ho
        show upd s₂.hs l _ x = s.hs x
        rw [upd_other _ _ hx, hc.hs x hx ?_, sp.hs x ?_ ?_]
        · intro e
          cases x with
          | var y => exact hx (hvar y e.symm).symm
          | field p k =>
            exact (ho p k rfl l rfl).1 (hpl p k e.symm (Ne.symm hx))
        · intro p k e
          have := ho p k e l rfl
          rw [upd_same] at this
          exact ⟨fun h => this.1 (h.at' hr), this.2⟩
        · intro p k e l' e'
          cases e'
          exact ⟨hold p (ho p k e _ rfl).1, hnew p⟩
      clean := by
        intro p k hp
        show upd s₂.hs l _ (.field p k) = none
        by_cases e : Loc.field p k = l
        · exfalso
          rcases hp with hp | hp
          · exact hc.post.base p k e hp
          · exact absurd (hk p k e.symm) (Nat.not_lt.2 hp)
        · rw [upd_other _ _ e]; exact hc.clean p k hp }

theorem noexcept_ok {σ α : Type} {m : M σ α} {b : Bool} {s s' : σ} {x : α} (h : m s = .ok x s') :
    M.noexceptIf b m s = .ok x s' := by
  unfold M.noexceptIf
  rw [h]

theorem noexcept_threw {σ α : Type} {m : M σ α} {b : Bool} {s s' : σ} {e : Exn} (hb : b = true)
    (h : m s = .threw e s') : M.noexceptIf b m s = .terminated := by
  unfold M.noexceptIf
  rw [h, hb]; rfl

theorem getH_gone {l : Loc N} {s : NSt N A R V} (h : s.hs l = none) : getH l s = .ub .deadHandle := by
  unfold getH; rw [h]

variable (tr : ATraits A R) (T : TSpec V X)

/-- Assignment of an empty part of the own tree empties the tree. -/
theorem reset_inside {ts : Loc N → Tree A V} {s : NSt N A R V} {l : Loc N} {k : Nat} {r : List Nat} {n : Nat}
    (a : A) (hf : Forest tr.res K (· = l) ts s) (hc : Clean K s) (hr : (ts l).Has K (k :: r))
    (hn : (ts l).height K ≤ n) :
    ∃ s', Indirect.reset tr (ops tr T K n) l s = .ok () s' ∧
      Chng tr.res K (· = l) ts (upd ts l (.hollow ((ts l).allocOr a))) s s' ∧
      s'.hs (place l (ts l) (k :: r)) = none := by
  have hne : ts l ≠ .absent := by intro e; rw [e] at hr; exact hr
  obtain ⟨s', h1, c, _⟩ := reset_spec tr T (ts l) n hn l ts s a rfl hne hf hc
  exact ⟨s', h1, c, inside_gone hf hr c (fun q h => h.elim)⟩

/-- Copy assignment from a valueless part of the own tree. -/
theorem assignCopy_hollow_inside {ts : Loc N → Tree A V} {s : NSt N A R V} {l : Loc N} {k : Nat} {r : List Nat}
    {n : Nat} {b : A} (a : A) (hf : Forest tr.res K (· = l) ts s) (hc : Clean K s) (hr : (ts l).Has K (k :: r))
    (hn : (ts l).height K ≤ n) (hq : (ts l).at' (k :: r) = .hollow b) :
    (tr.pocca = true →
      Indirect.assignCopy tr (ops tr T K n) l (place l (ts l) (k :: r)) s = .ub .deadHandle) ∧
    (tr.pocca = false → ∃ s',
      Indirect.assignCopy tr (ops tr T K n) l (place l (ts l) (k :: r)) s = .ok l s' ∧
        Chng tr.res K (· = l) ts (upd ts l (.hollow ((ts l).allocOr a))) s s') := by
  obtain ⟨s', h1, c, hg⟩ := reset_inside tr T a hf hc hr hn
  have hm := (focusOne (r := k :: r) hf rfl hr).1.holds _ rfl
  rw [hq] at hm
  have hm : s.hs (place l (ts l) (k :: r)) = some ⟨none, b⟩ := hm
  unfold Indirect.assignCopy
  rw [if_neg (inside_ne hf hr), M.bind_ok (valueless_eq hm)]
  simp only [beq_self_eq_true, if_true]
  rw [M.bind_ok h1]
  constructor
  · intro hp
    simp only [hp, if_true]
    rw [M.bind_eq, getH_gone hg]
  · intro hp
    simp only [hp, Bool.false_eq_true, if_false]
    exact ⟨s', rfl, c⟩

/-- Move assignment from a valueless part of the own tree. -/
theorem assignMove_hollow_inside {ts : Loc N → Tree A V} {s : NSt N A R V} {l : Loc N} {k : Nat} {r : List Nat}
    {n : Nat} {b : A} (a : A) (hf : Forest tr.res K (· = l) ts s) (hc : Clean K s) (hr : (ts l).Has K (k :: r))
    (hn : (ts l).height K ≤ n) (hq : (ts l).at' (k :: r) = .hollow b) :
    (tr.pocma = true →
      Indirect.assignMove tr (ops tr T K n) l (place l (ts l) (k :: r)) s = .ub .deadHandle) ∧
    (tr.pocma = false → ∃ s',
      Indirect.assignMove tr (ops tr T K n) l (place l (ts l) (k :: r)) s = .ok l s' ∧
        Chng tr.res K (· = l) ts (upd ts l (.hollow ((ts l).allocOr a))) s s') := by
  obtain ⟨s', h1, c, hg⟩ := reset_inside tr T a hf hc hr hn
  have hm := (focusOne (r := k :: r) hf rfl hr).1.holds _ rfl
  rw [hq] at hm
  have hm : s.hs (place l (ts l) (k :: r)) = some ⟨none, b⟩ := hm
  unfold Indirect.assignMove
  rw [if_neg (inside_ne hf hr)]
  constructor
  · intro hp
    refine noexcept_ub ?_
    rw [M.bind_ok (valueless_eq hm)]
    simp only [beq_self_eq_true, if_true]
    rw [M.bind_ok h1]
    simp only [hp, if_true]
    rw [M.bind_eq, getH_gone hg]
  · intro hp
    refine ⟨s', noexcept_ok ?_, c⟩
    rw [M.bind_ok (valueless_eq hm)]
    simp only [beq_self_eq_true, if_true]
    rw [M.bind_ok h1]
    simp only [hp, Bool.false_eq_true, if_false]
    rfl

/-- Copy assignment from a part of the own tree, if the node is not assigned to. -/
theorem assignCopy_make_inside {ts : Loc N → Tree A V} {s : NSt N A R V} {l : Loc N} {k : Nat} {r : List Nat}
    {n : Nat} {q : Addr} {b : A} {w : V} {js : Nat → Tree A V} (a : A) (hf : Forest tr.res K (· = l) ts s)
    (hc : Clean K s) (hr : (ts l).Has K (k :: r)) (hn : (ts l).height K ≤ n)
    (hq : (ts l).at' (k :: r) = .node q b w js)
    (hno : (T.assignable && tr.eq ((ts l).allocOr a) b) = false) :
    (tr.pocca = true →
      Indirect.assignCopy tr (ops tr T K n) l (place l (ts l) (k :: r)) s = .ub .deadHandle ∨
      ∃ e s', Indirect.assignCopy tr (ops tr T K n) l (place l (ts l) (k :: r)) s = .threw e s' ∧ Still s s') ∧
    (tr.pocca = false → Post False
      (fun _ s' => ∃ t, Chng tr.res K (· = l) ts (upd ts l t) s s' ∧
        (Tree.node q b w js).Copy (Copied T) tr.socc K ((ts l).allocOr a) t ∧ ∀ x, t.Mem K x → s.heap x = none)
      (Still s)
      (Indirect.assignCopy tr (ops tr T K n) l (place l (ts l) (k :: r)) s)) := by
  have hfo := (focusOne (r := k :: r) hf rfl hr).1.holds _ rfl
  rw [hq] at hfo
  have hm : s.hs (place l (ts l) (k :: r)) = some ⟨some q, b⟩ := hfo.1
  have hvl : Indirect.valueless (place l (ts l) (k :: r)) s = .ok false s := valueless_eq hm
  have hnab : ts l ≠ .absent := by intro e; rw [e] at hr; exact hr
  have hlh := hf.holds l rfl
  have hkK := lt_of_holds hc hlh hnab
  obtain ⟨x, hx, hxa⟩ := holds_alloc a hlh hnab
  have hcond : (T.assignable && !(x.p == none) && tr.eq x.alloc b) = false := by
    rw [hxa]
    cases h1 : T.assignable <;> cases h2 : tr.eq ((ts l).allocOr a) b <;> simp_all
  have hb := build_spec tr T ((ts l).at' (k :: r)) n (Nat.le_trans (at_height _ _ hr) hn)
    (if tr.pocca then b else (ts l).allocOr a) s _ q b w js hq (by rw [hq]; exact hfo) hc
  rw [hq] at hb
  -- what follows the construction
  have hfin : ∀ p s₁ t, New tr.res K ⟨some p, if tr.pocca then b else (ts l).allocOr a⟩ t s s₁ →
      ∃ s₂, Indirect.reset tr (ops tr T K n) l s₁ = .ok () s₂ ∧
        s₂.hs l = some ⟨none, (ts l).allocOr a⟩ ∧
        s₂.hs (place l (ts l) (k :: r)) = none ∧
        Chng tr.res K (· = l) ts (upd ts l t) s
          { s₂ with hs := upd s₂.hs l (some ⟨some p, if tr.pocca then b else (ts l).allocOr a⟩) } := by
    intro p s₁ t hnew
    obtain ⟨s₂, h1, c, hg⟩ := reset_inside tr T a (hnew.keeps_forest hf) hnew.clean hr hn
    have hl := c.post.holds l rfl
    rw [upd_same] at hl
    exact ⟨s₂, h1, hl, hg, hnew.replace hf c hkK⟩
  unfold Indirect.assignCopy
  rw [if_neg (inside_ne hf hr), M.bind_ok hvl]
  simp only [Bool.false_eq_true, if_false]
  rw [M.bind_ok (getH_some hx), M.bind_ok (getH_some hm)]
  rw [ops_assignable]
  simp only [hcond, Bool.false_eq_true, if_false]
  rw [M.bind_ok (deref_eq hm), hxa]
  constructor
  · intro hp
    simp only [hp, if_true] at hb hfin ⊢
    cases hrun : Indirect.constructFrom tr b (fun a m => (ops tr T K n).copyCtor a m q) s with
    | ok p s₁ =>
      rw [hrun] at hb
      obtain ⟨t, hnew, _⟩ := hb
      obtain ⟨s₂, h1, hl, hg, _⟩ := hfin p s₁ t hnew
      left
      rw [M.bind_ok hrun, M.bind_ok h1, M.bind_ok (setP_some hl (some p)), M.bind_eq, getH_gone]
      show upd s₂.hs l _ _ = none
      rw [upd_other _ _ (Ne.symm (inside_ne hf hr))]; exact hg
    | threw e s₁ =>
      rw [hrun] at hb
      right
      rw [M.bind_eq, hrun]
      exact ⟨e, s₁, rfl, hb⟩
    | ub u => rw [hrun] at hb; exact hb.elim
    | terminated => rw [hrun] at hb; exact hb.elim
    | diverged => rw [hrun] at hb; exact hb.elim
  · intro hp
    simp only [hp, Bool.false_eq_true, if_false] at hb hfin ⊢
    refine Post.bind (hb.mono (fun _ _ h => h) (fun _ h => h) (fun h => h)) ?_
    rintro p s₁ ⟨t, hnew, hcp⟩
    obtain ⟨s₂, h1, hl, hg, c⟩ := hfin p s₁ t hnew
    rw [M.bind_ok h1, M.bind_ok (setP_some hl (some p))]
    exact ⟨t, c, hcp, hnew.fresh⟩

/-- Move assignment from a part of the own tree, if the node is not taken over. -/
theorem assignMove_make_inside (hR : tr.Reflexive) {ts : Loc N → Tree A V} {s : NSt N A R V} {l : Loc N} {k : Nat}
    {r : List Nat} {n : Nat} {q : Addr} {b : A} {w : V} {js : Nat → Tree A V} (a : A)
    (hf : Forest tr.res K (· = l) ts s)
    (hc : Clean K s) (hr : (ts l).Has K (k :: r)) (hn : (ts l).height K ≤ n)
    (hq : (ts l).at' (k :: r) = .node q b w js)
    (hno : tr.eq ((ts l).allocOr a) b = false) :
    (tr.pocma = true →
      Indirect.assignMove tr (ops tr T K n) l (place l (ts l) (k :: r)) s = .ub .deadHandle ∨
      Indirect.assignMove tr (ops tr T K n) l (place l (ts l) (k :: r)) s = .terminated) ∧
    (tr.pocma = false → Post (tr.alwaysEqual = true)
      (fun _ s' => ∃ t, Chng tr.res K (· = l) ts (upd ts l t) s s' ∧
        (Tree.node q b w js).Like (MovedTo T) K t ∧ t.allocOr a = (ts l).allocOr a)
      (fun s' => ∃ w', Chng tr.res K (· = l) ts (upd ts l ((ts l).put (k :: r) (.node q b w' js))) s s')
      (Indirect.assignMove tr (ops tr T K n) l (place l (ts l) (k :: r)) s)) := by
  obtain ⟨hfi, hback⟩ := focusOne (r := k :: r) hf rfl hr
  have hfo := hfi.holds _ rfl
  rw [hq] at hfo
  have hm : s.hs (place l (ts l) (k :: r)) = some ⟨some q, b⟩ := hfo.1
  have hvl : Indirect.valueless (place l (ts l) (k :: r)) s = .ok false s := valueless_eq hm
  have hnab : ts l ≠ .absent := by intro e; rw [e] at hr; exact hr
  have hlh := hf.holds l rfl
  have hkK := lt_of_holds hc hlh hnab
  obtain ⟨x, hx, hxa⟩ := holds_alloc a hlh hnab
  have hpos : 0 < n := by
    have := has_height _ _ hr hq
    omega
  have hb := buildMove_spec tr T hR n (l := place l (ts l) (k :: r)) (ts := fun _ => (ts l).at' (k :: r))
    (if tr.pocma then b else (ts l).allocOr a) hpos hfi hc hq
  have hfin : ∀ p s₁ w' v', Spawn tr.res K ⟨some p, if tr.pocma then b else (ts l).allocOr a⟩
        (.node p (if tr.pocma then b else (ts l).allocOr a) w' js) (place l (ts l) (k :: r))
        (fun _ => (ts l).at' (k :: r)) (.node q b v' (fun k => (js k).emptied)) s s₁ →
      ∃ s₂, Indirect.reset tr (ops tr T K n) l s₁ = .ok () s₂ ∧
        s₂.hs l = some ⟨none, (ts l).allocOr a⟩ ∧
        s₂.hs (place l (ts l) (k :: r)) = none ∧
        Chng tr.res K (· = l) ts (upd ts l (.node p (if tr.pocma then b else (ts l).allocOr a) w' js)) s
          { s₂ with hs := upd s₂.hs l (some ⟨some p, if tr.pocma then b else (ts l).allocOr a⟩) } := by
    intro p s₁ w' v' sp
    obtain ⟨hf1, hnot, hfr⟩ := spawn_inside sp hf hc hr
    have hal : ((ts l).put (k :: r) (.node q b v' (fun k => (js k).emptied))).allocOr a = (ts l).allocOr a := by
      cases ts l <;> rfl
    have hab : (ts l).put (k :: r) (.node q b v' (fun k => (js k).emptied)) ≠ .absent := by
      cases h : ts l with
      | absent => exact absurd h hnab
      | hollow c => intro e; cases e
      | node _ _ _ _ => intro e; cases e
    have hht : ((ts l).put (k :: r) (.node q b v' (fun k => (js k).emptied))).height K ≤ n := by
      refine Nat.le_trans (put_height _ _ _ ?_) hn
      rw [hq]
      show 1 + maxBelow _ K ≤ 1 + maxBelow _ K
      refine Nat.add_le_add_left (maxBelow_le (fun j hj => ?_)) 1
      have : ((js j).emptied).height K = 0 := by cases js j <;> rfl
      rw [this]; exact Nat.zero_le _
    obtain ⟨s₂, h1, c, _⟩ := reset_spec tr T _ n hht l _ s₁ a (upd_same _ _ _) hab hf1 sp.clean
    rw [hal] at c
    have hl := c.post.holds l rfl
    rw [upd_same] at hl
    obtain ⟨y, i, hy, hym, _⟩ := place_inside (l := l) hr
    have cf := spawn_replace sp hf hc hr c hkK (fun p' k' e _ => by rw [hy] at e; cases e; exact hym)
      (fun z e => by rw [hy] at e; cases e)
    have hg := inside_gone hf hr cf (fun z hz => sp.src z hz)
    refine ⟨s₂, h1, hl, ?_, cf⟩
    have hg : upd s₂.hs l _ (place l (ts l) (k :: r)) = none := hg
    rw [upd_other _ _ (Ne.symm (inside_ne hf hr))] at hg
    exact hg
  unfold Indirect.assignMove
  rw [if_neg (inside_ne hf hr)]
  have hno' : tr.eq x.alloc b = false := by rw [hxa]; exact hno
  constructor
  · intro hp
    simp only [hp, if_true] at hb hfin
    cases hrun : Indirect.constructFrom tr b (fun a m => (ops tr T K n).moveCtor a m q) s with
    | ok p s₁ =>
      rw [hrun] at hb
      obtain ⟨w', v', _, sp⟩ := hb
      obtain ⟨s₂, h1, hl, hg, _⟩ := hfin p s₁ w' v' sp
      left
      refine noexcept_ub ?_
      rw [M.bind_ok hvl]
      simp only [Bool.false_eq_true, if_false]
      rw [M.bind_ok (getH_some hx), M.bind_ok (getH_some hm)]
      simp only [hno', hp, if_true, Bool.false_eq_true, if_false]
      rw [M.bind_ok (deref_eq hm)]
      rw [M.bind_ok hrun, M.bind_ok h1, M.bind_ok (setP_some hl (some p)), M.bind_eq, getH_gone]
      show upd s₂.hs l _ _ = none
      rw [upd_other _ _ (Ne.symm (inside_ne hf hr))]; exact hg
    | threw e s₁ =>
      right
      refine noexcept_threw (e := e) (s' := s₁) (by rw [hp]; rfl) ?_
      rw [M.bind_ok hvl]
      simp only [Bool.false_eq_true, if_false]
      rw [M.bind_ok (getH_some hx), M.bind_ok (getH_some hm)]
      simp only [hno', hp, if_true, Bool.false_eq_true, if_false]
      rw [M.bind_ok (deref_eq hm)]
      rw [M.bind_eq, hrun]
    | ub u => rw [hrun] at hb; exact hb.elim
    | terminated => rw [hrun] at hb; exact hb.elim
    | diverged => rw [hrun] at hb; exact hb.elim
  · intro hp
    simp only [hp, Bool.false_eq_true, if_false] at hb hfin
    refine Post.noexcept ?_ (fun h => by rw [hp] at h; exact h)
    rw [M.bind_ok hvl]
    simp only [Bool.false_eq_true, if_false]
    rw [M.bind_ok (getH_some hx), M.bind_ok (getH_some hm)]
    simp only [hno', hp, if_true, Bool.false_eq_true, if_false]
    rw [M.bind_ok (deref_eq hm), hxa]
    refine Post.bind (hb.mono (fun _ _ h => h) ?_ (fun h => h.elim)) ?_
    · rintro s₁ ⟨w', c⟩
      have := hback _ _ c
      rw [upd_same] at this
      exact ⟨w', this⟩
    · rintro p s₁ ⟨w', v', hw, sp⟩
      obtain ⟨s₂, h1, hl, hg, c⟩ := hfin p s₁ w' v' sp
      rw [M.bind_ok h1, M.bind_ok (setP_some hl (some p))]
      exact ⟨_, c, ⟨_, _, _, _, rfl, Or.inr hw, fun j _ => Like_refl (C := MovedTo T) (fun _ => Or.inl rfl) _⟩, rfl⟩

end
end Verif.Node
