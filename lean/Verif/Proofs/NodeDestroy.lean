import Verif.Proofs.Forest

set_option autoImplicit false
set_option linter.unusedSectionVars false
set_option linter.unusedSimpArgs false

/-! Destroying trees. -/

namespace Verif.Node
open Verif

section
variable {N A R V X : Type} [DecidableEq N] [DecidableEq R]
variable {res : A → R} {K : Nat}

/-- The members `0, …, K-1` of the node at `p`. -/
def Members (p : Addr) (K : Nat) (l : Loc N) : Prop := ∃ k, k < K ∧ l = .field p k

/-- A forest of one tree. -/
theorem Forest.single {l : Loc N} {ts : Loc N → Tree A V} {s : NSt N A R V}
    (hh : Holds res K s (s.hs l) (ts l)) (hs : (ts l).Sep K)
    (ho : ∀ p k, l = .field p k → ¬ (ts l).Mem K p ∧ s.heap p ≠ none) :
    Forest res K (· = l) ts s where
  holds l' e := by cases e; exact hh
  sep l' e := by cases e; exact hs
  disj l₁ l₂ e₁ e₂ hne := absurd (e₁.trans e₂.symm) hne
  out p k l' e e' := by cases e'; exact (ho p k e.symm).1
  base p k e := (ho p k e.symm).2

theorem Forest.sub {D D' : Loc N → Prop} {ts : Loc N → Tree A V} {s : NSt N A R V}
    (h : Forest res K D ts s) (hsub : ∀ l, D' l → D l) : Forest res K D' ts s where
  holds l hl := h.holds l (hsub l hl)
  sep l hl := h.sep l (hsub l hl)
  disj l l' hl hl' := h.disj l l' (hsub l hl) (hsub l' hl')
  out p k l hd hl := h.out p k l (hsub _ hd) (hsub l hl)
  base p k hd := h.base p k (hsub _ hd)

theorem Forest.one {D : Loc N → Prop} {ts : Loc N → Tree A V} {s : NSt N A R V}
    (h : Forest res K D ts s) {l : Loc N} (hl : D l) : Forest res K (· = l) ts s :=
  h.sub (fun _ e => e ▸ hl)

theorem Forest.eqOn {D : Loc N → Prop} {ts ts' : Loc N → Tree A V} {s : NSt N A R V}
    (h : Forest res K D ts s) (he : ∀ l, D l → ts' l = ts l) : Forest res K D ts' s where
  holds l hl := by rw [he l hl]; exact h.holds l hl
  sep l hl := by rw [he l hl]; exact h.sep l hl
  disj l l' hl hl' := by rw [he l hl, he l' hl']; exact h.disj l l' hl hl'
  out p k l hd hl := by rw [he l hl]; exact h.out p k l hd hl
  base := h.base

theorem Chng.eqOn {D : Loc N → Prop} {ts ts' us us' : Loc N → Tree A V} {s s' : NSt N A R V}
    (h : Chng res K D ts ts' s s') (he : ∀ l, D l → us l = ts l) (he' : ∀ l, D l → us' l = ts' l) :
    Chng res K D us us' s s' where
  post := h.post.eqOn he'
  src l q hd hm := by
    rw [he' l hd] at hm
    rcases h.src l q hd hm with ⟨l', h1, h2⟩ | hn
    · exact Or.inl ⟨l', h1, by rw [he l' h1]; exact h2⟩
    · exact Or.inr hn
  freed l q hd hm := by
    rw [he l hd] at hm
    rcases h.freed l q hd hm with ⟨l', h1, h2⟩ | hn
    · exact Or.inl ⟨l', h1, by rw [he' l' h1]; exact h2⟩
    · exact Or.inr hn
  heap q h1 h2 := h.heap q (fun l hl => by rw [← he l hl]; exact h1 l hl)
    (fun l hl => by rw [← he' l hl]; exact h2 l hl)
  hs l hd ho := h.hs l hd (fun p k e l' hl' => by
    rw [← he l' hl', ← he' l' hl']; exact ho p k e l' hl')
  clean := h.clean

theorem Chng.dset {D D' : Loc N → Prop} {ts ts' : Loc N → Tree A V} {s s' : NSt N A R V}
    (h : Chng res K D ts ts' s s') (he : ∀ l, D' l ↔ D l) : Chng res K D' ts ts' s s' := by
  have : D' = D := by funext l; exact propext (he l)
  rw [this]; exact h

/-- The object at `l` changes its data members; its tree becomes one without blocks, from one without
blocks. -/
theorem Chng.poke {l : Loc N} {ts : Loc N → Tree A V} {s : NSt N A R V} {t : Tree A V}
    {o : Option (Handle A)} (hf : Forest res K (· = l) ts s) (hc : Clean K s)
    (h0 : ∀ q, ¬ (ts l).Mem K q) (h1 : ∀ q, ¬ t.Mem K q) (hs : t.Sep K)
    (hh : ∀ s' : NSt N A R V, Holds res K s' o t) (hk : ∀ p k, l = .field p k → k < K) :
    Chng res K (· = l) ts (upd ts l t) s { s with hs := upd s.hs l o } where
  post := by
    refine Forest.single ?_ ?_ ?_
    · show Holds res K _ (upd s.hs l o l) (upd ts l t l)
      rw [upd_same, upd_same]; exact hh _
    · rw [upd_same]; exact hs
    · intro p k e
      rw [upd_same]
      exact ⟨h1 p, hf.base p k e.symm⟩
  src l' q e hm := by cases e; rw [upd_same] at hm; exact absurd hm (h1 q)
  freed l' q e hm := by cases e; exact absurd hm (h0 q)
  heap _ _ _ := rfl
  hs l' hn _ := upd_other _ _ hn
  clean := by
    intro p k hp
    by_cases e : Loc.field p k = l
    · subst e
      rcases hp with hp | hp
      · exact absurd hp (hf.base p k rfl)
      · exact absurd (hk p k rfl) (Nat.not_lt.2 hp)
    · show upd s.hs l o (.field p k) = none
      rw [upd_other _ _ e]; exact hc p k hp

/-- A place with an object is one of the `K` members of its node. -/
theorem lt_of_holds {l : Loc N} {s : NSt N A R V} {t : Tree A V} (hc : Clean K s)
    (hh : Holds res K s (s.hs l) t) (ht : t ≠ .absent) : ∀ p k, l = .field p k → k < K := by
  intro p k e
  obtain ⟨x, hx⟩ := hh.engagedAt ht
  subst e
  cases Nat.lt_or_ge k K with
  | inl h => exact h
  | inr h => rw [hc p k (Or.inr h)] at hx; exact nomatch hx

theorem Holds.node_hs {s : NSt N A R V} {o : Option (Handle A)} {p : Addr} {a : A} {v : V}
    {ks : Nat → Tree A V} (h : Holds res K s o (.node p a v ks)) : o = some ⟨some p, a⟩ := h.1

/-- The members of a node, while the node's own block may change contents. -/
theorem Forest.members {l : Loc N} {ts : Loc N → Tree A V} {s s' : NSt N A R V} {p : Addr} {a : A}
    {v : V} {ks : Nat → Tree A V} (hf : Forest res K (· = l) ts s) (ht : ts l = .node p a v ks)
    (hh : ∀ q, q ≠ p → s'.heap q = s.heap q) (hp : s'.heap p ≠ none) (hs : s'.hs = s.hs) :
    Forest res K (Members p K) (opened ts p ks) s' := by
  have ho := hf.open rfl ht
  have hsp := hf.sep l rfl
  rw [ht] at hsp
  have ho' := ho.sub (D' := Members p K) (fun _ h => Or.inr h)
  exact
    { holds := fun l' hl' => by
        rw [hs]
        refine (ho'.holds l' hl').frame (fun q hm => hh q ?_) (fun q k _ => by rw [hs])
        rintro rfl
        obtain ⟨k, hk, rfl⟩ := hl'
        rw [opened_member] at hm
        exact hsp.1 k hk hm
      sep := ho'.sep
      disj := ho'.disj
      out := ho'.out
      base := fun p' k hd => by
        obtain ⟨j, _, e⟩ := hd
        cases e; exact hp }

variable (tr : ATraits A R) (T : TSpec V X)

/-- `dropMember` empties the member. -/
def DtorSpec (I : TOps (NSt N A R V) A X) (K : Nat) (t : Tree A V) : Prop :=
  ∀ (l : Loc N) (ts : Loc N → Tree A V) (s : NSt N A R V), ts l = t → t ≠ .absent →
    Forest tr.res K (· = l) ts s → Clean K s →
    ∃ s', Indirect.dtor tr I l s = .ok () s' ∧ Chng tr.res K (· = l) ts (upd ts l .absent) s s' ∧
      s'.trace = s.trace ++ t.teardown tr.res K

/-- `reset` destroys the tree and leaves the object valueless. -/
def ResetSpec (I : TOps (NSt N A R V) A X) (K : Nat) (t : Tree A V) : Prop :=
  ∀ (l : Loc N) (ts : Loc N → Tree A V) (s : NSt N A R V) (a : A), ts l = t → t ≠ .absent →
    Forest tr.res K (· = l) ts s → Clean K s →
    ∃ s', Indirect.reset tr I l s = .ok () s' ∧
      Chng tr.res K (· = l) ts (upd ts l (.hollow (t.allocOr a))) s s' ∧
      s'.trace = s.trace ++ t.teardown tr.res K

theorem upd_eq {l : Loc N} {ts : Loc N → Tree A V} {t : Tree A V} (h : ts l = t) : upd ts l t = ts :=
  upd_id ts l t h

theorem dtor_of_reset (I : TOps (NSt N A R V) A X) (t : Tree A V) (h : ResetSpec tr I K t) :
    DtorSpec tr I K t := by
  intro l ts s ht hne hf hc
  have hh := hf.holds l rfl
  obtain ⟨x, hx⟩ := hh.engagedAt (by rw [ht]; exact hne)
  obtain ⟨s', hr, hch, htr⟩ := h l ts s x.alloc ht hne hf hc
  have hh' := hch.post.holds l rfl
  rw [upd_same] at hh'
  have hs' : s'.hs l = some ⟨none, t.allocOr x.alloc⟩ := hh'
  refine ⟨{ s' with hs := upd s'.hs l none }, ?_, ?_, htr⟩
  · unfold Indirect.dtor M.noexceptIf
    rw [M.bind_ok hr, endLife_some hs']
  · have hp := Chng.poke (t := .absent) (o := none) hch.post hch.clean (fun q hm => by
      rw [upd_same] at hm; exact hm) (fun q hm => hm) trivial (fun _ => rfl)
      (lt_of_holds (t := ts l) hc hh (by rw [ht]; exact hne))
    rw [upd_upd] at hp
    exact Chng.trans hc hch hp

section
variable {tr}

theorem dropMember_spec (I : TOps (NSt N A R V) A X) {p : Addr} {k : Nat} {ts : Loc N → Tree A V}
    {s : NSt N A R V} (hk : k < K) (hd : ts (.field p k) ≠ .absent → DtorSpec tr I K (ts (.field p k)))
    (hf : Forest tr.res K (Members p K) ts s) (hc : Clean K s) :
    ∃ s', dropMember tr I p k s = .ok () s' ∧
      Chng tr.res K (Members p K) ts (upd ts (.field p k) .absent) s s' ∧
      s'.trace = s.trace ++ (ts (.field p k)).teardown tr.res K := by
  unfold dropMember
  have hm : Members (N := N) p K (.field p k) := ⟨k, hk, rfl⟩
  have hh := hf.holds _ hm
  by_cases he : ts (.field p k) = .absent
  · refine ⟨s, ?_, ?_, by rw [he]; exact (List.append_nil _).symm⟩
    · rw [he] at hh
      have hh : s.hs (.field p k) = none := hh
      simp [M.bind_eq, engaged, hh]
    · rw [upd_eq he]; exact Chng.refl hf hc
  · obtain ⟨s', h1, h2, h3⟩ := hd he (.field p k) ts s rfl he (hf.one hm) hc
    refine ⟨s', ?_, ?_, h3⟩
    · have : engaged (.field p k) s = .ok true s := by simp [engaged, hh.isSome he]
      rw [M.bind_ok this]; exact h1
    · exact h2.extend hf (fun l e => by cases e; exact hm) (fun l _ hn => upd_other _ _ hn)

/-- The trees after the members `0, …, j-1` of the node at `p` are emptied. -/
def cut (ts : Loc N → Tree A V) (p : Addr) (j : Nat) : Loc N → Tree A V
  | .field q k => if q = p ∧ k < j then .absent else ts (.field q k)
  | .var x => ts (.var x)

theorem cut_zero (ts : Loc N → Tree A V) (p : Addr) : cut ts p 0 = ts := by
  funext l; cases l <;> simp [cut]

theorem cut_succ (ts : Loc N → Tree A V) (p : Addr) (j : Nat) :
    cut (upd ts (.field p j) .absent) p j = cut ts p (j + 1) := by
  funext l
  cases l with
  | var x => simp [cut, upd]
  | field q k =>
    simp only [cut, upd, Loc.field.injEq]
    by_cases hq : q = p
    · by_cases h1 : k < j
      · have : k < j + 1 := by omega
        simp [hq, h1, this]
      · by_cases h2 : k = j
        · have : k < j + 1 := by omega
          simp [hq, h1, h2]
        · have : ¬ k < j + 1 := by omega
          simp [hq, h1, h2, this]
    · simp [hq]

theorem downFrom_congr {E : Type} {f g : Nat → List E} : ∀ {j : Nat}, (∀ k, k < j → f k = g k) →
    downFrom f j = downFrom g j
  | 0, _ => rfl
  | j + 1, h => by
    show f j ++ downFrom f j = g j ++ downFrom g j
    rw [h j (Nat.lt_succ_self j), downFrom_congr (fun k hk => h k (Nat.lt_succ_of_lt hk))]

theorem dropMembers_spec (I : TOps (NSt N A R V) A X) {p : Addr} : ∀ (j : Nat) {ts : Loc N → Tree A V}
    {s : NSt N A R V}, j ≤ K →
    (∀ k, k < j → ts (.field p k) ≠ .absent → DtorSpec tr I K (ts (.field p k))) →
    Forest tr.res K (Members p K) ts s → Clean K s →
    ∃ s', dropMembers tr I p j s = .ok () s' ∧ Chng tr.res K (Members p K) ts (cut ts p j) s s' ∧
      s'.trace = s.trace ++ downFrom (fun k => (ts (.field p k)).teardown tr.res K) j
  | 0, ts, s, _, _, hf, hc =>
    ⟨s, rfl, by rw [cut_zero]; exact Chng.refl hf hc, (List.append_nil _).symm⟩
  | j + 1, ts, s, hj, hd, hf, hc => by
    obtain ⟨s₁, h1, c1, t1⟩ := dropMember_spec I (Nat.lt_of_succ_le hj) (hd j (Nat.lt_succ_self j)) hf hc
    obtain ⟨s₂, h2, c2, t2⟩ := dropMembers_spec I j (Nat.le_of_succ_le hj) (fun k hk => by
      rw [upd_other _ _ (by intro e; cases e; omega)]
      exact hd k (Nat.lt_succ_of_lt hk)) c1.post c1.clean
    refine ⟨s₂, ?_, ?_, ?_⟩
    · show (dropMember tr I p j >>= fun _ => dropMembers tr I p j) s = _
      rw [M.bind_ok h1]; exact h2
    · rw [cut_succ] at c2; exact Chng.trans hc c1 c2
    · rw [t2, t1, List.append_assoc, downFrom_congr (g := fun k => (ts (.field p k)).teardown tr.res K)]
      · rfl
      · intro k hk
        rw [upd_other _ _ (by intro e; cases e; omega)]

theorem cut_members (ts : Loc N → Tree A V) (p : Addr) {l : Loc N} (h : Members p K l) :
    cut ts p K l = .absent := by
  obtain ⟨k, hk, rfl⟩ := h
  simp [cut, hk]

theorem readObj_some {p : Addr} {s : NSt N A R V} {r : R} {v : V} (h : s.heap p = some ⟨r, some v⟩) :
    readObj p s = .ok v s := by simp [readObj, M.bind_eq, readBody, h]

theorem writeBody_some {p : Addr} {s : NSt N A R V} {c : Cell R (Obj V)} (b : Obj V)
    (h : s.heap p = some c) :
    writeBody p b s = .ok () { s with heap := upd s.heap p (some { c with body := b }) } := by
  simp [writeBody, h]

theorem writeObj_some {p : Addr} {s : NSt N A R V} {r : R} {v : V} (w : V)
    (h : s.heap p = some ⟨r, some v⟩) :
    writeObj p w s = .ok () { s with heap := upd s.heap p (some ⟨r, some w⟩) } := by
  unfold writeObj
  rw [M.bind_ok (readObj_some h), writeBody_some _ h]

theorem deallocate_raw {p : Addr} {s : NSt N A R V} {r : R} (h : s.heap p = some ⟨r, none⟩) :
    deallocate r p s =
      .ok () { s with heap := upd s.heap p none, trace := s.trace ++ [.dealloc r p] } := by
  simp [deallocate, h, Body.occupied]

theorem beginObj_raw {p : Addr} {s : NSt N A R V} {r : R} (v : V) (how : How)
    (h : s.heap p = some ⟨r, none⟩) :
    beginObj p v how s =
      .ok () { s with heap := upd s.heap p (some ⟨r, some v⟩), trace := s.trace ++ [.construct p how] } := by
  simp [beginObj, h]

end

/-- A tree within the fuel is destroyed completely. -/
theorem reset_spec : ∀ (t : Tree A V) (n : Nat), t.height K ≤ n →
    ResetSpec (N := N) tr (ops tr T K n) K t := by
  intro t
  induction t with
  | absent => intro n _ l ts s a ht hne; exact absurd rfl hne
  | hollow b =>
    intro n _ l ts s a ht hne hf hc
    have hh := hf.holds l rfl
    rw [ht] at hh
    have hh : s.hs l = some ⟨none, b⟩ := hh
    refine ⟨s, ?_, ?_, (List.append_nil _).symm⟩
    · unfold Indirect.reset M.noexceptIf
      rw [M.bind_ok (getH_some hh)]; rfl
    · show Chng tr.res K (· = l) ts (upd ts l (.hollow b)) s s
      rw [upd_eq ht]; exact Chng.refl hf hc
  | node p b v ks ih =>
    intro n hn l ts s a ht hne hf hc
    obtain ⟨m, rfl, hks⟩ := Tree.height_kid hn
    have hh := hf.holds l rfl
    have hkK := lt_of_holds hc hh (by rw [ht]; exact hne)
    have hsp := hf.sep l rfl
    rw [ht] at hh hsp
    obtain ⟨hl, hp, hkids⟩ := hh
    have hpin : (ts l).Mem K p := by rw [ht]; exact Or.inl rfl
    have hlp : ∀ k, l ≠ .field p k := fun k e => hf.out p k l e.symm rfl hpin
    -- the destructor of the node
    let s₁ : NSt N A R V :=
      { s with heap := upd s.heap p (some ⟨tr.res b, none⟩), trace := s.trace ++ [.destroy p] }
    have h1p : s₁.heap p = some ⟨tr.res b, none⟩ := upd_same _ _ _
    have h1q : ∀ q, q ≠ p → s₁.heap q = s.heap q := fun q hq => upd_other _ _ hq
    have hc₁ : Clean K s₁ := by
      intro p' k hpk
      by_cases e : p' = p
      · subst e; rw [h1p] at hpk
        exact hc p' k (Or.inr (hpk.resolve_left (by simp)))
      · rw [h1q p' e] at hpk; exact hc p' k hpk
    have hf₁ : Forest tr.res K (Members p K) (opened ts p ks) s₁ :=
      hf.members ht h1q (by rw [h1p]; simp) rfl
    obtain ⟨s₂, h2, c2, t2⟩ := dropMembers_spec (tr := tr) (ops tr T K m) (p := p) K (Nat.le_refl K)
      (fun k hk _ => by
        rw [opened_member]
        exact dtor_of_reset tr _ _ (ih k m (hks k hk))) hf₁ hc₁
    have h2p : s₂.heap p = some ⟨tr.res b, none⟩ := by
      rw [c2.keeps_heap (by rw [h1p]; simp) ?_, h1p]
      rintro l' ⟨k, hk, rfl⟩
      rw [opened_member]; exact hsp.1 k hk
    have hlD : ¬ Members p K l := by rintro ⟨k, _, rfl⟩; exact hlp k rfl
    have h2l : s₂.hs l = some ⟨some p, b⟩ := by
      rw [c2.keeps_hs hlD ?_]
      · exact hl
      · intro p' k' e
        have hp' : p' ≠ p := fun e' => hlp k' (by rw [e, e'])
        refine ⟨by rw [h1q p' hp']; exact hf.base p' k' e.symm, ?_⟩
        rintro l' ⟨k, hk, rfl⟩
        rw [opened_member]
        intro hm
        exact hf.out p' k' l e.symm rfl (by rw [ht]; exact Or.inr ⟨k, hk, hm⟩)
    have hcut : ∀ l' q, Members p K l' → ¬ (cut (opened ts p ks) p K l').Mem K q := by
      intro l' q hm; rw [cut_members _ _ hm]; exact id
    refine ⟨{ s₂ with
      heap := upd s₂.heap p none, hs := upd s₂.hs l (some ⟨none, b⟩)
      trace := s₂.trace ++ [.dealloc (tr.res b) p] }, ?_, ?_, ?_⟩
    · unfold Indirect.reset M.noexceptIf
      have hdt : (ops tr T K (m + 1)).dtor b p s = .ok () s₂ := by
        show (readObj p >>= fun _ => writeBody p none >>= fun _ => emit (.destroy p) >>= fun _ =>
          dropMembers tr (ops tr T K m) p K) s = _
        rw [M.bind_ok (readObj_some hp), M.bind_ok (writeBody_some none hp),
          M.bind_ok (show emit (.destroy p) _ = .ok () s₁ from rfl), h2]
      have hdw : Indirect.destroyWith tr (ops tr T K (m + 1)) b p s = .ok () { s₂ with
          heap := upd s₂.heap p none
          trace := s₂.trace ++ [.dealloc (tr.res b) p] } := by
        unfold Indirect.destroyWith
        rw [M.bind_ok hdt, deallocate_raw (by exact h2p)]
      rw [M.bind_ok (getH_some hl)]
      simp only
      rw [M.bind_ok hdw, setP_some (h := ⟨some p, b⟩) (by exact h2l)]
    · show Chng tr.res K (· = l) ts (upd ts l (.hollow b)) s _
      exact
        { post := by
            refine Forest.single ?_ ?_ ?_
            · show Holds tr.res K _ (upd s₂.hs l _ l) (upd ts l _ l)
              rw [upd_same, upd_same]; exact rfl
            · rw [upd_same]; exact trivial
            · intro p' k' e
              rw [upd_same]
              refine ⟨id, ?_⟩
              have hp' : p' ≠ p := fun e' => hlp k' (by rw [e, e'])
              show upd s₂.heap p none p' ≠ none
              rw [upd_other _ _ hp', c2.keeps_heap (by rw [h1q p' hp']; exact hf.base p' k' e.symm) ?_,
                h1q p' hp']
              · exact hf.base p' k' e.symm
              · rintro l' ⟨k, hk, rfl⟩
                rw [opened_member]
                intro hm
                exact hf.out p' k' l e.symm rfl (by rw [ht]; exact Or.inr ⟨k, hk, hm⟩)
          src := by
            intro l' q e hm
            cases e
            rw [upd_same] at hm
            exact hm.elim
          freed := by
            intro l' q e hm
            cases e
            right
            show upd s₂.heap p none q = none
            by_cases hq : q = p
            · subst hq; exact upd_same _ _ _
            · rw [upd_other _ _ hq]
              rw [ht] at hm
              rcases hm with e | ⟨k, hk, hm⟩
              · exact absurd e hq
              · refine (c2.freed (.field p k) q ⟨k, hk, rfl⟩ (by rw [opened_member]; exact hm)).resolve_left ?_
                rintro ⟨l', hl', hm'⟩
                exact hcut l' q hl' hm'
          heap := by
            intro q h0 _
            have h0 := h0 l rfl
            rw [ht] at h0
            have hq : q ≠ p := fun e => h0 (Or.inl e)
            show upd s₂.heap p none q = s.heap q
            rw [upd_other _ _ hq, c2.heap q ?_ (fun l' hl' => hcut l' q hl'), h1q q hq]
            rintro l' ⟨k, hk, rfl⟩
            rw [opened_member]
            exact fun hm => h0 (Or.inr ⟨k, hk, hm⟩)
          hs := by
            intro l' hne ho
            show upd s₂.hs l _ l' = s.hs l'
            rw [upd_other _ _ hne]
            refine c2.hs l' ?_ ?_
            · rintro ⟨k, hk, rfl⟩
              exact (ho p k rfl l rfl).1 hpin
            · rintro p' k' rfl l'' hl''
              refine ⟨?_, hcut l'' p' hl''⟩
              obtain ⟨k, hk, rfl⟩ := hl''
              rw [opened_member]
              intro hm
              exact (ho p' k' rfl l rfl).1 (by rw [ht]; exact Or.inr ⟨k, hk, hm⟩)
          clean := by
            intro p' k' hpk
            show upd s₂.hs l _ (.field p' k') = none
            have hpk : upd s₂.heap p none p' = none ∨ K ≤ k' := hpk
            by_cases e : Loc.field p' k' = l
            · exfalso
              have hp' : p' ≠ p := fun e' => hlp k' (by rw [← e, e'])
              rcases hpk with hpk | hpk
              · rw [upd_other _ _ hp', c2.keeps_heap (by rw [h1q p' hp']; exact hf.base p' k' e) ?_,
                  h1q p' hp'] at hpk
                · exact hf.base p' k' e hpk
                · rintro l' ⟨k, hk, rfl⟩
                  rw [opened_member]
                  intro hm
                  exact hf.out p' k' l e rfl (by rw [ht]; exact Or.inr ⟨k, hk, hm⟩)
              · exact absurd (hkK p' k' e.symm) (Nat.not_lt.2 hpk)
            · rw [upd_other _ _ e]
              by_cases hp' : p' = p
              · subst hp'
                cases Nat.lt_or_ge k' K with
                | inl h =>
                  have := c2.post.holds (.field p' k') ⟨k', h, rfl⟩
                  rw [cut_members _ _ ⟨k', h, rfl⟩] at this
                  exact this
                | inr h => exact c2.clean p' k' (Or.inr h)
              · rw [upd_other _ _ hp'] at hpk
                exact c2.clean p' k' hpk }
    · show s₂.trace ++ _ = _
      rw [t2, downFrom_congr (g := fun k => (ks k).teardown tr.res K)
        (fun k _ => by rw [opened_member])]
      show (s.trace ++ [.destroy p]) ++ _ ++ _ = s.trace ++ (.destroy p :: (_ ++ _))
      simp [List.append_assoc]

theorem dtor_spec (t : Tree A V) (n : Nat) (h : t.height K ≤ n) :
    DtorSpec (N := N) tr (ops tr T K n) K t :=
  dtor_of_reset tr _ t (reset_spec tr T t n h)

end
end Verif.Node
