import Verif.Proofs.NodeMove

set_option autoImplicit false
set_option linter.unusedSectionVars false
set_option linter.unusedSimpArgs false

/-! Move construction with an allocator, move assignment and swap of trees. -/

namespace Verif.Node
open Verif

section
variable {N A R V X : Type} [DecidableEq N] [DecidableEq R]
variable {res : A → R} {K : Nat}

/-- The other place is not affected. -/
theorem Spawn.keeps_one {h : Handle A} {t u : Tree A V} {l₁ l₂ : Loc N} {ts : Loc N → Tree A V}
    {s s₁ : NSt N A R V} (sp : Spawn res K h t l₂ ts u s s₁)
    (hf : Forest res K (fun l => l = l₁ ∨ l = l₂) ts s) (hne : l₁ ≠ l₂) :
    Forest res K (· = l₁) ts s₁ := by
  have hp1 : ∀ p k, l₁ = .field p k → ¬ (ts l₂).Mem K p ∧ ¬ t.Mem K p := by
    intro p k e
    have h2 := hf.out p k l₂ (Or.inl e.symm) (Or.inr rfl)
    refine ⟨h2, fun hm => ?_⟩
    rcases sp.src p hm with h | h
    · exact h2 h
    · exact hf.base p k (Or.inl e.symm) h
  have hq : ∀ q, (ts l₁).Mem K q → ¬ (ts l₂).Mem K q ∧ ¬ t.Mem K q := by
    intro q hq
    have h2 := hf.disj l₁ l₂ (Or.inl rfl) (Or.inr rfl) hne q hq
    refine ⟨h2, fun hm => ?_⟩
    rcases sp.src q hm with h | h
    · exact h2 h
    · exact (hf.holds l₁ (Or.inl rfl)).alloc hq h
  refine Forest.single ?_ (hf.sep l₁ (Or.inl rfl)) ?_
  · rw [sp.hs l₁ hne hp1]
    refine (hf.holds l₁ (Or.inl rfl)).frame (fun q hm => sp.heap q (hq q hm).1 (hq q hm).2) ?_
    intro q k hm
    refine sp.hs _ (fun e => ?_) (fun p' k' e => by cases e; exact hq q hm)
    exact hf.out q k l₁ (Or.inr e) (Or.inl rfl) hm
  · intro p k e
    refine ⟨hf.out p k l₁ (Or.inl e.symm) (Or.inl rfl), ?_⟩
    rw [sp.heap p (hp1 p k e).1 (hp1 p k e).2]
    exact hf.base p k (Or.inl e.symm)

/-- Giving the tree to a place that was emptied. -/
theorem Spawn.place {h : Handle A} {t u e : Tree A V} {l₁ l₂ : Loc N} {ts : Loc N → Tree A V}
    {s s₁ s₂ : NSt N A R V} (sp : Spawn res K h t l₂ ts u s s₁)
    (hf : Forest res K (fun l => l = l₁ ∨ l = l₂) ts s) (hne : l₁ ≠ l₂)
    (hc : Chng res K (· = l₁) ts (upd ts l₁ e) s₁ s₂) (he : ∀ q, ¬ e.Mem K q)
    (hk₁ : ∀ p k, l₁ = .field p k → k < K) :
    Chng res K (fun l => l = l₁ ∨ l = l₂) ts (upd (upd ts l₁ t) l₂ u) s
      { s₂ with hs := upd s₂.hs l₁ (some h) } := by
  have e1 : upd (upd ts l₁ t) l₂ u l₁ = t := by rw [upd_other _ _ hne, upd_same]
  have e2 : upd (upd ts l₁ t) l₂ u l₂ = u := upd_same _ _ _
  have hnew : ∀ l q, l = l₁ → ¬ (upd ts l₁ e l).Mem K q := fun l q hl => by
    rw [hl, upd_same]; exact he q
  -- members of nodes owning one of the places
  have hb : ∀ p k, (Loc.field p k = l₁ ∨ Loc.field p k = l₂) → ¬ (ts l₁).Mem K p ∧ ¬ (ts l₂).Mem K p ∧
      ¬ t.Mem K p ∧ s.heap p ≠ none ∧ s₁.heap p = s.heap p ∧ s₂.heap p = s₁.heap p := by
    intro p k hd
    have h1 := hf.out p k l₁ hd (Or.inl rfl)
    have h2 := hf.out p k l₂ hd (Or.inr rfl)
    have h3 := hf.base p k hd
    have h4 : ¬ t.Mem K p := fun hm => (sp.src p hm).elim h2 h3
    have h5 : s₁.heap p = s.heap p := sp.heap p h2 h4
    refine ⟨h1, h2, h4, h3, h5, ?_⟩
    exact hc.keeps_heap (by rw [h5]; exact h3) (fun l e' => by cases e'; exact h1)
  have ht1 : ∀ q, t.Mem K q → ¬ (ts l₁).Mem K q := fun q hm hm' => by
    rcases sp.src q hm with h' | h'
    · exact hf.disj l₁ l₂ (Or.inl rfl) (Or.inr rfl) hne q hm' h'
    · exact (hf.holds l₁ (Or.inl rfl)).alloc hm' h'
  have hu1 : ∀ q, u.Mem K q → ¬ (ts l₁).Mem K q := fun q hm hm' =>
    hf.disj l₁ l₂ (Or.inl rfl) (Or.inr rfl) hne q hm' (sp.srcLeft q hm)
  have hl2 : s₂.hs l₂ = s₁.hs l₂ := by
    refine hc.keeps_hs (fun e' => hne e'.symm) (fun p k e' => ?_)
    obtain ⟨a1, a2, a3, a4, a5, a6⟩ := hb p k (Or.inr e'.symm)
    exact ⟨by rw [a5]; exact a4, fun l el => by cases el; exact a1⟩
  have hfin : ∀ (o : Option (Handle A)) (x : Tree A V), Holds res K s₁ o x →
      (∀ q, x.Mem K q → ¬ (ts l₁).Mem K q) → (∀ p k, l₁ = .field p k → ¬ x.Mem K p) →
      Holds res K { s₂ with hs := upd s₂.hs l₁ (some h) } o x := by
    intro o x hx h1 h2
    have := hc.keeps hx (fun l q el hm => by cases el; exact h1 q hm) (fun p k el => h2 p k el.symm)
    refine this.frame (fun _ _ => rfl) (fun q k hm => ?_)
    exact upd_other _ _ (fun e' => h2 q k e'.symm hm)
  have hpu : ∀ p k, (Loc.field p k = l₁ ∨ Loc.field p k = l₂) → ¬ u.Mem K p := fun p k hd hm =>
    (hb p k hd).2.1 (sp.srcLeft p hm)
  have hall : ∀ l q, (l = l₁ ∨ l = l₂) → (upd (upd ts l₁ t) l₂ u l).Mem K q →
      (∃ l', (l' = l₁ ∨ l' = l₂) ∧ (ts l').Mem K q) ∨ s.heap q = none := by
    rintro l q (rfl | rfl) hm
    · rw [e1] at hm
      rcases sp.src q hm with h' | h'
      · exact Or.inl ⟨l₂, Or.inr rfl, h'⟩
      · exact Or.inr h'
    · rw [e2] at hm
      exact Or.inl ⟨_, Or.inr rfl, sp.srcLeft q hm⟩
  exact
    { post :=
        { holds := by
            rintro l (rfl | rfl)
            · show Holds res K _ (upd s₂.hs _ _ _) _
              rw [e1, upd_same]
              exact hfin _ _ sp.holds ht1 (fun p k e' => (hb p k (Or.inl e'.symm)).2.2.1)
            · show Holds res K _ (upd s₂.hs _ _ _) _
              rw [e2, upd_other _ _ (Ne.symm hne), hl2]
              exact hfin _ _ sp.left hu1 (fun p k e' => hpu p k (Or.inl e'.symm))
          sep := by
            rintro l (rfl | rfl)
            · rw [e1]; exact sp.sep
            · rw [e2]; exact sp.leftSep
          disj := by
            rintro l l' (rfl | rfl) (rfl | rfl) hn q
            · exact absurd rfl hn
            · rw [e1, e2]; exact fun a b => sp.apart q b a
            · rw [e1, e2]; exact fun a b => sp.apart q a b
            · exact absurd rfl hn
          out := by
            rintro p k l hd (rfl | rfl)
            · rw [e1]; exact (hb p k hd).2.2.1
            · rw [e2]; exact hpu p k hd
          base := by
            intro p k hd
            obtain ⟨a1, a2, a3, a4, a5, a6⟩ := hb p k hd
            show s₂.heap p ≠ none
            rw [a6, a5]; exact a4 }
      src := hall
      freed := by
        rintro l q (rfl | rfl) hm
        · rcases hc.freed _ q rfl hm with ⟨l', e', hm'⟩ | h'
          · exact absurd hm' (hnew l' q e')
          · exact Or.inr h'
        · rcases sp.freed q hm with h' | h'
          · exact Or.inl ⟨_, Or.inr rfl, by rw [e2]; exact h'⟩
          · exact Or.inl ⟨l₁, Or.inl rfl, by rw [e1]; exact h'⟩
      heap := by
        intro q h1 h2
        have a1 := h1 l₁ (Or.inl rfl)
        have a2 := h1 l₂ (Or.inr rfl)
        have a3 := h2 l₁ (Or.inl rfl)
        rw [e1] at a3
        show s₂.heap q = s.heap q
        rw [hc.heap q (fun l e' => by cases e'; exact a1) (fun l e' => hnew l q e'), sp.heap q a2 a3]
      hs := by
        intro l hl ho
        have n1 : l ≠ l₁ := fun e' => hl (Or.inl e')
        have n2 : l ≠ l₂ := fun e' => hl (Or.inr e')
        show upd s₂.hs l₁ _ l = s.hs l
        rw [upd_other _ _ n1, hc.hs l n1 ?_, sp.hs l n2 ?_]
        · intro p k e'
          have a1 := ho p k e' l₁ (Or.inl rfl)
          have a2 := ho p k e' l₂ (Or.inr rfl)
          rw [e1] at a1
          exact ⟨a2.1, a1.2⟩
        · intro p k e' l' el
          exact ⟨by cases el; exact (ho p k e' l₁ (Or.inl rfl)).1, hnew l' p el⟩
      clean := by
        intro p k hp
        show upd s₂.hs l₁ _ (.field p k) = none
        by_cases e' : Loc.field p k = l₁
        · exfalso
          obtain ⟨a1, a2, a3, a4, a5, a6⟩ := hb p k (Or.inl e')
          rcases hp with hp | hp
          · have hp : s₂.heap p = none := hp
            rw [a6, a5] at hp; exact a4 hp
          · exact absurd (hk₁ p k e'.symm) (Nat.not_lt.2 hp)
        · rw [upd_other _ _ e']; exact hc.clean p k hp }

variable (tr : ATraits A R) (T : TSpec V X)

/-- Changing one tree of a forest of two. -/
theorem Chng.left {l₁ l₂ : Loc N} {ts : Loc N → Tree A V} {s s' : NSt N A R V} {t : Tree A V}
    (hf : Forest res K (fun l => l = l₁ ∨ l = l₂) ts s)
    (hc : Chng res K (· = l₁) ts (upd ts l₁ t) s s') :
    Chng res K (fun l => l = l₁ ∨ l = l₂) ts (upd ts l₁ t) s s' :=
  hc.extend hf (fun _ e => Or.inl e) (fun _ _ hn => upd_other _ _ hn)

theorem Chng.right {l₁ l₂ : Loc N} {ts : Loc N → Tree A V} {s s' : NSt N A R V} {t : Tree A V}
    (hf : Forest res K (fun l => l = l₁ ∨ l = l₂) ts s)
    (hc : Chng res K (· = l₂) ts (upd ts l₂ t) s s') :
    Chng res K (fun l => l = l₁ ∨ l = l₂) ts (upd ts l₂ t) s s' :=
  hc.extend hf (fun _ e => Or.inr e) (fun _ _ hn => upd_other _ _ hn)

/-- Move assignment between two places with separate trees. -/
theorem assignMove_spec (hS : tr.Sound) (hR : tr.Reflexive) (t₁ t₂ : Tree A V) (n : Nat)
    (hn₁ : t₁.height K ≤ n) (hn₂ : t₂.height K ≤ n) (l₁ l₂ : Loc N) (ts : Loc N → Tree A V)
    (s : NSt N A R V) (a : A) (hne : l₁ ≠ l₂) (ht₁ : ts l₁ = t₁) (ht₂ : ts l₂ = t₂) (hn1 : t₁ ≠ .absent)
    (hn2 : t₂ ≠ .absent) (hf : Forest tr.res K (fun l => l = l₁ ∨ l = l₂) ts s) (hc : Clean K s) :
    Post (tr.eq (t₁.allocOr a) (t₂.allocOr a) = false ∧ (tr.pocma || tr.alwaysEqual) = true)
      (fun r s' => r = l₁ ∧ ∃ t₁' t₂',
        Chng tr.res K (fun l => l = l₁ ∨ l = l₂) ts (upd (upd ts l₁ t₁') l₂ t₂') s s' ∧
        t₂.Like (MovedTo T) K t₁' ∧ LeftOver t₂ t₂' ∧
        (tr.eq (t₁.allocOr a) (t₂.allocOr a) = true →
          t₁' = t₂.withAlloc (t₁'.allocOr a) ∧ t₂' = t₂.emptied) ∧
        t₁'.allocOr a = if tr.pocma then t₂.allocOr a else t₁.allocOr a)
      (fun s' => ∃ q b v v' ks, t₂ = .node q b v ks ∧
        Chng tr.res K (fun l => l = l₁ ∨ l = l₂) ts (upd ts l₂ (.node q b v' ks)) s s')
      (Indirect.assignMove tr (ops tr T K n) l₁ l₂ s) := by
  have h1 := hf.holds l₁ (Or.inl rfl)
  have h2 := hf.holds l₂ (Or.inr rfl)
  have hk₁ := lt_of_holds hc h1 (by rw [ht₁]; exact hn1)
  have hk₂ := lt_of_holds hc h2 (by rw [ht₂]; exact hn2)
  have hf1 := hf.one (Or.inl rfl : l₁ = l₁ ∨ l₁ = l₂)
  have hf2 := hf.one (Or.inr rfl : l₂ = l₁ ∨ l₂ = l₂)
  rw [ht₁] at h1
  rw [ht₂] at h2
  obtain ⟨x, hx, hxa⟩ := holds_alloc a h1 hn1
  have hsw : ∀ (f g : Tree A V), upd (upd ts l₁ f) l₂ g l₁ = f := fun f g => by
    rw [upd_other _ _ hne, upd_same]
  unfold Indirect.assignMove
  rw [if_neg hne]
  cases t₂ with
  | absent => exact absurd rfl hn2
  | hollow b =>
    have h2 : s.hs l₂ = some ⟨none, b⟩ := h2
    obtain ⟨s₁, hr, c1, _⟩ := reset_spec tr T t₁ n hn₁ l₁ ts s a ht₁ hn1 hf1 hc
    have hl1 := c1.post.holds l₁ rfl
    rw [upd_same] at hl1
    have hl1 : s₁.hs l₁ = some ⟨none, t₁.allocOr a⟩ := hl1
    have hcv : ∀ {t : Tree A V} {s' : NSt N A R V}, Chng tr.res K (· = l₁) ts (upd ts l₁ t) s s' →
        Chng tr.res K (fun l => l = l₁ ∨ l = l₂) ts (upd (upd ts l₁ t) l₂ (.hollow b)) s s' := fun c => by
      refine (Chng.left hf c).eqOn (fun _ _ => rfl) ?_
      rintro l (rfl | rfl)
      · rw [hsw, upd_same]
      · rw [upd_same, upd_other _ _ (Ne.symm hne), ht₂]
    have hres : (do
        if ← Indirect.valueless l₂ then
          Indirect.reset tr (ops tr T K n) l₁
        else
          let t ← getH l₁
          let o ← getH l₂
          if tr.eq t.alloc o.alloc then
            setP l₁ o.p
            setP l₂ t.p
            Indirect.reset tr (ops tr T K n) l₂
          else
            let q ← Indirect.deref l₂
            let tmp ← Indirect.constructFrom tr (if tr.pocma then o.alloc else t.alloc)
              (fun a m => (ops tr T K n).moveCtor a m q)
            Indirect.reset tr (ops tr T K n) l₁
            setP l₁ (some tmp)
        if tr.pocma then
          let o ← getH l₂
          setAlloc l₁ o.alloc
        pure l₁) s = (if tr.pocma then .ok l₁ { s₁ with hs := upd s₁.hs l₁ (some ⟨none, b⟩) } else .ok l₁ s₁) := by
      rw [M.bind_ok (valueless_eq h2)]
      simp only [beq_self_eq_true, if_true]
      rw [M.bind_ok hr]
      cases hpo : tr.pocma with
      | false => simp only [Bool.false_eq_true, if_false]; rfl
      | true =>
        simp only [if_true]
        have h2' : s₁.hs l₂ = some ⟨none, b⟩ := by rw [Chng.other_hs hf hne c1]; exact h2
        rw [M.bind_ok (getH_some h2'), M.bind_ok (setAlloc_some hl1 b)]
        rfl
    unfold M.noexceptIf
    simp only [hres]
    cases hpo : tr.pocma with
    | false =>
      simp only [Bool.false_eq_true, if_false]
      exact ⟨rfl, .hollow (t₁.allocOr a), .hollow b, hcv c1, ⟨_, rfl⟩, Or.inl rfl, fun _ => ⟨rfl, rfl⟩, rfl⟩
    | true =>
      simp only [if_true]
      refine ⟨rfl, .hollow b, .hollow b, hcv ?_, ⟨_, rfl⟩, Or.inl rfl, fun _ => ⟨rfl, rfl⟩, rfl⟩
      have hp := Chng.poke (t := .hollow b) (o := some ⟨none, b⟩) c1.post c1.clean (fun q hm => by
        rw [upd_same] at hm; exact hm) (fun q hm => hm) trivial (fun _ => rfl) hk₁
      rw [upd_upd] at hp
      exact Chng.trans hc c1 hp
  | node q b v ks =>
    have h2l : s.hs l₂ = some ⟨some q, b⟩ := h2.1
    have hvl : (Indirect.valueless l₂) s = .ok false s := valueless_eq h2l
    by_cases heq : tr.eq (t₁.allocOr a) b = true
    · -- the pointers are exchanged and the old tree is destroyed
      have hres₁ : tr.res x.alloc = tr.res b := by rw [hxa]; exact hS.eq_res _ _ heq
      have hx1 : s.hs l₁ = some x := hx
      have cx := Chng.exchange (u₁ := (Tree.node q b v ks).withAlloc x.alloc) (u₂ := t₁.withAlloc b)
        (o₁ := some ⟨some q, x.alloc⟩) (o₂ := some ⟨x.p, b⟩) hf hc hne
        (fun z hz => by
          rw [ht₂, h2l] at hz
          exact hz.withAlloc (b := x.alloc) hres₁)
        (fun z hz => by
          rw [ht₁, hx1] at hz
          exact hz.withAlloc hres₁.symm)
        (fun y => by rw [ht₂]; exact withAlloc_mem _ _ y) (fun y => by rw [ht₁]; exact withAlloc_mem _ _ y)
        ((withAlloc_sep _ _).2 (by rw [← ht₂]; exact hf.sep l₂ (Or.inr rfl)))
        ((withAlloc_sep _ _).2 (by rw [← ht₁]; exact hf.sep l₁ (Or.inl rfl))) hk₁ hk₂
      generalize hsx : ({ s with hs := upd (upd s.hs l₁ (some ⟨some q, x.alloc⟩)) l₂ (some ⟨x.p, b⟩) } :
        NSt N A R V) = sx at cx
      generalize hus : upd (upd ts l₁ ((Tree.node q b v ks).withAlloc x.alloc)) l₂ (t₁.withAlloc b) = us at cx
      have hus1 : us l₁ = (Tree.node q b v ks).withAlloc x.alloc := by rw [← hus, hsw]
      have hus2 : us l₂ = t₁.withAlloc b := by rw [← hus, upd_same]
      obtain ⟨s₂, hr, c2, _⟩ := reset_spec tr T (t₁.withAlloc b) n (by rw [withAlloc_height]; exact hn₁) l₂ us sx a
        hus2 (fun e => hn1 ((withAlloc_absent b t₁).1 e)) (cx.post.one (Or.inr rfl)) cx.clean
      rw [withAlloc_allocOr a b t₁ hn1] at c2
      have hl1' : s₂.hs l₁ = some ⟨some q, x.alloc⟩ := by
        have := c2.keeps_hs (l := l₁) hne (fun p k e =>
          ⟨cx.post.base p k (Or.inl e.symm), fun l' e' => by
            cases e'; exact cx.post.out p k l₂ (Or.inl e.symm) (Or.inr rfl)⟩)
        rw [this, ← hsx]
        show upd (upd s.hs l₁ _) l₂ _ l₁ = _
        rw [upd_other _ _ hne, upd_same]
      have hl2' : s₂.hs l₂ = some ⟨none, b⟩ := by
        have := c2.post.holds l₂ rfl
        rw [upd_same] at this; exact this
      have hcf : Chng tr.res K (fun l => l = l₁ ∨ l = l₂) ts
          (upd (upd ts l₁ ((Tree.node q b v ks).withAlloc x.alloc)) l₂ (.hollow b)) s s₂ := by
        have c2' := c2.extend cx.post (fun _ e => Or.inr e) (fun _ _ hn => upd_other _ _ hn)
        have := Chng.trans hc cx c2'
        rw [← hus, upd_upd] at this
        exact this
      have hrun : (do
          if ← Indirect.valueless l₂ then
            Indirect.reset tr (ops tr T K n) l₁
          else
            let t ← getH l₁
            let o ← getH l₂
            if tr.eq t.alloc o.alloc then
              setP l₁ o.p
              setP l₂ t.p
              Indirect.reset tr (ops tr T K n) l₂
            else
              let q ← Indirect.deref l₂
              let tmp ← Indirect.constructFrom tr (if tr.pocma then o.alloc else t.alloc)
                (fun a m => (ops tr T K n).moveCtor a m q)
              Indirect.reset tr (ops tr T K n) l₁
              setP l₁ (some tmp)
          if tr.pocma then
            let o ← getH l₂
            setAlloc l₁ o.alloc
          pure l₁) s = (if tr.pocma then .ok l₁ { s₂ with hs := upd s₂.hs l₁ (some ⟨some q, b⟩) }
            else .ok l₁ s₂) := by
        rw [M.bind_ok hvl]
        simp only [Bool.false_eq_true, if_false]
        rw [M.bind_ok (getH_some hx1), M.bind_ok (getH_some h2l)]
        have heq' : tr.eq x.alloc b = true := by rw [hxa]; exact heq
        simp only [heq', if_true]
        have hl2a : (upd s.hs l₁ (some (⟨some q, x.alloc⟩ : Handle A))) l₂ = some ⟨some q, b⟩ := by
          rw [upd_other _ _ (Ne.symm hne)]; exact h2l
        rw [M.bind_ok (setP_some hx1 (some q)), M.bind_ok (setP_some (h := ⟨some q, b⟩) hl2a x.p)]
        simp only [hsx]
        rw [M.bind_ok hr]
        cases hpo : tr.pocma with
        | false => simp only [Bool.false_eq_true, if_false]; rfl
        | true =>
          simp only [if_true]
          rw [M.bind_ok (getH_some hl2'), M.bind_ok (setAlloc_some hl1' b)]
          rfl
      unfold M.noexceptIf
      simp only [hrun]
      cases hpo : tr.pocma with
      | false =>
        simp only [Bool.false_eq_true, if_false]
        refine ⟨rfl, (Tree.node q b v ks).withAlloc x.alloc, .hollow b, hcf, Like_withAlloc (C := MovedTo T) (fun _ => Or.inl rfl) _ _,
          Or.inl rfl, fun _ => ⟨rfl, rfl⟩, hxa⟩
      | true =>
        simp only [if_true]
        refine ⟨rfl, .node q b v ks, .hollow b, ?_, Like_refl (C := MovedTo T) (fun _ => Or.inl rfl) _,
          Or.inl rfl, fun _ => ⟨rfl, rfl⟩, rfl⟩
        have hpost := hcf.post.one (Or.inl rfl : l₁ = l₁ ∨ l₁ = l₂)
        have ht := hsw ((Tree.node q b v ks).withAlloc x.alloc) (.hollow b)
        have ct := Chng.touch (b := b) (w := v) hpost hcf.clean ht hres₁.symm
        have hlh := hcf.post.holds l₁ (Or.inl rfl)
        rw [ht] at hlh
        have ct' := (ct.congr (z' := { s₂ with hs := upd s₂.hs l₁ (some ⟨some q, b⟩) }) rfl rfl
          (upd_id _ _ _ hlh.2.1).symm rfl).extend hcf.post (fun _ e => Or.inl e)
          (fun _ _ hn => upd_other _ _ hn)
        refine (Chng.trans hc hcf ct').eqOn (fun _ _ => rfl) ?_
        rintro l (rfl | rfl)
        · rw [hsw, upd_same]
        · rw [upd_same, upd_other _ _ (Ne.symm hne), upd_same]
    · -- a new node is made from the old one
      have heq' : tr.eq x.alloc b = false := by rw [hxa]; exact Bool.eq_false_iff.2 heq
      have hx1 : s.hs l₁ = some x := hx
      refine Post.noexcept ?_ (fun hb => ⟨Bool.eq_false_iff.2 heq, hb⟩)
      rw [M.bind_ok hvl]
      simp only [Bool.false_eq_true, if_false]
      rw [M.bind_ok (getH_some hx1), M.bind_ok (getH_some h2l)]
      simp only [heq', Bool.false_eq_true, if_false]
      rw [M.bind_ok (deref_eq h2l), hxa]
      have hpos : 0 < n := by
        obtain ⟨m, e, _⟩ := Tree.height_kid hn₂; omega
      have hb := buildMove_spec tr T hR n (if tr.pocma then b else t₁.allocOr a) hpos hf2 hc ht₂
      refine Post.bind (hb.mono (fun _ _ h => h) ?_ (fun h => h.elim)) ?_
      · rintro s' ⟨v', c⟩
        exact ⟨q, b, v, v', ks, rfl, Chng.right hf c⟩
      · rintro p s₁ ⟨w, v', hw, sp⟩
        obtain ⟨s₂, hr, c2, _⟩ := reset_spec tr T t₁ n hn₁ l₁ ts s₁ a ht₁ hn1 (sp.keeps_one hf hne) sp.clean
        rw [M.bind_ok hr]
        have hl := c2.post.holds l₁ rfl
        rw [upd_same] at hl
        have hl : s₂.hs l₁ = some ⟨none, t₁.allocOr a⟩ := hl
        rw [M.bind_ok (setP_some hl (some p))]
        have cfin := sp.place hf hne c2 (fun _ h => h) hk₁
        have hlike : (Tree.node q b v ks).Like (MovedTo T) K
            (.node p (if tr.pocma then b else t₁.allocOr a) w ks) :=
          ⟨_, _, _, _, rfl, Or.inr hw, fun k _ => Like_refl (C := MovedTo T) (fun _ => Or.inl rfl) _⟩
        cases hpo : tr.pocma with
        | false =>
          simp only [Bool.false_eq_true, if_false]
          rw [hpo] at cfin hlike
          exact ⟨rfl, _, _, cfin, hlike, Or.inr ⟨_, _, _, _, _, rfl, rfl⟩, fun h => absurd h heq, rfl⟩
        | true =>
          simp only [if_true]
          rw [hpo] at cfin hlike
          have h2s : s₂.hs l₂ = some ⟨some q, b⟩ := by
            rw [c2.keeps_hs (l := l₂) (fun e => hne e.symm) ?_]
            · have := sp.left; exact this.1
            · intro p' k e
              have hout := hf.out p' k l₁ (Or.inr e.symm) (Or.inl rfl)
              refine ⟨?_, fun l' e' => by cases e'; exact hout⟩
              have hb2 := hf.out p' k l₂ (Or.inr e.symm) (Or.inr rfl)
              have hb3 := hf.base p' k (Or.inr e.symm)
              rw [sp.heap p' hb2 (fun hm => (sp.src p' hm).elim hb2 hb3)]
              exact hb3
          have h2'' : (upd s₂.hs l₁ (some ⟨some p, t₁.allocOr a⟩)) l₂ = some ⟨some q, b⟩ := by
            rw [upd_other _ _ (Ne.symm hne)]; exact h2s
          rw [M.bind_ok (getH_some h2''),
            M.bind_ok (setAlloc_some (h := ⟨some p, t₁.allocOr a⟩) (upd_same _ _ _) b)]
          refine ⟨rfl, _, _, cfin.congr rfl rfl rfl ?_, hlike, Or.inr ⟨_, _, _, _, _, rfl, rfl⟩,
            fun h => absurd h heq, rfl⟩
          show upd (upd s₂.hs l₁ _) l₁ _ = _
          rw [upd_upd]; rfl

/-- Move construction into an empty place, with a given allocator. -/
theorem moveInto_spec (hS : tr.Sound) (hR : tr.Reflexive) (t₂ : Tree A V) (n : Nat) (hn₂ : t₂.height K ≤ n)
    (l₁ l₂ : Loc N) (ts : Loc N → Tree A V) (s : NSt N A R V) (a b : A) (hne : l₁ ≠ l₂)
    (ht₁ : ts l₁ = .absent) (ht₂ : ts l₂ = t₂) (hn2 : t₂ ≠ .absent)
    (hf : Forest tr.res K (fun l => l = l₁ ∨ l = l₂) ts s) (hc : Clean K s)
    (hk₁ : ∀ p k, l₁ = .field p k → k < K) :
    Post False
      (fun _ s' => ∃ t₁' t₂',
        Chng tr.res K (fun l => l = l₁ ∨ l = l₂) ts (upd (upd ts l₁ t₁') l₂ t₂') s s' ∧
        t₂.Like (MovedTo T) K t₁' ∧ LeftOver t₂ t₂' ∧
        (tr.alwaysEqual = true ∨ tr.eq b (t₂.allocOr a) = true → t₁' = t₂.withAlloc b ∧ t₂' = t₂.emptied) ∧
        t₁'.allocOr a = b)
      (fun s' => ∃ q c v v' ks, t₂ = .node q c v ks ∧
        Chng tr.res K (fun l => l = l₁ ∨ l = l₂) ts (upd ts l₂ (.node q c v' ks)) s s')
      ((Indirect.ctorMoveA tr (ops tr T K n) b l₂ >>= fun h => emplace l₁ h) s) := by
  have h2 := hf.holds l₂ (Or.inr rfl)
  rw [ht₂] at h2
  obtain ⟨x, hx, hxa⟩ := holds_alloc a h2 hn2
  have hemp : t₂.emptied = .hollow x.alloc := by
    rw [hxa]
    cases t₂ with
    | absent => exact absurd rfl hn2
    | hollow c => rfl
    | node q c v ks => rfl
  by_cases he : tr.alwaysEqual = true ∨ tr.eq b x.alloc = true
  · rw [M.bind_ok (ctorMoveA_steal tr _ b hx he)]
    have hres : tr.res b = tr.res x.alloc := by
      rcases he with he | he
      · exact hS.always_res he _ _
      · exact hS.eq_res _ _ he
    obtain ⟨e1, c1⟩ := Chng.give (b := b) hf hc hne ht₁ hx hres hk₁
    rw [e1]
    rw [ht₂] at c1
    exact ⟨t₂.withAlloc b, .hollow x.alloc, c1, Like_withAlloc (C := MovedTo T) (fun _ => Or.inl rfl) _ _,
      Or.inl hemp.symm, fun _ => ⟨rfl, hemp.symm⟩, withAlloc_allocOr a b _ hn2⟩
  · have hae : tr.alwaysEqual = false := Bool.eq_false_iff.2 (fun h => he (Or.inl h))
    have heq : tr.eq b x.alloc = false := Bool.eq_false_iff.2 (fun h => he (Or.inr h))
    have hun : Indirect.ctorMoveA tr (ops tr T K n) b l₂ s = M.noexceptIf false (do
        if !(← Indirect.valueless l₂) then
          let q ← Indirect.deref l₂
          let p ← Indirect.constructFrom tr b (fun a m => (ops tr T K n).moveCtor a m q)
          pure ⟨some p, b⟩
        else
          pure ⟨none, b⟩) s := by
      unfold Indirect.ctorMoveA
      rw [hae]
      unfold M.noexceptIf
      rw [M.bind_ok (getH_some hx)]
      simp only [heq, Bool.false_eq_true, if_false]
    have hvac : ¬ (tr.alwaysEqual = true ∨ tr.eq b (t₂.allocOr a) = true) := by rw [← hxa]; exact he
    cases t₂ with
    | absent => exact absurd rfl hn2
    | hollow c =>
      have h2 : s.hs l₂ = some ⟨none, c⟩ := h2
      have : Indirect.ctorMoveA tr (ops tr T K n) b l₂ s = .ok ⟨none, b⟩ s := by
        rw [hun]; unfold M.noexceptIf
        rw [M.bind_ok (valueless_eq h2)]; rfl
      rw [M.bind_ok this]
      have hl1 := hf.holds l₁ (Or.inl rfl)
      rw [ht₁] at hl1
      rw [emplace_none hl1]
      refine ⟨.hollow b, .hollow c, ?_, ⟨_, rfl⟩, Or.inl rfl, fun h => absurd h hvac, rfl⟩
      have hp := Chng.poke (t := .hollow b) (o := some ⟨none, b⟩) (hf.one (Or.inl rfl : l₁ = l₁ ∨ l₁ = l₂)) hc
        (fun q hm => by rw [ht₁] at hm; exact hm) (fun q hm => hm) trivial (fun _ => rfl) hk₁
      refine (Chng.left hf hp).eqOn (fun _ _ => rfl) ?_
      rintro l (rfl | rfl)
      · rw [upd_other _ _ hne]
      · rw [upd_same, upd_other _ _ (Ne.symm hne), ht₂]
    | node q c v ks =>
      have h2l : s.hs l₂ = some ⟨some q, c⟩ := h2.1
      have hpos : 0 < n := by
        obtain ⟨m, e, _⟩ := Tree.height_kid hn₂; omega
      have hb := buildMove_spec tr T hR n b hpos (hf.one (Or.inr rfl : l₂ = l₁ ∨ l₂ = l₂)) hc ht₂
      have hctor : Post False
          (fun (h : Handle A) s' => ∃ w v', (∃ c, (T.move v c).1 = .ok w) ∧ ∃ p, h = ⟨some p, b⟩ ∧
            Spawn tr.res K ⟨some p, b⟩ (.node p b w ks) l₂ ts (.node q c v' (fun k => (ks k).emptied)) s s')
          (fun s' => ∃ v', Chng tr.res K (· = l₂) ts (upd ts l₂ (.node q c v' ks)) s s')
          (Indirect.ctorMoveA tr (ops tr T K n) b l₂ s) := by
        rw [hun]
        refine Post.noexcept ?_ (fun h => nomatch h)
        rw [M.bind_ok (valueless_eq h2l)]
        simp only [show (!((some q : Option Addr) == none)) = true from rfl, if_true]
        rw [M.bind_ok (deref_eq h2l)]
        refine Post.bind hb ?_
        rintro p s' ⟨w, v', hw, sp⟩
        exact ⟨w, v', hw, p, rfl, sp⟩
      refine Post.bind (hctor.mono (fun _ _ h => h) ?_ id) ?_
      · rintro s' ⟨v', cv⟩
        exact ⟨q, c, v, v', ks, rfl, Chng.right hf cv⟩
      · rintro h s' ⟨w, v', hw, p, rfl, sp⟩
        have hf1 := sp.keeps_one hf hne
        have hl1 := hf1.holds l₁ rfl
        rw [ht₁] at hl1
        rw [emplace_none hl1]
        have c0 : Chng tr.res K (· = l₁) ts (upd ts l₁ .absent) s' s' := by
          rw [upd_eq ht₁]; exact Chng.refl hf1 sp.clean
        exact ⟨_, _, sp.place hf hne c0 (fun _ h => h) hk₁,
          ⟨_, _, _, _, rfl, Or.inr hw, fun k _ => Like_refl (C := MovedTo T) (fun _ => Or.inl rfl) _⟩,
          Or.inr ⟨_, _, _, _, _, rfl, rfl⟩, fun h => absurd h hvac, rfl⟩

/-- Swap of two places with separate trees. -/
theorem swap_spec (hS : tr.Sound) (t₁ t₂ : Tree A V) (l₁ l₂ : Loc N) (ts : Loc N → Tree A V)
    (s : NSt N A R V) (a : A) (hne : l₁ ≠ l₂) (ht₁ : ts l₁ = t₁) (ht₂ : ts l₂ = t₂) (hn1 : t₁ ≠ .absent)
    (hn2 : t₂ ≠ .absent) (hf : Forest tr.res K (fun l => l = l₁ ∨ l = l₂) ts s) (hc : Clean K s)
    (hl : tr.pocs = true ∨ tr.eq (t₁.allocOr a) (t₂.allocOr a) = true) :
    ∃ s', Indirect.swap tr l₁ l₂ s = .ok () s' ∧
      Chng tr.res K (fun l => l = l₁ ∨ l = l₂) ts
        (upd (upd ts l₁ (t₂.withAlloc (if tr.pocs then t₂.allocOr a else t₁.allocOr a))) l₂
          (t₁.withAlloc (if tr.pocs then t₁.allocOr a else t₂.allocOr a))) s s' := by
  have h1 := hf.holds l₁ (Or.inl rfl)
  have h2 := hf.holds l₂ (Or.inr rfl)
  have hk₁ := lt_of_holds hc h1 (by rw [ht₁]; exact hn1)
  have hk₂ := lt_of_holds hc h2 (by rw [ht₂]; exact hn2)
  rw [ht₁] at h1
  rw [ht₂] at h2
  obtain ⟨x, hx, hxa⟩ := holds_alloc a h1 hn1
  obtain ⟨y, hy, hya⟩ := holds_alloc a h2 hn2
  have hex : ∀ c d, tr.res c = tr.res y.alloc → tr.res d = tr.res x.alloc →
      Chng tr.res K (fun l => l = l₁ ∨ l = l₂) ts (upd (upd ts l₁ (t₂.withAlloc c)) l₂ (t₁.withAlloc d)) s
        { s with hs := upd (upd s.hs l₁ (some ⟨y.p, c⟩)) l₂ (some ⟨x.p, d⟩) } := by
    intro c d hcr hdr
    refine Chng.exchange hf hc hne ?_ ?_ ?_ ?_ ?_ ?_ hk₁ hk₂
    · intro z hz; rw [ht₂, hy] at hz; exact hz.withAlloc hcr
    · intro z hz; rw [ht₁, hx] at hz; exact hz.withAlloc hdr
    · intro q; rw [ht₂]; exact withAlloc_mem _ _ q
    · intro q; rw [ht₁]; exact withAlloc_mem _ _ q
    · exact (withAlloc_sep _ _).2 (by rw [← ht₂]; exact hf.sep l₂ (Or.inr rfl))
    · exact (withAlloc_sep _ _).2 (by rw [← ht₁]; exact hf.sep l₁ (Or.inl rfl))
  unfold Indirect.swap M.noexceptIf
  rw [M.bind_ok (getH_some hx), M.bind_ok (getH_some hy)]
  cases hpo : tr.pocs with
  | true =>
    simp only [if_true]
    refine ⟨_, ?_, by rw [← hya, ← hxa]; exact hex y.alloc x.alloc rfl rfl⟩
    · have e1 : (upd s.hs l₁ (some (⟨x.p, y.alloc⟩ : Handle A))) l₂ = some y := by
        rw [upd_other _ _ (Ne.symm hne)]; exact hy
      have e2 : (upd (upd s.hs l₁ (some (⟨x.p, y.alloc⟩ : Handle A))) l₂ (some ⟨y.p, x.alloc⟩)) l₁ =
          some ⟨x.p, y.alloc⟩ := by rw [upd_other _ _ hne, upd_same]
      have e3 : (upd (upd (upd s.hs l₁ (some (⟨x.p, y.alloc⟩ : Handle A))) l₂ (some ⟨y.p, x.alloc⟩)) l₁
          (some ⟨y.p, y.alloc⟩)) l₂ = some ⟨y.p, x.alloc⟩ := by
        rw [upd_other _ _ (Ne.symm hne), upd_same]
      rw [M.bind_ok (setAlloc_some hx y.alloc), M.bind_ok (setAlloc_some e1 x.alloc),
        M.bind_ok (setP_some (h := ⟨x.p, y.alloc⟩) e2 y.p), setP_some (h := ⟨y.p, x.alloc⟩) e3 x.p]
      simp only
      congr 2
      funext l
      show upd (upd (upd (upd s.hs l₁ _) l₂ _) l₁ _) l₂ _ l = upd (upd s.hs l₁ _) l₂ _ l
      by_cases i2 : l = l₂
      · subst i2; rw [upd_same, upd_same]
      · rw [upd_other _ _ i2, upd_other _ _ i2]
        by_cases i1 : l = l₁
        · subst i1; rw [upd_same, upd_same]
        · rw [upd_other _ _ i1, upd_other _ _ i1, upd_other _ _ i2, upd_other _ _ i1]
  | false =>
    rw [hpo] at hl
    have heq := hl.resolve_left (by simp)
    have hres : tr.res x.alloc = tr.res y.alloc := by rw [hxa, hya]; exact hS.eq_res _ _ heq
    have heq' : tr.eq x.alloc y.alloc = true := by rw [hxa, hya]; exact heq
    simp only [heq', Bool.false_eq_true, if_false, if_true]
    refine ⟨_, ?_, by rw [← hya, ← hxa]; exact hex x.alloc y.alloc hres hres.symm⟩
    · have e1 : (upd s.hs l₁ (some (⟨y.p, x.alloc⟩ : Handle A))) l₂ = some y := by
        rw [upd_other _ _ (Ne.symm hne)]; exact hy
      rw [M.bind_ok (setP_some hx y.p), setP_some e1 x.p]

end
end Verif.Node
