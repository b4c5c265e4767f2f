import Verif.Proofs.NodeAssign

set_option autoImplicit false
set_option linter.unusedSectionVars false
set_option linter.unusedSimpArgs false

/-! Moves and swaps of trees. -/

namespace Verif

namespace Node
open Verif

section
variable {N A R V X : Type} [DecidableEq N] [DecidableEq R]
variable {res : A → R} {K : Nat}

theorem withAlloc_mem (b : A) (t : Tree A V) (q : Addr) : (t.withAlloc b).Mem K q ↔ t.Mem K q := by
  cases t <;> exact Iff.rfl

theorem withAlloc_sep (b : A) (t : Tree A V) : (t.withAlloc b).Sep K ↔ t.Sep K := by
  cases t <;> exact Iff.rfl

theorem withAlloc_absent (b : A) (t : Tree A V) : t.withAlloc b = .absent ↔ t = .absent := by
  cases t <;> simp [Tree.withAlloc]

theorem withAlloc_allocOr (a b : A) (t : Tree A V) (h : t ≠ .absent) : (t.withAlloc b).allocOr a = b := by
  cases t
  · exact absurd rfl h
  · rfl
  · rfl

theorem withAlloc_self (a : A) (t : Tree A V) : t.withAlloc (t.allocOr a) = t := by
  cases t <;> rfl

theorem withAlloc_height (b : A) (t : Tree A V) : (t.withAlloc b).height K = t.height K := by
  cases t <;> rfl

theorem withAlloc_withAlloc (b c : A) (t : Tree A V) : (t.withAlloc b).withAlloc c = t.withAlloc c := by
  cases t <;> rfl

theorem Like_withAlloc {C : V → V → Prop} (hC : ∀ v, C v v) : ∀ (t : Tree A V) (b : A),
    t.Like C K (t.withAlloc b) := by
  intro t
  induction t with
  | absent => intro b; rfl
  | hollow a => intro b; exact ⟨b, rfl⟩
  | node p a v ks ih =>
    intro b
    refine ⟨p, b, v, ks, rfl, hC v, fun k _ => ?_⟩
    have := ih k ((ks k).allocOr a)
    rw [withAlloc_self] at this; exact this

theorem Like_refl {C : V → V → Prop} (hC : ∀ v, C v v) : ∀ (t : Tree A V), t.Like C K t := by
  intro t
  induction t with
  | absent => rfl
  | hollow a => exact ⟨a, rfl⟩
  | node p a v ks ih => exact ⟨p, a, v, ks, rfl, hC v, fun k _ => ih k⟩

theorem emptied_mem (t : Tree A V) (q : Addr) : ¬ t.emptied.Mem K q := by
  cases t <;> exact id

theorem emptied_sep (t : Tree A V) : t.emptied.Sep K := by
  cases t <;> exact trivial

theorem Holds.withAlloc {s : NSt N A R V} {x : Handle A} {t : Tree A V} {b : A}
    (h : Holds res K s (some x) t) (hr : res b = res x.alloc) :
    Holds res K s (some ⟨x.p, b⟩) (t.withAlloc b) := by
  cases t with
  | absent => exact nomatch h
  | hollow a =>
    have e : some x = some (⟨none, a⟩ : Handle A) := h
    cases e; exact rfl
  | node p a v ks =>
    obtain ⟨e, hp, hk⟩ := h
    cases e
    exact ⟨rfl, by rw [hr]; exact hp, hk⟩

/-- Two places exchange their blocks. -/
theorem Chng.exchange {l₁ l₂ : Loc N} {ts : Loc N → Tree A V} {s : NSt N A R V} {u₁ u₂ : Tree A V}
    {o₁ o₂ : Option (Handle A)} (hf : Forest res K (fun l => l = l₁ ∨ l = l₂) ts s) (hc : Clean K s)
    (hne : l₁ ≠ l₂)
    (hu₁ : ∀ z : NSt N A R V, Holds res K z (s.hs l₂) (ts l₂) → Holds res K z o₁ u₁)
    (hu₂ : ∀ z : NSt N A R V, Holds res K z (s.hs l₁) (ts l₁) → Holds res K z o₂ u₂)
    (hm₁ : ∀ q, u₁.Mem K q ↔ (ts l₂).Mem K q) (hm₂ : ∀ q, u₂.Mem K q ↔ (ts l₁).Mem K q)
    (hs₁ : u₁.Sep K) (hs₂ : u₂.Sep K) (hk₁ : ∀ p k, l₁ = .field p k → k < K)
    (hk₂ : ∀ p k, l₂ = .field p k → k < K) :
    Chng res K (fun l => l = l₁ ∨ l = l₂) ts (upd (upd ts l₁ u₁) l₂ u₂) s
      { s with hs := upd (upd s.hs l₁ o₁) l₂ o₂ } := by
  have e1 : upd (upd ts l₁ u₁) l₂ u₂ l₁ = u₁ := by rw [upd_other _ _ hne, upd_same]
  have e2 : upd (upd ts l₁ u₁) l₂ u₂ l₂ = u₂ := upd_same _ _ _
  have g1 : upd (upd s.hs l₁ o₁) l₂ o₂ l₁ = o₁ := by rw [upd_other _ _ hne, upd_same]
  have g2 : upd (upd s.hs l₁ o₁) l₂ o₂ l₂ = o₂ := upd_same _ _ _
  have hin1 : ∀ l, (l = l₁ ∨ l = l₂) → ∀ q k, (ts l).Mem K q → Loc.field q k ≠ l₁ :=
    fun l hl q k hm e => hf.out q k l (Or.inl e) hl hm
  have hin2 : ∀ l, (l = l₁ ∨ l = l₂) → ∀ q k, (ts l).Mem K q → Loc.field q k ≠ l₂ :=
    fun l hl q k hm e => hf.out q k l (Or.inr e) hl hm
  have hfr : ∀ l, (l = l₁ ∨ l = l₂) → ∀ o, Holds res K s o (ts l) →
      Holds res K { s with hs := upd (upd s.hs l₁ o₁) l₂ o₂ } o (ts l) := by
    intro l hl o h
    refine h.frame (fun _ _ => rfl) (fun q k hm => ?_)
    show upd (upd s.hs l₁ o₁) l₂ o₂ _ = _
    rw [upd_other _ _ (hin2 l hl q k hm), upd_other _ _ (hin1 l hl q k hm)]
  have hmem : ∀ l q, (l = l₁ ∨ l = l₂) → (upd (upd ts l₁ u₁) l₂ u₂ l).Mem K q →
      ∃ l', (l' = l₁ ∨ l' = l₂) ∧ (ts l').Mem K q := by
    rintro l q (rfl | rfl) hm
    · rw [e1] at hm; exact ⟨l₂, Or.inr rfl, (hm₁ q).1 hm⟩
    · rw [e2] at hm; exact ⟨l₁, Or.inl rfl, (hm₂ q).1 hm⟩
  exact
    { post :=
        { holds := by
            rintro l (rfl | rfl)
            · show Holds res K _ (upd (upd s.hs _ o₁) l₂ o₂ _) _
              rw [e1, g1]; exact hu₁ _ (hfr l₂ (Or.inr rfl) _ (hf.holds l₂ (Or.inr rfl)))
            · show Holds res K _ (upd (upd s.hs l₁ o₁) _ o₂ _) _
              rw [e2, g2]; exact hu₂ _ (hfr l₁ (Or.inl rfl) _ (hf.holds l₁ (Or.inl rfl)))
          sep := by
            rintro l (rfl | rfl)
            · rw [e1]; exact hs₁
            · rw [e2]; exact hs₂
          disj := by
            rintro l l' (rfl | rfl) (rfl | rfl) hn q
            · exact absurd rfl hn
            · rw [e1, e2, hm₁, hm₂]
              exact fun a b => hf.disj _ _ (Or.inl rfl) (Or.inr rfl) hne q b a
            · rw [e1, e2, hm₁, hm₂]
              exact fun a b => hf.disj _ _ (Or.inl rfl) (Or.inr rfl) hne q a b
            · exact absurd rfl hn
          out := by
            intro p k l hd hl hm
            obtain ⟨l', hl', hm'⟩ := hmem l p hl hm
            exact hf.out p k l' hd hl' hm'
          base := hf.base }
      src := fun l q hl hm => Or.inl (hmem l q hl hm)
      freed := by
        rintro l q (rfl | rfl) hm
        · exact Or.inl ⟨l₂, Or.inr rfl, by rw [e2]; exact (hm₂ q).2 hm⟩
        · exact Or.inl ⟨l₁, Or.inl rfl, by rw [e1]; exact (hm₁ q).2 hm⟩
      heap := fun _ _ _ => rfl
      hs := fun l hl _ => by
        show upd (upd s.hs l₁ o₁) l₂ o₂ l = s.hs l
        rw [upd_other _ _ (fun e => hl (Or.inr e)), upd_other _ _ (fun e => hl (Or.inl e))]
      clean := by
        intro p k hp
        show upd (upd s.hs l₁ o₁) l₂ o₂ (.field p k) = none
        by_cases h2 : Loc.field p k = l₂
        · exfalso
          rcases hp with h | h
          · exact hf.base p k (Or.inr h2) h
          · exact absurd (hk₂ p k h2.symm) (Nat.not_lt.2 h)
        · rw [upd_other _ _ h2]
          by_cases h1 : Loc.field p k = l₁
          · exfalso
            rcases hp with h | h
            · exact hf.base p k (Or.inl h1) h
            · exact absurd (hk₁ p k h1.symm) (Nat.not_lt.2 h)
          · rw [upd_other _ _ h1]; exact hc p k hp }

variable (tr : ATraits A R) (T : TSpec V X)

/-- Moving with an equal allocator takes the pointer over. -/
theorem ctorMoveA_steal (I : TOps (NSt N A R V) A X) {s : NSt N A R V} {l : Loc N} {x : Handle A} (a : A)
    (hx : s.hs l = some x) (he : tr.alwaysEqual = true ∨ tr.eq a x.alloc = true) :
    Indirect.ctorMoveA tr I a l s = .ok ⟨x.p, a⟩ { s with hs := upd s.hs l (some ⟨none, x.alloc⟩) } := by
  unfold Indirect.ctorMoveA M.noexceptIf
  rw [M.bind_ok (getH_some hx)]
  cases hae : tr.alwaysEqual with
  | true =>
    simp only [if_true]
    rw [M.bind_ok (setP_some hx none)]; rfl
  | false =>
    rw [hae] at he
    have he := he.resolve_left (by simp)
    simp only [he, Bool.false_eq_true, if_false, if_true]
    rw [M.bind_ok (setP_some hx none)]; rfl

theorem ctorMove_steal (hR : tr.Reflexive) (I : TOps (NSt N A R V) A X) {s : NSt N A R V} {l : Loc N}
    {x : Handle A} (hx : s.hs l = some x) :
    Indirect.ctorMove tr I l s = .ok x { s with hs := upd s.hs l (some ⟨none, x.alloc⟩) } := by
  unfold Indirect.ctorMove M.noexceptIf
  rw [M.bind_ok (getH_some hx), ctorMoveA_steal tr I x.alloc hx (Or.inr (hR.eq_refl _))]

/-- Giving the tree of one place to an empty place. -/
theorem Chng.give {l₁ l₂ : Loc N} {ts : Loc N → Tree A V} {s : NSt N A R V} {x : Handle A} (b : A)
    (hf : Forest res K (fun l => l = l₁ ∨ l = l₂) ts s) (hc : Clean K s) (hne : l₁ ≠ l₂)
    (h1 : ts l₁ = .absent) (hx : s.hs l₂ = some x) (hr : res b = res x.alloc)
    (hk₁ : ∀ p k, l₁ = .field p k → k < K) :
    emplace l₁ ⟨x.p, b⟩ { s with hs := upd s.hs l₂ (some ⟨none, x.alloc⟩) } =
        .ok () { s with hs := upd (upd s.hs l₁ (some ⟨x.p, b⟩)) l₂ (some ⟨none, x.alloc⟩) } ∧
      Chng res K (fun l => l = l₁ ∨ l = l₂) ts
        (upd (upd ts l₁ ((ts l₂).withAlloc b)) l₂ (.hollow x.alloc)) s
        { s with hs := upd (upd s.hs l₁ (some ⟨x.p, b⟩)) l₂ (some ⟨none, x.alloc⟩) } := by
  have hl1 := hf.holds l₁ (Or.inl rfl)
  rw [h1] at hl1
  have hl1 : s.hs l₁ = none := hl1
  have h2 := hf.holds l₂ (Or.inr rfl)
  have h2ne : ts l₂ ≠ .absent := by
    intro e; rw [e, hx] at h2; exact nomatch h2
  constructor
  · have : (upd s.hs l₂ (some (⟨none, x.alloc⟩ : Handle A))) l₁ = none := by
      rw [upd_other _ _ hne]; exact hl1
    rw [emplace_none this]
    congr 2
    funext l
    show upd (upd s.hs l₂ (some ⟨none, x.alloc⟩)) l₁ (some ⟨x.p, b⟩) l =
      upd (upd s.hs l₁ (some ⟨x.p, b⟩)) l₂ (some ⟨none, x.alloc⟩) l
    by_cases e1 : l = l₁
    · subst e1; rw [upd_same, upd_other _ _ hne, upd_same]
    · rw [upd_other _ _ e1]
      by_cases e2 : l = l₂
      · subst e2; rw [upd_same, upd_same]
      · rw [upd_other _ _ e2, upd_other _ _ e2, upd_other _ _ e1]
  · refine Chng.exchange hf hc hne ?_ (fun _ _ => rfl) (fun q => withAlloc_mem b _ q) ?_
      ((withAlloc_sep b _).2 (hf.sep l₂ (Or.inr rfl))) trivial hk₁ (lt_of_holds hc h2 h2ne)
    · intro z hz
      rw [hx] at hz
      exact hz.withAlloc hr
    · intro q; rw [h1]; exact Iff.rfl

/-- Move construction of one member. -/
theorem moveMember_spec (hR : tr.Reflexive) (I : TOps (NSt N A R V) A X) {dst src : Addr} {k : Nat} {r : R}
    {v : V} {ts : Loc N → Tree A V} {z : NSt N A R V} (hk : k < K) (hsd : src ≠ dst)
    (hsrc : z.heap src = some ⟨r, some v⟩)
    (hf : Forest tr.res K (fun l => Members dst K l ∨ Members src K l) ts z) (hc : Clean K z)
    (ht : ts (.field dst k) = .absent) :
    ∃ z', moveMember tr I dst src k z = .ok () z' ∧
      Chng tr.res K (fun l => Members dst K l ∨ Members src K l) ts
        (upd (upd ts (.field dst k) (ts (.field src k))) (.field src k) (ts (.field src k)).emptied) z z' := by
  have hmd : Members (N := N) dst K (.field dst k) := ⟨k, hk, rfl⟩
  have hms : Members (N := N) src K (.field src k) := ⟨k, hk, rfl⟩
  have hne : (Loc.field dst k : Loc N) ≠ .field src k := by intro e; cases e; exact hsd rfl
  have hh := hf.holds _ (Or.inr hms)
  have has : hasMember (N := N) (A := A) src k z = .ok (z.hs (.field src k)).isSome z := by
    unfold hasMember; rw [M.bind_ok (readObj_some hsrc)]; rfl
  unfold moveMember
  rw [M.bind_ok has]
  by_cases he : ts (.field src k) = .absent
  · have e1 : z.hs (.field src k) = none := by rw [he] at hh; exact hh
    rw [e1]
    simp only [Option.isSome_none, Bool.false_eq_true, if_false]
    refine ⟨z, rfl, ?_⟩
    rw [he]
    rw [upd_eq ht]
    rw [show Tree.emptied (A := A) (V := V) .absent = .absent from rfl, upd_eq he]
    exact Chng.refl hf hc
  · obtain ⟨x, hx⟩ := hh.engagedAt he
    rw [hx]
    simp only [Option.isSome_some, if_true]
    rw [M.bind_ok (ctorMove_steal tr hR I hx)]
    have hf2 : Forest tr.res K (fun l => l = .field dst k ∨ l = .field src k) ts z :=
      hf.sub (by rintro l (rfl | rfl); exact Or.inl hmd; exact Or.inr hms)
    obtain ⟨e1, c1⟩ := Chng.give (b := x.alloc) hf2 hc hne ht hx rfl (fun p j e => by cases e; exact hk)
    refine ⟨_, e1, ?_⟩
    have hw : (ts (.field src k)).withAlloc x.alloc = ts (.field src k) ∧
        (ts (.field src k)).emptied = .hollow x.alloc := by
      rw [hx] at hh
      cases hts : ts (.field src k) with
      | absent => exact absurd hts he
      | hollow a =>
        rw [hts] at hh
        have hh : some x = some (⟨none, a⟩ : Handle A) := hh
        cases hh; exact ⟨rfl, rfl⟩
      | node p a v ks =>
        rw [hts] at hh
        have := hh.1
        cases this; exact ⟨rfl, rfl⟩
    rw [hw.1] at c1
    rw [hw.2]
    refine c1.extend hf (by rintro l (rfl | rfl); exact Or.inl hmd; exact Or.inr hms) ?_
    intro l _ hn
    rw [upd_other _ _ (fun e => hn (Or.inr e)), upd_other _ _ (fun e => hn (Or.inl e))]

/-- From `s` to `s'` a tree `t` was made, to be owned by an object with data members `h`, in fresh blocks
and blocks taken from the tree at `l`, which became `u`; nothing else changed. -/
structure Spawn (res : A → R) (K : Nat) (h : Handle A) (t : Tree A V) (l : Loc N) (ts : Loc N → Tree A V)
    (u : Tree A V) (s s' : NSt N A R V) : Prop where
  holds : Holds res K s' (some h) t
  sep : t.Sep K
  left : Holds res K s' (s'.hs l) u
  leftSep : u.Sep K
  apart : ∀ q, u.Mem K q → ¬ t.Mem K q
  src : ∀ q, t.Mem K q → (ts l).Mem K q ∨ s.heap q = none
  srcLeft : ∀ q, u.Mem K q → (ts l).Mem K q
  freed : ∀ q, (ts l).Mem K q → u.Mem K q ∨ t.Mem K q
  heap : ∀ q, ¬ (ts l).Mem K q → ¬ t.Mem K q → s'.heap q = s.heap q
  hs : ∀ l', l' ≠ l → (∀ p k, l' = .field p k → ¬ (ts l).Mem K p ∧ ¬ t.Mem K p) → s'.hs l' = s.hs l'
  clean : Clean K s'

/-- Move construction of a node with another allocator: `construct_from(a, std::move(*other))`. -/
theorem buildMove_spec (hR : tr.Reflexive) (n : Nat) {l : Loc N} {ts : Loc N → Tree A V} {s : NSt N A R V}
    {q : Addr} {b : A} {v : V} {ks : Nat → Tree A V} (a : A) (hn : 0 < n)
    (hf : Forest tr.res K (· = l) ts s) (hc : Clean K s) (ht : ts l = .node q b v ks) :
    Post False
      (fun p s' => ∃ w v', (∃ c, (T.move v c).1 = .ok w) ∧
        Spawn tr.res K ⟨some p, a⟩ (.node p a w ks) l ts (.node q b v' (fun k => (ks k).emptied)) s s')
      (fun s' => ∃ v', Chng tr.res K (· = l) ts (upd ts l (.node q b v' ks)) s s')
      (Indirect.constructFrom tr a (fun a m => (ops tr T K n).moveCtor a m q) s) := by
  obtain ⟨m, rfl⟩ : ∃ m, n = m + 1 := ⟨n - 1, by omega⟩
  have hh := hf.holds l rfl
  have hsp := hf.sep l rfl
  have hout := fun p' k (e : l = .field p' k) => hf.out p' k l e.symm rfl
  rw [ht] at hh hsp hout
  obtain ⟨hl, hq, hkids⟩ := hh
  have hrefl : Chng tr.res K (· = l) ts (upd ts l (.node q b v ks)) s s := by
    rw [upd_eq ht]; exact Chng.refl hf hc
  unfold Indirect.constructFrom
  rw [M.bind_eq, allocate_eq]
  by_cases hm : memOk s = true
  · simp only [hm, if_true]
    have hfresh := memOk_none hm
    generalize hp : s.env.pick s.ai = p at hfresh
    have hqp : q ≠ p := by rintro rfl; rw [hq] at hfresh; exact nomatch hfresh
    have hnotp : ∀ k, k < K → ¬ (ks k).Mem K p := fun k hk hm => (hkids k hk).alloc hm hfresh
    -- the payload is moved
    show Post False _ _ ((M.onThrow (readObj q >>= fun v => choose >>= fun c =>
        writeObj q (T.move v c).2 >>= fun _ =>
        match (T.move v c).1 with
        | .error e => M.throwE e
        | .ok w => buildMembers (moveMember tr (ops tr T K m) p q) (dropMembers tr (ops tr T K m) p) K >>=
            fun _ => beginObj p w (.moveOf q)) (deallocate (tr.res a) p) >>= fun _ => pure p)
      { s with
          heap := upd s.heap p (some ⟨tr.res a, none⟩)
          trace := s.trace ++ [.alloc (tr.res a) p]
          ai := s.ai + 1 })
    generalize hs₁ : ({ s with
          heap := upd s.heap p (some ⟨tr.res a, none⟩)
          trace := s.trace ++ [.alloc (tr.res a) p]
          ai := s.ai + 1 } : NSt N A R V) = s₁
    have h1heap : s₁.heap = upd s.heap p (some ⟨tr.res a, none⟩) := by rw [← hs₁]
    have h1hs : s₁.hs = s.hs := by rw [← hs₁]
    have h1q : s₁.heap q = some ⟨tr.res b, some v⟩ := by rw [h1heap, upd_other _ _ hqp]; exact hq
    generalize hv' : (T.move v (s₁.env.choice s₁.ti)).2 = v'
    generalize hs₂ : ({ s₁ with
          ti := s₁.ti + 1
          heap := upd s₁.heap q (some ⟨tr.res b, some v'⟩) } : NSt N A R V) = s₂
    have h2heap : s₂.heap = upd s₁.heap q (some ⟨tr.res b, some v'⟩) := by rw [← hs₂]
    have h2hs : s₂.hs = s.hs := by rw [← hs₂]; exact h1hs
    have h2p : s₂.heap p = some ⟨tr.res a, none⟩ := by
      rw [h2heap, upd_other _ _ (Ne.symm hqp), h1heap, upd_same]
    have h2q : s₂.heap q = some ⟨tr.res b, some v'⟩ := by rw [h2heap, upd_same]
    have h2x : ∀ x, x ≠ p → x ≠ q → s₂.heap x = s.heap x := fun x hxp hxq => by
      rw [h2heap, upd_other _ _ hxq, h1heap, upd_other _ _ hxp]
    have hbody : (readObj q >>= fun v => choose >>= fun c =>
        writeObj q (T.move v c).2 >>= fun _ =>
        match (T.move v c).1 with
        | .error e => M.throwE e
        | .ok w => buildMembers (moveMember tr (ops tr T K m) p q) (dropMembers tr (ops tr T K m) p) K >>=
            fun _ => beginObj p w (.moveOf q)) s₁ =
        (match (T.move v (s₁.env.choice s₁.ti)).1 with
        | .error e => M.throwE e
        | .ok w => buildMembers (moveMember tr (ops tr T K m) p q) (dropMembers tr (ops tr T K m) p) K >>=
            fun _ => beginObj p w (.moveOf q)) s₂ := by
      rw [M.bind_ok (readObj_some h1q)]
      have hch : (choose : M (NSt N A R V) Nat) s₁ =
        .ok (s₁.env.choice s₁.ti) { s₁ with ti := s₁.ti + 1 } := rfl
      rw [M.bind_ok hch, hv', M.bind_ok (writeObj_some (r := tr.res b) (v := v) v' (by exact h1q)), hs₂]
    cases hmv : (T.move v (s₁.env.choice s₁.ti)).1 with
    | error e =>
      rw [hmv] at hbody
      refine Post.bind (Q := fun _ _ => False) ?_ (fun _ _ h => h.elim)
      unfold M.onThrow
      rw [hbody]
      simp only [M.throwE_eq]
      rw [deallocate_raw h2p]
      refine ⟨v', ?_⟩
      have ct := Chng.touch (b := b) (w := v') hf hc ht rfl
      refine ct.congr rfl rfl ?_ ?_
      · show upd s₂.heap p none = upd s.heap q (some ⟨tr.res b, some v'⟩)
        funext x
        by_cases hxp : x = p
        · subst hxp; rw [upd_same, upd_other _ _ (Ne.symm hqp)]; exact hfresh.symm
        · rw [upd_other _ _ hxp]
          by_cases hxq : x = q
          · subst hxq; rw [h2q, upd_same]
          · rw [h2x x hxp hxq, upd_other _ _ hxq]
      · show s₂.hs = _
        rw [h2hs]; exact (upd_id _ _ _ hl).symm
    | ok w =>
      rw [hmv] at hbody
      simp only at hbody
      -- the members are moved
      have hc₂ : Clean K s₂ := by
        intro x k hx
        rw [h2hs]
        by_cases e : x = p
        · subst e; exact hc x k (Or.inl hfresh)
        · by_cases e' : x = q
          · subst e'
            rw [h2q] at hx
            exact hc x k (Or.inr (hx.resolve_left (by simp)))
          · rw [h2x x e e'] at hx; exact hc x k hx
      let os : Loc N → Tree A V := opened (fun _ => .absent) q ks
      have hosp : ∀ k, os (.field p k) = .absent := fun k =>
        opened_other _ _ _ (fun j e => by cases e; exact hqp rfl)
      have hosq : ∀ k, os (.field q k) = ks k := fun k => opened_member _ _ _ _
      let D : Loc N → Prop := fun l => Members p K l ∨ Members q K l
      have hf₂ : Forest tr.res K D os s₂ :=
        { holds := by
            rintro l' (⟨k, hk, rfl⟩ | ⟨k, hk, rfl⟩)
            · rw [hosp, h2hs]; exact hc p k (Or.inl hfresh)
            · rw [hosq, h2hs]
              refine (hkids k hk).frame (fun x hx => h2x x ?_ ?_) (fun _ _ _ => by rw [h2hs])
              · rintro rfl; exact hnotp k hk hx
              · rintro rfl; exact hsp.1 k hk hx
          sep := by
            rintro l' (⟨k, hk, rfl⟩ | ⟨k, hk, rfl⟩)
            · rw [hosp]; trivial
            · rw [hosq]; exact hsp.2.2 k hk
          disj := by
            rintro l' l'' (⟨k, hk, rfl⟩ | ⟨k, hk, rfl⟩) (⟨j, hj, rfl⟩ | ⟨j, hj, rfl⟩) hne x
            · rw [hosp]; exact fun h => h.elim
            · rw [hosp]; exact fun h => h.elim
            · rw [hosp]; exact fun _ h => h
            · rw [hosq, hosq]
              exact hsp.2.1 k j hk hj (fun e => hne (by rw [e])) x
          out := by
            rintro p' k' l' (⟨k, hk, e⟩ | ⟨k, hk, e⟩) (⟨j, hj, rfl⟩ | ⟨j, hj, rfl⟩) <;> cases e
            · rw [hosp]; exact id
            · rw [hosq]; exact hnotp j hj
            · rw [hosp]; exact id
            · rw [hosq]; exact hsp.1 j hj
          base := by
            rintro p' k' (⟨k, hk, e⟩ | ⟨k, hk, e⟩) <;> cases e
            · rw [h2p]; simp
            · rw [h2q]; simp }
      let P : Nat → NSt N A R V → Prop := fun k z => ∃ ts',
        Chng tr.res K D os ts' s₂ z ∧
        (∀ j, j < k → ts' (.field p j) = ks j ∧ ts' (.field q j) = (ks j).emptied) ∧
        (∀ j, k ≤ j → ts' (.field p j) = .absent ∧ ts' (.field q j) = ks j)
      have hP0 : P 0 s₂ := ⟨os, Chng.refl hf₂ hc₂, fun j hj => absurd hj (Nat.not_lt_zero j),
        fun j _ => ⟨hosp j, hosq j⟩⟩
      have hnb : ∀ x, (x = p ∨ x = q) → ∀ l', D l' → ¬ (os l').Mem K x := by
        rintro x hx l' (⟨k, hk, rfl⟩ | ⟨k, hk, rfl⟩)
        · rw [hosp]; exact id
        · rw [hosq]
          rcases hx with rfl | rfl
          · exact hnotp k hk
          · exact hsp.1 k hk
      have hstep : ∀ j, j < K → ∀ z, P j z → Post False (fun _ z' => P (j + 1) z') (fun _ => False)
          (M.onThrow (moveMember tr (ops tr T K m) p q j) (dropMembers tr (ops tr T K m) p j) z) := by
        rintro j hj z ⟨ts', cz, hdone, htodo⟩
        have hzq : z.heap q = some ⟨tr.res b, some v'⟩ := by
          rw [cz.keeps_heap (by rw [h2q]; simp) (hnb q (Or.inr rfl))]; exact h2q
        obtain ⟨z', h1, c1⟩ := moveMember_spec tr hR (ops tr T K m) hj hqp hzq cz.post cz.clean
          (htodo j (Nat.le_refl j)).1
        unfold M.onThrow
        rw [h1]
        rw [(htodo j (Nat.le_refl j)).2] at c1
        have hpq : ∀ i, (Loc.field p i : Loc N) ≠ .field q j := fun i e => by cases e; exact hqp rfl
        have hqp' : ∀ i, (Loc.field q i : Loc N) ≠ .field p j := fun i e => by cases e; exact hqp rfl
        refine ⟨_, Chng.trans hc₂ cz c1, fun i hi => ?_, fun i hi => ?_⟩
        · by_cases e : i = j
          · subst e
            rw [upd_same, upd_other _ _ (hpq i), upd_same]
            exact ⟨rfl, rfl⟩
          · have e1 : (Loc.field p i : Loc N) ≠ .field p j := fun h => by cases h; exact e rfl
            have e2 : (Loc.field q i : Loc N) ≠ .field q j := fun h => by cases h; exact e rfl
            rw [upd_other _ _ (hpq i), upd_other _ _ e1, upd_other _ _ e2, upd_other _ _ (hqp' i)]
            exact hdone i (by omega)
        · have e1 : (Loc.field p i : Loc N) ≠ .field p j := fun h => by cases h; omega
          have e2 : (Loc.field q i : Loc N) ≠ .field q j := fun h => by cases h; omega
          rw [upd_other _ _ (hpq i), upd_other _ _ e1, upd_other _ _ e2, upd_other _ _ (hqp' i)]
          exact htodo i (by omega)
      have hctor : Post False (fun _ z' => ∃ z ts', z' = { z with
              heap := upd z.heap p (some ⟨tr.res a, some w⟩)
              trace := z.trace ++ [.construct p (.moveOf q)] } ∧ Chng tr.res K D os ts' s₂ z ∧
            ∀ j, j < K → ts' (.field p j) = ks j ∧ ts' (.field q j) = (ks j).emptied) (fun _ => False)
          ((readObj q >>= fun v => choose >>= fun c =>
            writeObj q (T.move v c).2 >>= fun _ =>
            match (T.move v c).1 with
            | .error e => M.throwE e
            | .ok w => buildMembers (moveMember tr (ops tr T K m) p q) (dropMembers tr (ops tr T K m) p) K >>=
                fun _ => beginObj p w (.moveOf q)) s₁) := by
        rw [hbody]
        refine Post.bind (build_rule hstep hP0) ?_
        rintro _ z ⟨ts', cz, hdone, _⟩
        have hzp : z.heap p = some ⟨tr.res a, none⟩ := by
          rw [cz.keeps_heap (by rw [h2p]; simp) (hnb p (Or.inl rfl))]; exact h2p
        rw [beginObj_raw w _ hzp]
        exact ⟨z, ts', rfl, cz, hdone⟩
      refine Post.bind (Post.onThrow hctor (fun _ h => h.elim)) ?_
      rintro _ z' ⟨z, ts', rfl, cz, hdone⟩
      refine ⟨w, v', ⟨_, hmv⟩, ?_⟩
      have hzq : z.heap q = some ⟨tr.res b, some v'⟩ := by
        rw [cz.keeps_heap (by rw [h2q]; simp) (hnb q (Or.inr rfl))]; exact h2q
      have hzx : ∀ x, x ≠ p → upd z.heap p (some ⟨tr.res a, some w⟩) x = z.heap x :=
        fun x hx => upd_other _ _ hx
      have hlD : ¬ D l := by
        rintro (⟨k, _, e⟩ | ⟨k, _, e⟩)
        · exact hf.base p k e.symm hfresh
        · exact hout q k e (Or.inl rfl)
      have hzl : z.hs l = some ⟨some q, b⟩ := by
        rw [cz.keeps_hs hlD ?_, h2hs]
        · exact hl
        · intro p' k' e
          have hb := hf.base p' k' e.symm
          have hp1 : p' ≠ p := by rintro rfl; exact hb hfresh
          have hp2 : p' ≠ q := by rintro rfl; exact hout _ k' e (Or.inl rfl)
          refine ⟨by rw [h2x p' hp1 hp2]; exact hb, ?_⟩
          rintro l' (⟨k, hk, rfl⟩ | ⟨k, hk, rfl⟩)
          · rw [hosp]; exact id
          · rw [hosq]; exact fun hm => hout p' k' e (Or.inr ⟨k, hk, hm⟩)
      have hkidp : ∀ k, k < K → Holds tr.res K z (z.hs (.field p k)) (ks k) := fun k hk => by
        have := cz.post.holds (.field p k) (Or.inl ⟨k, hk, rfl⟩)
        rw [(hdone k hk).1] at this; exact this
      have hkidq : ∀ k, k < K → Holds tr.res K z (z.hs (.field q k)) (ks k).emptied := fun k hk => by
        have := cz.post.holds (.field q k) (Or.inr ⟨k, hk, rfl⟩)
        rw [(hdone k hk).2] at this; exact this
      exact
        { holds := by
            refine ⟨rfl, upd_same _ _ _, fun k hk => ?_⟩
            refine (hkidp k hk).frame (fun x hx => hzx x ?_) (fun _ _ _ => rfl)
            rintro rfl; exact hnotp k hk hx
          sep := ⟨fun k hk => hnotp k hk, hsp.2.1, hsp.2.2⟩
          left := by
            refine ⟨hzl, ?_, fun k hk => ?_⟩
            · show upd z.heap p _ q = _
              rw [hzx q hqp]; exact hzq
            · exact (hkidq k hk).frame (fun x hx => absurd hx (emptied_mem _ x)) (fun _ _ _ => rfl)
          leftSep := ⟨fun k _ => emptied_mem _ q, fun i j _ _ _ x h => absurd h (emptied_mem _ x),
            fun k _ => emptied_sep _⟩
          apart := by
            rintro x (rfl | ⟨k, hk, hx⟩)
            · rintro (e | ⟨k, hk, hx⟩)
              · exact hqp e
              · exact hsp.1 k hk hx
            · exact absurd hx (emptied_mem _ x)
          src := by
            rintro x (rfl | ⟨k, hk, hx⟩)
            · exact Or.inr hfresh
            · exact Or.inl (by rw [ht]; exact Or.inr ⟨k, hk, hx⟩)
          srcLeft := by
            rintro x (rfl | ⟨k, hk, hx⟩)
            · rw [ht]; exact Or.inl rfl
            · exact absurd hx (emptied_mem _ x)
          freed := by
            intro x hx
            rw [ht] at hx
            rcases hx with rfl | hx
            · exact Or.inl (Or.inl rfl)
            · exact Or.inr (Or.inr hx)
          heap := by
            intro x h1 h2
            rw [ht] at h1
            have hxp : x ≠ p := fun e => h2 (Or.inl e)
            have hxq : x ≠ q := fun e => h1 (Or.inl e)
            show upd z.heap p _ x = _
            rw [hzx x hxp, cz.heap x ?_ ?_, h2x x hxp hxq]
            · rintro l' (⟨k, hk, rfl⟩ | ⟨k, hk, rfl⟩)
              · rw [hosp]; exact id
              · rw [hosq]; exact fun hm => h1 (Or.inr ⟨k, hk, hm⟩)
            · rintro l' (⟨k, hk, rfl⟩ | ⟨k, hk, rfl⟩)
              · rw [(hdone k hk).1]; exact fun hm => h1 (Or.inr ⟨k, hk, hm⟩)
              · rw [(hdone k hk).2]; exact emptied_mem _ x
          hs := by
            intro l' hne ho
            rw [← h2hs]
            refine cz.hs l' ?_ ?_
            · rintro (⟨k, hk, rfl⟩ | ⟨k, hk, rfl⟩)
              · exact (ho p k rfl).2 (Or.inl rfl)
              · exact (ho q k rfl).1 (by rw [ht]; exact Or.inl rfl)
            · rintro p' k' rfl l'' (⟨k, hk, rfl⟩ | ⟨k, hk, rfl⟩)
              · rw [hosp, (hdone k hk).1]
                exact ⟨id, fun hm => (ho p' k' rfl).2 (Or.inr ⟨k, hk, hm⟩)⟩
              · rw [hosq, (hdone k hk).2]
                exact ⟨fun hm => (ho p' k' rfl).2 (Or.inr ⟨k, hk, hm⟩), emptied_mem _ p'⟩
          clean := by
            intro x k hx
            refine cz.clean x k ?_
            by_cases e : x = p
            · subst e
              have hx : upd z.heap x (some ⟨tr.res a, some w⟩) x = none ∨ K ≤ k := hx
              rw [upd_same] at hx
              exact Or.inr (hx.resolve_left (by simp))
            · have hx : upd z.heap p (some ⟨tr.res a, some w⟩) x = none ∨ K ≤ k := hx
              rw [hzx x e] at hx; exact hx }
  · simp only [hm]
    exact ⟨v, hrefl.congr rfl rfl rfl rfl⟩

end
end Node
end Verif
