import Verif.Proofs.NodeDestroy

set_option autoImplicit false
set_option linter.unusedSectionVars false
set_option linter.unusedSimpArgs false

/-! Deep copies. -/

namespace Verif.Node
open Verif

/-- The outcome is a normal return with `Q` or an exception with `E` (or, if allowed by `tm`,
termination). -/
def Post {σ α : Type} (tm : Prop) (Q : α → σ → Prop) (E : σ → Prop) : Res σ α → Prop
  | .ok a s => Q a s
  | .threw _ s => E s
  | .terminated => tm
  | .ub _ => False
  | .diverged => False

section
variable {σ α β : Type} {tm : Prop}

theorem Post.bind {Q : α → σ → Prop} {Q' : β → σ → Prop} {E : σ → Prop} {m : M σ α} {f : α → M σ β}
    {s : σ} (h : Post tm Q E (m s)) (hf : ∀ a s', Q a s' → Post tm Q' E (f a s')) :
    Post tm Q' E ((m >>= f) s) := by
  rw [M.bind_eq]
  revert h
  cases m s <;> intro h
  · exact hf _ _ h
  · exact h
  · exact h
  · exact h
  · exact h

theorem Post.mono {Q Q' : α → σ → Prop} {E E' : σ → Prop} {tm' : Prop} {r : Res σ α}
    (h : Post tm Q E r) (hq : ∀ a s, Q a s → Q' a s) (he : ∀ s, E s → E' s) (ht : tm → tm') :
    Post tm' Q' E' r := by
  cases r with
  | ok a s => exact hq a s h
  | threw e s => exact he s h
  | terminated => exact ht h
  | ub u => exact h
  | diverged => exact h

/-- Clean-up that always succeeds. -/
theorem Post.onThrow {Q : α → σ → Prop} {E E' : σ → Prop} {m : M σ α} {c : M σ Unit} {s : σ}
    (h : Post tm Q E (m s)) (hc : ∀ s', E s' → ∃ s'', c s' = .ok () s'' ∧ E' s'') :
    Post tm Q E' (M.onThrow m c s) := by
  unfold M.onThrow
  revert h
  cases m s with
  | ok a s' => intro h; exact h
  | threw e s' =>
    intro h
    obtain ⟨s'', h1, h2⟩ := hc s' h
    simp only [h1]; exact h2
  | terminated => intro h; exact h
  | ub u => intro h; exact h
  | diverged => intro h; exact h

theorem Post.noexcept {Q : α → σ → Prop} {E : σ → Prop} {m : M σ α} {b : Bool} {s : σ}
    (h : Post tm Q E (m s)) (hb : b = true → tm) : Post tm Q E (M.noexceptIf b m s) := by
  unfold M.noexceptIf
  revert h
  cases m s with
  | threw e s' =>
    intro h
    by_cases hb' : b = true
    · simp only [hb', if_true]; exact hb hb'
    · simp only [hb', if_false]; exact h
  | ok a s' => intro h; exact h
  | terminated => intro h; exact h
  | ub u => intro h; exact h
  | diverged => intro h; exact h

end

section
variable {N A R V X : Type} [DecidableEq N] [DecidableEq R]
variable {res : A → R} {K : Nat}

theorem build_rule {tm : Prop} {f undo : Nat → M (NSt N A R V) Unit} {P : Nat → NSt N A R V → Prop}
    {E : NSt N A R V → Prop} : ∀ {k : Nat} {s : NSt N A R V},
    (∀ j, j < k → ∀ z, P j z → Post tm (fun _ z' => P (j + 1) z') E (M.onThrow (f j) (undo j) z)) →
    P 0 s → Post tm (fun _ z' => P k z') E (buildMembers f undo k s)
  | 0, _, _, h0 => h0
  | k + 1, s, h, h0 => by
    show Post tm _ E ((buildMembers f undo k >>= fun _ => M.onThrow (f k) (undo k)) s)
    exact Post.bind (build_rule (fun j hj => h j (Nat.lt_succ_of_lt hj)) h0)
      (fun _ z hz => h k (Nat.lt_succ_self k) z hz)

theorem each_rule {tm : Prop} {f : Nat → M (NSt N A R V) Unit} {P : Nat → NSt N A R V → Prop}
    {E : NSt N A R V → Prop} : ∀ {k : Nat} {s : NSt N A R V},
    (∀ j, j < k → ∀ z, P j z → Post tm (fun _ z' => P (j + 1) z') E (f j z)) →
    P 0 s → Post tm (fun _ z' => P k z') E (eachMember f k s)
  | 0, _, _, h0 => h0
  | k + 1, s, h, h0 => by
    show Post tm _ E ((eachMember f k >>= fun _ => f k) s)
    exact Post.bind (each_rule (fun j hj => h j (Nat.lt_succ_of_lt hj)) h0)
      (fun _ z hz => h k (Nat.lt_succ_self k) z hz)

/-- From `s` to `s'` a tree `t` in fresh blocks was made, to be owned by an object with data members
`h`; nothing else changed. -/
structure New (res : A → R) (K : Nat) (h : Handle A) (t : Tree A V) (s s' : NSt N A R V) : Prop where
  holds : Holds res K s' (some h) t
  sep : t.Sep K
  fresh : ∀ q, t.Mem K q → s.heap q = none
  heap : ∀ q, ¬ t.Mem K q → s'.heap q = s.heap q
  hs : ∀ l, (∀ p k, l = .field p k → ¬ t.Mem K p) → s'.hs l = s.hs l
  clean : Clean K s'

/-- Nothing changed. -/
def Still (s s' : NSt N A R V) : Prop := s'.heap = s.heap ∧ s'.hs = s.hs

theorem New.keeps {h : Handle A} {t u : Tree A V} {s s' : NSt N A R V} {o : Option (Handle A)}
    (hn : New res K h t s s') (hu : Holds res K s o u) : Holds res K s' o u := by
  have hd : ∀ q, u.Mem K q → ¬ t.Mem K q := fun q hq hq' => hu.alloc hq (hn.fresh q hq')
  exact hu.frame (fun q hq => hn.heap q (hd q hq))
    (fun q k hq => hn.hs _ (fun p' k' e => by cases e; exact hd q hq))

theorem New.keeps_forest {h : Handle A} {t : Tree A V} {s s' : NSt N A R V} {D : Loc N → Prop}
    {ts : Loc N → Tree A V} (hn : New res K h t s s') (hf : Forest res K D ts s) :
    Forest res K D ts s' where
  holds l hl := by
    rw [hn.hs l (fun p k e hm => by subst e; exact hf.base p k hl (hn.fresh p hm))]
    exact hn.keeps (hf.holds l hl)
  sep := hf.sep
  disj := hf.disj
  out := hf.out
  base p k hd := by
    rw [hn.heap p (fun hm => hf.base p k hd (hn.fresh p hm))]
    exact hf.base p k hd

/-- Giving a new tree to an empty place. -/
theorem New.emplace {h : Handle A} {t : Tree A V} {s s' : NSt N A R V} {l : Loc N}
    {ts : Loc N → Tree A V} (hn : New res K h t s s') (hf : Forest res K (· = l) ts s)
    (ht : ts l = .absent) (hk : ∀ p k, l = .field p k → k < K) :
    emplace l h s' = .ok () { s' with hs := upd s'.hs l (some h) } ∧
      Chng res K (· = l) ts (upd ts l t) s { s' with hs := upd s'.hs l (some h) } := by
  have hl0 := hf.holds l rfl
  rw [ht] at hl0
  have hlp : ∀ p k, l = .field p k → ¬ t.Mem K p := fun p k e hm => hf.base p k e.symm (hn.fresh p hm)
  have hl1 : s'.hs l = none := by rw [hn.hs l hlp]; exact hl0
  refine ⟨emplace_none hl1 h, ?_⟩
  exact
    { post := by
        refine Forest.single ?_ ?_ ?_
        · show Holds res K _ (upd s'.hs l _ l) (upd ts l t l)
          rw [upd_same, upd_same]
          refine hn.holds.frame (fun q _ => rfl) (fun q k hq => ?_)
          exact upd_other _ _ (fun e => hlp q k e.symm hq)
        · rw [upd_same]; exact hn.sep
        · intro p k e
          rw [upd_same]
          refine ⟨hlp p k e, ?_⟩
          show s'.heap p ≠ none
          rw [hn.heap p (hlp p k e)]
          exact hf.base p k e.symm
      src := fun l' q e hm => by
        cases e
        rw [upd_same] at hm
        exact Or.inr (hn.fresh q hm)
      freed := fun l' q e hm => by
        cases e
        rw [ht] at hm; exact hm.elim
      heap := fun q _ h2 => by
        have := h2 l rfl
        rw [upd_same] at this
        exact hn.heap q this
      hs := fun l' hne ho => by
        show upd s'.hs l _ l' = s.hs l'
        rw [upd_other _ _ hne]
        refine hn.hs l' (fun p k e => ?_)
        have := (ho p k e l rfl).2
        rw [upd_same] at this; exact this
      clean := by
        intro p k hp
        by_cases e : Loc.field p k = l
        · exfalso
          rcases hp with hp | hp
          · have hp : s'.heap p = none := hp
            rw [hn.heap p (hlp p k e.symm)] at hp
            exact hf.base p k e hp
          · exact absurd (hk p k e.symm) (Nat.not_lt.2 hp)
        · show upd s'.hs l _ (.field p k) = none
          rw [upd_other _ _ e]; exact hn.clean p k hp }

/-- A change from nothing to nothing is no change. -/
theorem Chng.still {D : Loc N → Prop} {ts ts' : Loc N → Tree A V} {s s' : NSt N A R V}
    (h : Chng res K D ts ts' s s') (hf : Forest res K D ts s)
    (h0 : ∀ l, D l → ts l = .absent) (h1 : ∀ l, D l → ts' l = .absent) : Still s s' := by
  have e0 : ∀ l q, D l → ¬ (ts l).Mem K q := fun l q hl => by rw [h0 l hl]; exact id
  have e1 : ∀ l q, D l → ¬ (ts' l).Mem K q := fun l q hl => by rw [h1 l hl]; exact id
  refine ⟨funext fun q => h.heap q (fun l hl => e0 l q hl) (fun l hl => e1 l q hl), funext fun l => ?_⟩
  by_cases hl : D l
  · have a := hf.holds l hl
    have b := h.post.holds l hl
    rw [h0 l hl] at a
    rw [h1 l hl] at b
    have a : s.hs l = none := a
    have b : s'.hs l = none := b
    rw [a, b]
  · exact h.hs l hl (fun p k _ l' hl' => ⟨e0 l' p hl', e1 l' p hl'⟩)

variable (tr : ATraits A R) (T : TSpec V X)

/-- Deep copy of a node: `construct_from(a, *other)`. -/
def BuildSpec (I : TOps (NSt N A R V) A X) (K : Nat) (t : Tree A V) : Prop :=
  ∀ (a : A) (s : NSt N A R V) (o : Option (Handle A)) (q : Addr) (b : A) (v : V) (ks : Nat → Tree A V),
    t = .node q b v ks → Holds tr.res K s o t → Clean K s →
    Post False (fun p s' => ∃ t', New tr.res K ⟨some p, a⟩ t' s s' ∧ t.Copy (Copied T) tr.socc K a t')
      (Still s) (Indirect.constructFrom tr a (fun a m => I.copyCtor a m q) s)

/-- Deep copy of any tree: the allocator-extended copy constructor. -/
def CopySpec (I : TOps (NSt N A R V) A X) (K : Nat) (t : Tree A V) : Prop :=
  ∀ (a : A) (s : NSt N A R V) (l : Loc N), t ≠ .absent → Holds tr.res K s (s.hs l) t → Clean K s →
    Post False (fun h s' => ∃ t', New tr.res K h t' s s' ∧ t.Copy (Copied T) tr.socc K a t')
      (Still s) (Indirect.ctorCopyA tr I a l s)

theorem copy_of_build (I : TOps (NSt N A R V) A X) (t : Tree A V) (h : BuildSpec tr T I K t) :
    CopySpec tr T I K t := by
  intro a s l hne hh hc
  cases t with
  | absent => exact absurd rfl hne
  | hollow b =>
    have hl : s.hs l = some ⟨none, b⟩ := hh
    have hv : Indirect.valueless l s = .ok true s := by
      unfold Indirect.valueless; rw [M.bind_ok (getH_some hl)]; rfl
    have : Indirect.ctorCopyA tr I a l s = .ok ⟨none, a⟩ s := by
      unfold Indirect.ctorCopyA; rw [M.bind_ok hv]; rfl
    rw [this]
    refine ⟨.hollow a, ?_, rfl⟩
    exact
      { holds := rfl
        sep := trivial
        fresh := fun q hm => hm.elim
        heap := fun _ _ => rfl
        hs := fun _ _ => rfl
        clean := hc }
  | node q b v ks =>
    have hl : s.hs l = some ⟨some q, b⟩ := hh.1
    have hv : Indirect.valueless l s = .ok false s := by
      unfold Indirect.valueless; rw [M.bind_ok (getH_some hl)]; rfl
    have hd : Indirect.deref l s = .ok q s := by
      unfold Indirect.deref; rw [M.bind_ok (getH_some hl)]; rfl
    unfold Indirect.ctorCopyA
    rw [M.bind_ok hv]
    simp only [Bool.false_eq_true, if_false]
    rw [M.bind_ok hd]
    exact Post.bind (h a s _ q b v ks rfl hh hc) (fun p s' hp => hp)

theorem ctorCopy_spec (I : TOps (NSt N A R V) A X) {t : Tree A V} (h : CopySpec tr T I K t) (a : A)
    {s : NSt N A R V} {l : Loc N} (hne : t ≠ .absent) (hh : Holds tr.res K s (s.hs l) t) (hc : Clean K s) :
    Post False (fun h s' => ∃ t', New tr.res K h t' s s' ∧
        t.Copy (Copied T) tr.socc K (tr.socc (t.allocOr a)) t')
      (Still s) (Indirect.ctorCopy tr I l s) := by
  have hx : ∃ x, s.hs l = some x ∧ x.alloc = t.allocOr a := by
    cases t with
    | absent => exact absurd rfl hne
    | hollow b => exact ⟨_, hh, rfl⟩
    | node q b v ks => exact ⟨_, hh.1, rfl⟩
  obtain ⟨x, hx, ha⟩ := hx
  unfold Indirect.ctorCopy
  rw [M.bind_ok (getH_some hx), ha]
  exact h (tr.socc (t.allocOr a)) s l hne hh hc

/-- Copy of one member into an empty one. -/
theorem copyMember_spec (I : TOps (NSt N A R V) A X) {t : Tree A V} (h : CopySpec tr T I K t) (a : A)
    {s : NSt N A R V} {dst src : Addr} {k : Nat} {r : R} {v : V} {ts : Loc N → Tree A V} (hk : k < K)
    (hsrc : s.heap src = some ⟨r, some v⟩)
    (hh : Holds tr.res K s (s.hs (.field src k)) t) (hc : Clean K s)
    (hf : Forest tr.res K (Members dst K) ts s) (ht : ts (.field dst k) = .absent) :
    Post False (fun _ s' => ∃ t', Chng tr.res K (Members dst K) ts (upd ts (.field dst k) t') s s' ∧
        t.Copy (Copied T) tr.socc K (tr.socc (t.allocOr a)) t')
      (Still s) (copyMember tr I dst src k s) := by
  have hm : Members (N := N) dst K (.field dst k) := ⟨k, hk, rfl⟩
  unfold copyMember hasMember
  rw [bind_assoc, M.bind_ok (readObj_some hsrc)]
  by_cases he : t = .absent
  · subst he
    have hh : s.hs (.field src k) = none := hh
    have : engaged (.field src k) s = .ok false s := by simp [engaged, hh]
    rw [M.bind_ok this]
    exact ⟨.absent, by rw [upd_eq ht]; exact Chng.refl hf hc, rfl⟩
  · have : engaged (.field src k) s = .ok true s := by simp [engaged, hh.isSome he]
    rw [M.bind_ok this]
    simp only [if_true]
    refine Post.bind (ctorCopy_spec tr T I h a he hh hc) ?_
    rintro h' s' ⟨t', hn, hcp⟩
    obtain ⟨e1, c1⟩ := hn.emplace (hf.one hm) ht (fun p j e => by cases e; exact hk)
    rw [e1]
    exact ⟨t', c1.extend hf (fun l e => by cases e; exact hm) (fun l _ hn => upd_other _ _ hn), hcp⟩

theorem maxBelow_congr {f g : Nat → Nat} : ∀ (K : Nat), (∀ k, k < K → f k = g k) →
    maxBelow f K = maxBelow g K
  | 0, _ => rfl
  | K + 1, h => by
    unfold maxBelow
    rw [maxBelow_congr K (fun k hk => h k (Nat.lt_succ_of_lt hk)), h K (Nat.lt_succ_self K)]

theorem _root_.Verif.Tree.Copy.height {C : V → V → Prop} {socc : A → A} : ∀ {t t' : Tree A V} {a : A},
    t.Copy C socc K a t' → t'.height K = t.height K := by
  intro t
  induction t with
  | absent => intro t' a h; rw [show t' = .absent from h]
  | hollow b => intro t' a h; rw [show t' = .hollow a from h]; rfl
  | node p b v ks ih =>
    rintro t' a ⟨p', w, ks', rfl, _, h⟩
    show 1 + maxBelow (fun k => (ks' k).height K) K = 1 + maxBelow (fun k => (ks k).height K) K
    rw [maxBelow_congr K (fun k hk => ih k (h k hk))]

theorem memOk_none {s : NSt N A R V} (h : memOk s = true) : s.heap (s.env.pick s.ai) = none := by
  simp [memOk] at h; exact h.2

theorem build_spec : ∀ (t : Tree A V) (n : Nat), t.height K ≤ n →
    BuildSpec (N := N) tr T (ops tr T K n) K t := by
  intro t
  induction t with
  | absent => intro n _ a s o q b v ks e; exact nomatch e
  | hollow b => intro n _ a s o q b v ks e; exact nomatch e
  | node q b v ks ih =>
    intro n hn a s o q' b' v' ks' e hh hc
    cases e
    obtain ⟨m, rfl, hks⟩ := Tree.height_kid hn
    obtain ⟨ho, hq, hkids⟩ := hh
    unfold Indirect.constructFrom
    rw [M.bind_eq, allocate_eq]
    by_cases hm : memOk s = true
    · simp only [hm, if_true]
      have hfresh := memOk_none hm
      generalize hp : s.env.pick s.ai = p at hfresh
      have hqp : q ≠ p := by rintro rfl; rw [hq] at hfresh; exact nomatch hfresh
      -- the state with the raw block
      let s₁ : NSt N A R V := { s with
          heap := upd s.heap p (some ⟨tr.res a, none⟩)
          trace := s.trace ++ [.alloc (tr.res a) p]
          ai := s.ai + 1 }
      have h1p : s₁.heap p = some ⟨tr.res a, none⟩ := upd_same _ _ _
      have h1q : ∀ x, x ≠ p → s₁.heap x = s.heap x := fun x hx => upd_other _ _ hx
      have hc₁ : Clean K s₁ := by
        intro x k hx
        by_cases e : x = p
        · subst e; exact hc x k (Or.inl hfresh)
        · rw [h1q x e] at hx; exact hc x k hx
      have hsrc₁ : s₁.heap q = some ⟨tr.res b, some v⟩ := by rw [h1q q hqp]; exact hq
      have hk₁ : ∀ k, k < K → Holds tr.res K s₁ (s₁.hs (.field q k)) (ks k) := by
        intro k hk
        refine (hkids k hk).frame (fun x hx => h1q x ?_) (fun _ _ _ => rfl)
        rintro rfl
        exact (hkids k hk).alloc hx hfresh
      have hf₁ : Forest tr.res K (Members p K) (fun _ => .absent) s₁ :=
        { holds := by
            rintro l ⟨k, hk, rfl⟩
            exact hc p k (Or.inl hfresh)
          sep := fun _ _ => trivial
          disj := fun _ _ _ _ _ _ h => h.elim
          out := fun _ _ _ _ _ h => h
          base := by
            rintro p' k ⟨j, _, e⟩
            cases e; rw [h1p]; simp }
      -- the copy constructor of the node
      have hctor : Post False (fun _ s' => ∃ ts', ∃ w, s'.heap p = some ⟨tr.res a, some w⟩ ∧
            Chng tr.res K (Members p K) (fun _ => .absent) ts' s₁
              { s' with heap := upd s'.heap p (some ⟨tr.res a, none⟩) } ∧ Copied T v w ∧
            ∀ k, k < K → (ks k).Copy (Copied T) tr.socc K (tr.socc ((ks k).allocOr a))
              (ts' (.field p k)))
          (Still s₁) ((ops tr T K (m + 1)).copyCtor a p q s₁) := by
        show Post _ _ _ ((readObj q >>= fun v => choose >>= fun c =>
          match T.copy v c with
          | .error e => M.throwE e
          | .ok w => buildMembers (copyMember tr (ops tr T K m) p q) (dropMembers tr (ops tr T K m) p) K >>=
              fun _ => beginObj p w (.copyOf q)) s₁)
        rw [M.bind_ok (readObj_some hsrc₁)]
        have hch : (choose : M (NSt N A R V) Nat) s₁ =
          .ok (s₁.env.choice s₁.ti) { s₁ with ti := s₁.ti + 1 } := rfl
        rw [M.bind_ok hch]
        cases hcp : T.copy v (s₁.env.choice s₁.ti) with
        | error e => exact ⟨rfl, rfl⟩
        | ok w =>
          simp only
          let P : Nat → NSt N A R V → Prop := fun k z => ∃ ts',
            Chng tr.res K (Members p K) (fun _ => .absent) ts' s₁ z ∧
            (∀ j, j < k → (ks j).Copy (Copied T) tr.socc K (tr.socc ((ks j).allocOr a))
              (ts' (.field p j))) ∧
            (∀ j, k ≤ j → ts' (.field p j) = .absent)
          have hP0 : P 0 { s₁ with ti := s₁.ti + 1 } :=
            ⟨fun _ => .absent, (Chng.refl hf₁ hc₁).congr rfl rfl rfl rfl,
              fun j hj => absurd hj (Nat.not_lt_zero j), fun _ _ => rfl⟩
          have hstep : ∀ j, j < K → ∀ z, P j z → Post False (fun _ z' => P (j + 1) z') (Still s₁)
              (M.onThrow (copyMember tr (ops tr T K m) p q j) (dropMembers tr (ops tr T K m) p j) z) := by
            rintro j hj z ⟨ts', c, hcop, habs⟩
            have hzq : z.heap q = some ⟨tr.res b, some v⟩ := by
              rw [c.keeps_heap (by rw [hsrc₁]; simp) (fun _ _ h => h)]; exact hsrc₁
            have hzk : Holds tr.res K z (z.hs (.field q j)) (ks j) := by
              rw [c.keeps_hs (by rintro ⟨i, _, e⟩; cases e; exact hqp rfl)
                (fun p' k' e => by cases e; exact ⟨by rw [hsrc₁]; simp, fun _ _ h => h⟩)]
              refine c.keeps (hk₁ j hj) (fun _ _ _ _ h => h) ?_
              rintro p' k' ⟨i, _, e⟩ hmem
              cases e
              exact (hkids j hj).alloc hmem hfresh
            refine Post.onThrow (E := Still z) ?_ ?_
            · refine (copyMember_spec tr T (ops tr T K m) (copy_of_build tr T _ _ (ih j m (hks j hj))) a
                hj hzq hzk c.clean c.post (habs j (Nat.le_refl j))).mono ?_ (fun _ h => h) id
              rintro _ z' ⟨t', c', hcp'⟩
              refine ⟨_, Chng.trans hc₁ c c', ?_, ?_⟩
              · intro i hi
                by_cases e : i = j
                · subst e; rw [upd_same]; exact hcp'
                · rw [upd_other _ _ (by intro e'; cases e'; exact e rfl)]
                  exact hcop i (by omega)
              · intro i hi
                rw [upd_other _ _ (by intro e'; cases e'; omega)]
                exact habs i (by omega)
            · rintro z' ⟨hz1, hz2⟩
              obtain ⟨s'', hd, cd, _⟩ := dropMembers_spec (tr := tr) (ops tr T K m) (p := p) j (Nat.le_of_lt hj)
                (ts := ts') (s := z') (fun i hi _ => dtor_spec tr T _ m (by
                  rw [Tree.Copy.height (hcop i hi)]; exact hks i (by omega)))
                (c.post.congr hz1 hz2) (c.clean.congr hz1 hz2)
              refine ⟨s'', hd, ?_⟩
              have ct := Chng.trans hc₁ c (cd.congr hz1.symm hz2.symm rfl rfl)
              refine ct.still hf₁ (fun _ _ => rfl) ?_
              rintro l ⟨i, hi, rfl⟩
              by_cases hij : i < j
              · simp [cut, hij]
              · simp [cut, hij]; exact habs i (by omega)
          refine Post.bind (build_rule hstep hP0) ?_
          rintro _ z ⟨ts', c, hcop, _⟩
          have hzp : z.heap p = some ⟨tr.res a, none⟩ := by
            rw [c.keeps_heap (by rw [h1p]; simp) (fun _ _ h => h)]; exact h1p
          rw [beginObj_raw w _ hzp]
          refine ⟨ts', w, upd_same _ _ _, c.congr rfl rfl ?_ rfl, ⟨_, hcp⟩, hcop⟩
          show upd (upd z.heap p _) p _ = z.heap
          rw [upd_upd, upd_id _ _ _ hzp]
      -- storage released if it throws
      show Post False _ (Still s) ((M.onThrow ((ops tr T K (m + 1)).copyCtor a p q) (deallocate (tr.res a) p) >>=
        fun _ => pure p) s₁)
      refine Post.bind (Post.onThrow (E' := Still s) hctor ?_) ?_
      · rintro z ⟨hz1, hz2⟩
        refine ⟨_, deallocate_raw (r := tr.res a) (by rw [hz1]; exact h1p), ?_, hz2⟩
        show upd z.heap p none = s.heap
        rw [hz1]
        show upd (upd s.heap p _) p none = s.heap
        rw [upd_upd, upd_id _ _ _ hfresh]
      · rintro _ z ⟨ts', w, hzp, c, hcw, hcop⟩
        have hzq : ∀ x, x ≠ p → upd z.heap p (some ⟨tr.res a, none⟩) x = z.heap x :=
          fun x hx => upd_other _ _ hx
        have hpn : ∀ k, k < K → ¬ (ts' (.field p k)).Mem K p := fun k hk hmem =>
          c.post.out p k (.field p k) ⟨k, hk, rfl⟩ ⟨k, hk, rfl⟩ hmem
        refine ⟨.node p a w (fun k => ts' (.field p k)), ?_, ⟨p, w, _, rfl, hcw, hcop⟩⟩
        exact
          { holds := by
              refine ⟨rfl, hzp, fun k hk => ?_⟩
              refine (c.post.holds _ ⟨k, hk, rfl⟩).frame (fun x hx => ?_) (fun _ _ _ => rfl)
              have : x ≠ p := by rintro rfl; exact hpn k hk hx
              exact (hzq x this).symm
            sep := by
              refine ⟨hpn, fun i j hi hj hne x => ?_, fun k hk => c.post.sep _ ⟨k, hk, rfl⟩⟩
              exact c.post.disj _ _ ⟨i, hi, rfl⟩ ⟨j, hj, rfl⟩ (by intro e; cases e; exact hne rfl) x
            fresh := by
              rintro x (rfl | ⟨k, hk, hx⟩)
              · exact hfresh
              · rcases c.src _ x ⟨k, hk, rfl⟩ hx with ⟨_, _, h⟩ | h
                · exact h.elim
                · have : x ≠ p := by rintro rfl; exact hpn k hk hx
                  rw [h1q x this] at h; exact h
            heap := by
              intro x hx
              have hxp : x ≠ p := fun e => hx (Or.inl e)
              rw [← hzq x hxp, ← h1q x hxp]
              refine c.heap x (fun _ _ h => h) ?_
              rintro l ⟨k, hk, rfl⟩ hmem
              exact hx (Or.inr ⟨k, hk, hmem⟩)
            hs := by
              intro l hl
              refine c.hs l ?_ ?_
              · rintro ⟨k, hk, rfl⟩
                exact hl p k rfl (Or.inl rfl)
              · rintro p' k' rfl l' ⟨k, hk, rfl⟩
                exact ⟨fun h => h, fun hmem => hl p' k' rfl (Or.inr ⟨k, hk, hmem⟩)⟩
            clean := by
              intro x k hx
              refine c.clean x k ?_
              by_cases e : x = p
              · subst e
                rw [hzp] at hx
                exact Or.inr (hx.resolve_left (by simp))
              · show upd z.heap p _ x = none ∨ _
                rw [hzq x e]; exact hx }
    · simp only [hm]
      exact ⟨rfl, rfl⟩

end
end Verif.Node
