import Verif.Proofs.NodeCompare
import Verif.Proofs.NodeFacts
import Verif.Spec.Depth

set_option autoImplicit false
set_option linter.unusedSectionVars false
set_option linter.unusedSimpArgs false

/-! Recursion depth. -/

namespace Verif

namespace Spec
variable {R : Type}

theorem le_nestingFrom : ∀ (es : List (Ev R)) (d : Nat), d ≤ nestingFrom d es
  | [], _ => Nat.le_refl _
  | .destroy _ :: _, _ => Nat.le_max_left _ _
  | .dealloc _ _ :: _, _ => Nat.le_max_left _ _
  | .alloc _ _ :: es, d => le_nestingFrom es d
  | .construct _ _ :: es, d => le_nestingFrom es d
  | .assign _ _ :: es, d => le_nestingFrom es d
  | .custom _ _ _ _ :: es, d => le_nestingFrom es d

end Spec

theorem nesting_downFrom {R : Type} {f : Nat → List (Ev R)} {h : Nat → Nat} {d : Nat} : ∀ (K : Nat) (es : List (Ev R)),
    (∀ k, k < K → ∀ es, Spec.nestingFrom d (f k ++ es) = max (d + h k) (Spec.nestingFrom d es)) →
    Spec.nestingFrom d (downFrom f K ++ es) = max (d + maxBelow h K) (Spec.nestingFrom d es)
  | 0, es, _ => by
    have := Spec.le_nestingFrom es d
    simp only [downFrom, maxBelow, List.nil_append]; omega
  | K + 1, es, H => by
    simp only [downFrom, maxBelow, List.append_assoc]
    rw [H K (Nat.lt_succ_self K), nesting_downFrom K es (fun k hk => H k (Nat.lt_succ_of_lt hk))]
    omega

theorem Tree.nesting_teardown {A R V : Type} (res : A → R) (K : Nat) : ∀ (t : Tree A V) (d : Nat) (es : List (Ev R)),
    Spec.nestingFrom d (t.teardown res K ++ es) = max (d + t.height K) (Spec.nestingFrom d es) := by
  intro t
  induction t with
  | absent =>
    intro d es
    have := Spec.le_nestingFrom es d
    simp only [teardown, height, List.nil_append]; omega
  | hollow a =>
    intro d es
    have := Spec.le_nestingFrom es d
    simp only [teardown, height, List.nil_append]; omega
  | node p a v ks ih =>
    intro d es
    simp only [teardown, height, List.cons_append, List.append_assoc, List.nil_append, Spec.nestingFrom]
    rw [nesting_downFrom (h := fun k => (ks k).height K) K _ (fun k _ es => ih k (d + 1) es)]
    simp only [Spec.nestingFrom, Nat.add_sub_cancel]
    have := Spec.le_nestingFrom es d
    omega

theorem maxBelow_le {f : Nat → Nat} {m : Nat} : ∀ {K : Nat}, (∀ k, k < K → f k ≤ m) → maxBelow f K ≤ m
  | 0, _ => Nat.zero_le _
  | K + 1, h => by
    unfold maxBelow
    have := maxBelow_le (K := K) (fun k hk => h k (by omega))
    have := h K (Nat.lt_succ_self K)
    omega

/-- If a maximum is larger than `m`, there is a first value that is. -/
theorem first_above {f : Nat → Nat} {m : Nat} : ∀ {K : Nat}, m < maxBelow f K →
    ∃ k, k < K ∧ m < f k ∧ ∀ j, j < k → f j ≤ m
  | 0, h => by simp [maxBelow] at h
  | K + 1, h => by
    by_cases hm : m < maxBelow f K
    · obtain ⟨k, hk, h1, h2⟩ := first_above hm
      exact ⟨k, by omega, h1, h2⟩
    · unfold maxBelow at h
      refine ⟨K, Nat.lt_succ_self K, by omega, fun j hj => ?_⟩
      have := le_maxBelow f K j hj
      omega

theorem Tree.deep_kid {A V : Type} {K m : Nat} {p : Addr} {a : A} {v : V} {ks : Nat → Tree A V}
    (h : m + 1 < (Tree.node p a v ks).height K) :
    ∃ k, k < K ∧ m < (ks k).height K ∧ ∀ j, j < k → (ks j).height K ≤ m := by
  simp only [Tree.height] at h
  exact first_above (f := fun k => (ks k).height K) (by omega)

namespace Node

section
variable {N A R V X : Type} [DecidableEq N] [DecidableEq R] {K : Nat}
variable (tr : ATraits A R) (T : TSpec V X)

/-- The destructor does not return. -/
def DtorStuck (I : TOps (NSt N A R V) A X) (K : Nat) (t : Tree A V) : Prop :=
  ∀ (l : Loc N) (ts : Loc N → Tree A V) (s : NSt N A R V), ts l = t →
    Forest tr.res K (· = l) ts s → Clean K s → Indirect.dtor tr I l s = .diverged

section
variable {tr}

theorem dropMember_stuck (I : TOps (NSt N A R V) A X) {p : Addr} {k : Nat} {ts : Loc N → Tree A V}
    {s : NSt N A R V} (hk : k < K) (hne : ts (.field p k) ≠ .absent) (hd : DtorStuck tr I K (ts (.field p k)))
    (hf : Forest tr.res K (Members p K) ts s) (hc : Clean K s) : dropMember tr I p k s = .diverged := by
  unfold dropMember
  have hm : Members (N := N) p K (.field p k) := ⟨k, hk, rfl⟩
  have : engaged (.field p k) s = .ok true s := by simp [engaged, (hf.holds _ hm).isSome hne]
  rw [M.bind_ok this]
  exact hd _ _ _ rfl (hf.one hm) hc

theorem dropMembers_stuck (I : TOps (NSt N A R V) A X) {p : Addr} : ∀ (j : Nat) {ts : Loc N → Tree A V}
    {s : NSt N A R V}, j ≤ K →
    (∀ k, k < j → DtorSpec tr I K (ts (.field p k)) ∨
      (ts (.field p k) ≠ .absent ∧ DtorStuck tr I K (ts (.field p k)))) →
    (∃ k, k < j ∧ ts (.field p k) ≠ .absent ∧ DtorStuck tr I K (ts (.field p k))) →
    Forest tr.res K (Members p K) ts s → Clean K s → dropMembers tr I p j s = .diverged
  | 0, _, _, _, _, ⟨_, h, _⟩, _, _ => absurd h (Nat.not_lt_zero _)
  | j + 1, ts, s, hj, hall, ⟨k, hk, hne, hst⟩, hf, hc => by
    show (dropMember tr I p j >>= fun _ => dropMembers tr I p j) s = _
    rcases hall j (Nat.lt_succ_self j) with h | ⟨hne', h⟩
    · by_cases e : k = j
      · subst e
        rw [M.bind_eq, dropMember_stuck I (Nat.lt_of_succ_le hj) hne hst hf hc]
      · obtain ⟨s₁, h1, c1, _⟩ := dropMember_spec I (Nat.lt_of_succ_le hj) (fun _ => h) hf hc
        rw [M.bind_ok h1]
        have hu : ∀ i, i < j → upd ts (.field p j) .absent (.field p i) = ts (.field p i) := fun i hi =>
          upd_other _ _ (by intro e; cases e; omega)
        refine dropMembers_stuck I j (Nat.le_of_succ_le hj) (fun i hi => ?_) ⟨k, by omega, ?_⟩ c1.post c1.clean
        · rw [hu i hi]; exact hall i (by omega)
        · rw [hu k (by omega)]; exact ⟨hne, hst⟩
    · rw [M.bind_eq, dropMember_stuck I (Nat.lt_of_succ_le hj) hne' h hf hc]

end

theorem ne_absent_of_height {t : Tree A V} {n : Nat} (h : n < t.height K) : t ≠ .absent := by
  rintro rfl; exact absurd h (Nat.not_lt_zero _)

/-- A tree deeper than the recursion is allowed to be is not destroyed. -/
theorem dtor_stuck : ∀ (t : Tree A V) (n : Nat), n < t.height K → DtorStuck (N := N) tr (ops tr T K n) K t := by
  intro t
  induction t with
  | absent => intro n h; exact absurd h (Nat.not_lt_zero _)
  | hollow b => intro n h; exact absurd h (Nat.not_lt_zero _)
  | node p b v ks ih =>
    intro n hn l ts s ht hf hc
    have hh := hf.holds l rfl
    rw [ht] at hh
    obtain ⟨hl, hp, _⟩ := hh
    have key : (ops tr T K n).dtor b p s = .diverged := by
      cases n with
      | zero => rfl
      | succ m =>
        let s₁ : NSt N A R V :=
          { s with heap := upd s.heap p (some ⟨tr.res b, none⟩), trace := s.trace ++ [.destroy p] }
        have h1p : s₁.heap p = some ⟨tr.res b, none⟩ := upd_same _ _ _
        have h1q : ∀ q, q ≠ p → s₁.heap q = s.heap q := fun q hq => upd_other _ _ hq
        have hc₁ : Clean K s₁ := by
          intro p' k hpk
          by_cases e : p' = p
          · subst e; rw [h1p] at hpk
            exact hc p' k (Or.inr (hpk.resolve_left (by simp)))
          · rw [h1q p' e] at hpk; exact hc p' k hpk
        have hf₁ : Forest tr.res K (Members p K) (opened ts p ks) s₁ :=
          hf.members ht h1q (by rw [h1p]; simp) rfl
        show (readObj p >>= fun _ => writeBody p none >>= fun _ => emit (.destroy p) >>= fun _ =>
          dropMembers tr (ops tr T K m) p K) s = _
        rw [M.bind_ok (readObj_some hp), M.bind_ok (writeBody_some none hp),
          M.bind_ok (show emit (.destroy p) _ = .ok () s₁ from rfl)]
        obtain ⟨k, hk, hkd, _⟩ := Tree.deep_kid hn
        refine dropMembers_stuck (tr := tr) (ops tr T K m) (p := p) K (Nat.le_refl K) (fun i hi => ?_)
          ⟨k, hk, ?_⟩ hf₁ hc₁
        · rw [opened_member]
          cases Nat.lt_or_ge m ((ks i).height K) with
          | inl h => exact Or.inr ⟨ne_absent_of_height h, ih i m h⟩
          | inr h => exact Or.inl (dtor_spec tr T _ m h)
        · rw [opened_member]
          exact ⟨ne_absent_of_height hkd, ih k m hkd⟩
    have hdw : Indirect.destroyWith tr (ops tr T K n) b p s = .diverged := by
      unfold Indirect.destroyWith
      rw [M.bind_eq, key]
    have hrs : Indirect.reset tr (ops tr T K n) l s = .diverged := by
      unfold Indirect.reset M.noexceptIf
      rw [M.bind_ok (getH_some hl)]
      simp only
      rw [M.bind_eq, hdw]
    unfold Indirect.dtor M.noexceptIf
    rw [M.bind_eq, hrs]

/-- A call that does not return normally. -/
def NotOk {σ α : Type} : Res σ α → Prop
  | .ok _ _ => False
  | _ => True

section
variable {σ α β : Type}

theorem NotOk.bind {m : M σ α} {f : α → M σ β} {s : σ} (h : NotOk (m s)) : NotOk ((m >>= f) s) := by
  rw [M.bind_eq]
  revert h
  cases m s <;> intro h <;> first | exact h.elim | trivial

theorem NotOk.onThrow {m : M σ α} {c : M σ Unit} {s : σ} (h : NotOk (m s)) : NotOk (M.onThrow m c s) := by
  unfold M.onThrow
  revert h
  cases m s with
  | ok a s' => intro h; exact h.elim
  | threw e s' => intro _; simp only; cases c s' <;> trivial
  | terminated => intro _; trivial
  | ub u => intro _; trivial
  | diverged => intro _; trivial

/-- What follows a call that returns normally only in states with `Q`, and does not itself return normally from them. -/
theorem NotOk.after {tm : Prop} {Q : α → σ → Prop} {E : σ → Prop} {m : M σ α} {f : α → M σ β} {s : σ}
    (h : Post tm Q E (m s)) (hf : ∀ a s', Q a s' → NotOk (f a s')) : NotOk ((m >>= f) s) := by
  rw [M.bind_eq]
  revert h
  cases m s <;> intro h
  · exact hf _ _ h
  · trivial
  · trivial
  · trivial
  · trivial

end

theorem buildMembers_stuck {f undo : Nat → M (NSt N A R V) Unit} {k : Nat} {s : NSt N A R V}
    (h : NotOk (buildMembers f undo (k + 1) s)) : ∀ {K : Nat}, k < K → NotOk (buildMembers f undo K s)
  | 0, hk => absurd hk (Nat.not_lt_zero _)
  | K + 1, hk => by
    by_cases e : k = K
    · subst e; exact h
    · show NotOk ((buildMembers f undo K >>= fun _ => M.onThrow (f K) (undo K)) s)
      exact NotOk.bind (buildMembers_stuck h (by omega))

/-- The copy of the node does not succeed. -/
def BuildStuck (I : TOps (NSt N A R V) A X) (K : Nat) (t : Tree A V) : Prop :=
  ∀ (a : A) (s : NSt N A R V) (o : Option (Handle A)) (q : Addr) (b : A) (v : V) (ks : Nat → Tree A V),
    t = .node q b v ks → Holds tr.res K s o t → Clean K s →
    NotOk (Indirect.constructFrom tr a (fun a m => I.copyCtor a m q) s)

theorem ctorCopyA_stuck (I : TOps (NSt N A R V) A X) {t : Tree A V} (h : BuildStuck tr I K t) {a : A}
    {s : NSt N A R V} {l : Loc N} (hne : 0 < t.height K) (hh : Holds tr.res K s (s.hs l) t) (hc : Clean K s) :
    NotOk (Indirect.ctorCopyA tr I a l s) := by
  cases t with
  | absent => exact absurd hne (Nat.lt_irrefl 0)
  | hollow b => exact absurd hne (Nat.lt_irrefl 0)
  | node q b v ks =>
    have hv : Indirect.valueless l s = .ok false s := by
      unfold Indirect.valueless; rw [M.bind_ok (getH_some hh.1)]; rfl
    unfold Indirect.ctorCopyA
    rw [M.bind_ok hv]
    have hd : Indirect.deref l s = .ok q s := deref_eq hh.1
    simp only [Bool.false_eq_true, if_false]
    rw [M.bind_ok hd]
    exact NotOk.bind (h a s _ q b v ks rfl hh hc)

theorem ctorCopy_stuck (I : TOps (NSt N A R V) A X) {t : Tree A V} (h : BuildStuck tr I K t)
    {s : NSt N A R V} {l : Loc N} (hne : 0 < t.height K) (hh : Holds tr.res K s (s.hs l) t) (hc : Clean K s) :
    NotOk (Indirect.ctorCopy tr I l s) := by
  cases t with
  | absent => exact absurd hne (Nat.lt_irrefl 0)
  | hollow b => exact absurd hne (Nat.lt_irrefl 0)
  | node q b v ks =>
    unfold Indirect.ctorCopy
    rw [M.bind_ok (getH_some hh.1)]
    exact ctorCopyA_stuck tr I h hne hh hc

/-- A tree deeper than the recursion is allowed to be is not copied. -/
theorem build_stuck : ∀ (t : Tree A V) (n : Nat), n < t.height K → BuildStuck (N := N) tr (ops tr T K n) K t := by
  intro t
  induction t with
  | absent => intro n h; exact absurd h (Nat.not_lt_zero _)
  | hollow b => intro n h; exact absurd h (Nat.not_lt_zero _)
  | node q b v ks ih =>
    intro n hn a s o q' b' v' ks' e hh hc
    cases e
    obtain ⟨ho, hq, hkids⟩ := hh
    unfold Indirect.constructFrom
    rw [M.bind_eq, allocate_eq]
    by_cases hm : memOk s = true
    · simp only [hm, if_true]
      cases n with
      | zero => exact NotOk.bind (NotOk.onThrow trivial)
      | succ m =>
      have hfresh := memOk_none hm
      generalize hp : s.env.pick s.ai = p at hfresh
      have hqp : q ≠ p := by rintro rfl; rw [hq] at hfresh; exact nomatch hfresh
      let s₁ : NSt N A R V := { s with
          heap := upd s.heap p (some ⟨tr.res a, none⟩)
          trace := s.trace ++ [.alloc (tr.res a) p]
          ai := s.ai + 1 }
      have h1p : s₁.heap p = some ⟨tr.res a, none⟩ := upd_same _ _ _
      have h1q : ∀ x, x ≠ p → s₁.heap x = s.heap x := fun x hx => upd_other _ _ hx
      have hc₁ : Clean K s₁ := by
        intro x k hx
        by_cases e : x = p
        · subst e; exact hc x k (Or.inl hfresh)
        · rw [h1q x e] at hx; exact hc x k hx
      have hsrc₁ : s₁.heap q = some ⟨tr.res b, some v⟩ := by rw [h1q q hqp]; exact hq
      have hk₁ : ∀ k, k < K → Holds tr.res K s₁ (s₁.hs (.field q k)) (ks k) := by
        intro k hk
        refine (hkids k hk).frame (fun x hx => h1q x ?_) (fun _ _ _ => rfl)
        rintro rfl
        exact (hkids k hk).alloc hx hfresh
      have hf₁ : Forest tr.res K (Members p K) (fun _ => .absent) s₁ :=
        { holds := by
            rintro l ⟨k, hk, rfl⟩
            exact hc p k (Or.inl hfresh)
          sep := fun _ _ => trivial
          disj := fun _ _ _ _ _ _ h => h.elim
          out := fun _ _ _ _ _ h => h
          base := by
            rintro p' k ⟨j, _, e⟩
            cases e; rw [h1p]; simp }
      obtain ⟨k₀, hk₀, hdeep, hlow⟩ := Tree.deep_kid hn
      have hctor : NotOk ((ops tr T K (m + 1)).copyCtor a p q s₁) := by
        show NotOk ((readObj q >>= fun v => choose >>= fun c =>
          match T.copy v c with
          | .error e => M.throwE e
          | .ok w => buildMembers (copyMember tr (ops tr T K m) p q) (dropMembers tr (ops tr T K m) p) K >>=
              fun _ => beginObj p w (.copyOf q)) s₁)
        rw [M.bind_ok (readObj_some hsrc₁)]
        have hch : (choose : M (NSt N A R V) Nat) s₁ =
          .ok (s₁.env.choice s₁.ti) { s₁ with ti := s₁.ti + 1 } := rfl
        rw [M.bind_ok hch]
        cases hcp : T.copy v (s₁.env.choice s₁.ti) with
        | error e => trivial
        | ok w =>
          simp only
          let P : Nat → NSt N A R V → Prop := fun k z => ∃ ts',
            Chng tr.res K (Members p K) (fun _ => .absent) ts' s₁ z ∧
            (∀ j, j < k → (ks j).Copy (Copied T) tr.socc K (tr.socc ((ks j).allocOr a))
              (ts' (.field p j))) ∧
            (∀ j, k ≤ j → ts' (.field p j) = .absent)
          have hP0 : P 0 { s₁ with ti := s₁.ti + 1 } :=
            ⟨fun _ => .absent, (Chng.refl hf₁ hc₁).congr rfl rfl rfl rfl,
              fun j hj => absurd hj (Nat.not_lt_zero j), fun _ _ => rfl⟩
          have hsrc : ∀ j, j < K → ∀ z ts', Chng tr.res K (Members p K) (fun _ => .absent) ts' s₁ z →
              z.heap q = some ⟨tr.res b, some v⟩ ∧ Holds tr.res K z (z.hs (.field q j)) (ks j) := by
            intro j hj z ts' c
            refine ⟨by rw [c.keeps_heap (by rw [hsrc₁]; simp) (fun _ _ h => h)]; exact hsrc₁, ?_⟩
            rw [c.keeps_hs (by rintro ⟨i, _, e⟩; cases e; exact hqp rfl)
              (fun p' k' e => by cases e; exact ⟨by rw [hsrc₁]; simp, fun _ _ h => h⟩)]
            refine c.keeps (hk₁ j hj) (fun _ _ _ _ h => h) ?_
            rintro p' k' ⟨i, _, e⟩ hmem
            cases e
            exact (hkids j hj).alloc hmem hfresh
          have hstep : ∀ j, j < k₀ → ∀ z, P j z → Post False (fun _ z' => P (j + 1) z') (Still s₁)
              (M.onThrow (copyMember tr (ops tr T K m) p q j) (dropMembers tr (ops tr T K m) p j) z) := by
            rintro j hj z ⟨ts', c, hcop, habs⟩
            have hjK : j < K := Nat.lt_trans hj hk₀
            obtain ⟨hzq, hzk⟩ := hsrc j hjK z ts' c
            refine Post.onThrow (E := Still z) ?_ ?_
            · refine (copyMember_spec tr T (ops tr T K m) (copy_of_build tr T _ _ (build_spec tr T _ m (hlow j hj))) a
                hjK hzq hzk c.clean c.post (habs j (Nat.le_refl j))).mono ?_ (fun _ h => h) id
              rintro _ z' ⟨t', c', hcp'⟩
              refine ⟨_, Chng.trans hc₁ c c', ?_, ?_⟩
              · intro i hi
                by_cases e : i = j
                · subst e; rw [upd_same]; exact hcp'
                · rw [upd_other _ _ (by intro e'; cases e'; exact e rfl)]
                  exact hcop i (by omega)
              · intro i hi
                rw [upd_other _ _ (by intro e'; cases e'; omega)]
                exact habs i (by omega)
            · rintro z' ⟨hz1, hz2⟩
              obtain ⟨s'', hd, cd, _⟩ := dropMembers_spec (tr := tr) (ops tr T K m) (p := p) j (Nat.le_of_lt hjK)
                (ts := ts') (s := z') (fun i hi _ => dtor_spec tr T _ m (by
                  rw [Tree.Copy.height (hcop i hi)]; exact hlow i (by omega)))
                (c.post.congr hz1 hz2) (c.clean.congr hz1 hz2)
              refine ⟨s'', hd, ?_⟩
              have ct := Chng.trans hc₁ c (cd.congr hz1.symm hz2.symm rfl rfl)
              refine ct.still hf₁ (fun _ _ => rfl) ?_
              rintro l ⟨i, hi, rfl⟩
              by_cases hij : i < j
              · simp [cut, hij]
              · simp [cut, hij]; exact habs i (by omega)
          refine NotOk.bind (buildMembers_stuck (k := k₀) ?_ hk₀)
          show NotOk ((buildMembers _ _ k₀ >>= fun _ => M.onThrow (copyMember tr (ops tr T K m) p q k₀)
            (dropMembers tr (ops tr T K m) p k₀)) _)
          refine NotOk.after (build_rule hstep hP0) ?_
          rintro _ z ⟨ts', c, hcop, habs⟩
          obtain ⟨hzq, hzk⟩ := hsrc k₀ hk₀ z ts' c
          refine NotOk.onThrow ?_
          unfold copyMember hasMember
          rw [bind_assoc, M.bind_ok (readObj_some hzq)]
          have : engaged (.field q k₀) z = .ok true z := by
            simp [engaged, hzk.isSome (ne_absent_of_height hdeep)]
          rw [M.bind_ok this]
          simp only [if_true]
          exact NotOk.bind (ctorCopy_stuck tr _ (ih k₀ m hdeep) (Nat.zero_lt_of_lt hdeep) hzk c.clean)
      exact NotOk.bind (NotOk.onThrow hctor)
    · simp only [hm, if_false]; trivial

/-! Statements. -/

theorem drop_stuck {W : N → Tree A V} {s : NSt N A R V} (w : World tr.res K W s) {n : Nat} {P : Path N}
    (hL : Live K W P) (hn : ¬ Fits K n W P) : exec tr T K n (.drop P : NOp N A X) s = .diverged := by
  obtain ⟨hf, _⟩ := w.one hL.1
  show (resolve P >>= fun l => Indirect.dtor tr (ops tr T K n) l) s = _
  rw [M.bind_ok (resolve_eq w hL.1)]
  exact dtor_stuck tr T (treeAt W P) n (Nat.lt_of_not_le hn) (loc W P) _ s rfl hf w.clean

theorem copy_stuck {W : N → Tree A V} {s : NSt N A R V} (w : World tr.res K W s) {n : Nat} {P Q : Path N}
    (hP : Exists K W P) (hQ : Exists K W Q) (hn : ¬ Fits K n W Q) :
    NotOk (exec tr T K n (.copy P Q : NOp N A X) s) := by
  show NotOk ((resolve P >>= fun l => resolve Q >>= fun m => Indirect.ctorCopy tr (ops tr T K n) m >>= fun h =>
    emplace l h) s)
  rw [M.bind_ok (resolve_eq w hP), M.bind_ok (resolve_eq w hQ)]
  have hd := Nat.lt_of_not_le hn
  exact NotOk.bind (ctorCopy_stuck tr _ (build_stuck tr T _ n hd) (Nat.zero_lt_of_lt hd)
    (shows_holds w.holds hQ) w.clean)

theorem copyA_stuck {W : N → Tree A V} {s : NSt N A R V} (w : World tr.res K W s) {n : Nat} {P Q : Path N} (a : A)
    (hP : Exists K W P) (hQ : Exists K W Q) (hn : ¬ Fits K n W Q) :
    NotOk (exec tr T K n (.copyA P a Q : NOp N A X) s) := by
  show NotOk ((resolve P >>= fun l => resolve Q >>= fun m => Indirect.ctorCopyA tr (ops tr T K n) a m >>= fun h =>
    emplace l h) s)
  rw [M.bind_ok (resolve_eq w hP), M.bind_ok (resolve_eq w hQ)]
  have hd := Nat.lt_of_not_le hn
  exact NotOk.bind (ctorCopyA_stuck tr _ (build_stuck tr T _ n hd) (Nat.zero_lt_of_lt hd)
    (shows_holds w.holds hQ) w.clean)

end

/-! Comparison and hash. -/
section
variable {N A R V H : Type} [DecidableEq N] [DecidableEq R] {K : Nat} {res : A → R} {s : NSt N A R V}

theorem hashMembers_stuck {mix : H → H → H} {h : H} {f : Nat → M (NSt N A R V) H} {k : Nat} : ∀ {K : Nat},
    k < K → f k s = .diverged → (∀ j, j < k → ∃ a, f j s = .ok a s) → hashMembers mix h f K s = .diverged
  | 0, hk, _, _ => absurd hk (Nat.not_lt_zero _)
  | K + 1, hk, hf, hl => by
    unfold hashMembers
    by_cases e : k = K
    · subst e
      have : ∀ i, i ≤ k → ∃ a, hashMembers mix h f i s = .ok a s := by
        intro i
        induction i with
        | zero => intro _; exact ⟨h, rfl⟩
        | succ i ih =>
          intro hi
          obtain ⟨a, ha⟩ := ih (by omega)
          obtain ⟨b, hb⟩ := hl i (by omega)
          refine ⟨mix a b, ?_⟩
          unfold hashMembers
          rw [M.bind_ok ha, M.bind_ok hb]; rfl
      obtain ⟨a, ha⟩ := this k (Nat.le_refl k)
      rw [M.bind_ok ha, M.bind_eq, hf]
    · rw [M.bind_eq, hashMembers_stuck (by omega) hf hl]

theorem hashOpt_stuck (hd : Header) (nothing npos : H) (mix : H → H → H) (f : V → H) :
    ∀ {t : Tree A V} {l : Loc N} {n : Nat}, Holds res K s (s.hs l) t → n < t.height K →
    hashOpt hd nothing npos (hashNode hd nothing npos mix (fun v => pure (f v)) K n) l s = .diverged := by
  intro t
  induction t with
  | absent => intro l n _ h; exact absurd h (Nat.not_lt_zero _)
  | hollow a => intro l n _ h; exact absurd h (Nat.not_lt_zero _)
  | node p a v ks ih =>
    intro l n ht hn
    unfold hashOpt
    rw [M.bind_ok (engaged_eq ht)]
    refine Eq.trans (Header.hash_run (nref_views ht nofun)) ?_
    show hashNode hd nothing npos mix (fun v => pure (f v)) K n p s = _
    cases n with
    | zero => rfl
    | succ n =>
      unfold hashNode
      rw [M.bind_ok (readObj_some ht.2.1)]
      simp only [pure_bind]
      obtain ⟨k, hk, hdeep, hlow⟩ := Tree.deep_kid hn
      exact hashMembers_stuck hk (ih k (ht.2.2 k hk) hdeep) (fun j hj =>
        ⟨_, hashOpt_eval hd nothing npos mix f (ht.2.2 j (by omega)) (hlow j hj)⟩)

theorem eqMembers_stuck {f : Nat → M (NSt N A R V) Bool} {k : Nat} : ∀ {K : Nat},
    k < K → f k s = .diverged → (∀ j, j < k → f j s = .ok true s) → eqMembers f K s = .diverged
  | 0, hk, _, _ => absurd hk (Nat.not_lt_zero _)
  | K + 1, hk, hf, hl => by
    unfold eqMembers
    by_cases e : k = K
    · subst e
      have : ∀ i, i ≤ k → eqMembers f i s = .ok true s := by
        intro i
        induction i with
        | zero => intro _; rfl
        | succ i ih =>
          intro hi
          unfold eqMembers
          rw [M.bind_ok (ih (by omega))]
          exact hl i (by omega)
      rw [M.bind_ok (this k (Nat.le_refl k))]
      exact hf
    · rw [M.bind_eq, eqMembers_stuck (by omega) hf hl]

theorem like_height {C : V → V → Prop} : ∀ {t u : Tree A V}, t.Like C K u → u.height K = t.height K := by
  intro t
  induction t with
  | absent => intro u h; rw [show u = .absent from h]
  | hollow a => rintro u ⟨b, rfl⟩; rfl
  | node p a v ks ih =>
    rintro u ⟨q, b, w, js, rfl, _, h⟩
    simp only [Tree.height]
    rw [maxBelow_congr K (fun k hk => ih k (h k hk))]

theorem eqOpt_stuck (hd : Header) (f : V → V → Bool) : ∀ {t u : Tree A V} {l m : Loc N} {n : Nat},
    Holds res K s (s.hs l) t → Holds res K s (s.hs m) u → t.Like (fun v w => f v w = true) K u →
    n < t.height K → eqOpt hd (eqNode hd (pureOp f) K n) l m s = .diverged := by
  intro t
  induction t with
  | absent => intro u l m n _ _ _ h; exact absurd h (Nat.not_lt_zero _)
  | hollow a => intro u l m n _ _ _ h; exact absurd h (Nat.not_lt_zero _)
  | node p a v ks ih =>
    rintro u l m n ht hu ⟨q, b, w, js, rfl, hvw, hl⟩ hn
    unfold eqOpt
    rw [M.bind_ok (engaged_eq ht), M.bind_ok (engaged_eq hu)]
    refine Eq.trans (Header.eq_run (nref_views ht nofun) (nref_views hu nofun)) ?_
    show eqNode hd (pureOp f) K n p q s = _
    cases n with
    | zero => rfl
    | succ n =>
      unfold eqNode
      rw [M.bind_ok (readObj_some ht.2.1), M.bind_ok (readObj_some hu.2.1)]
      simp only [pureOp, pure_bind, hvw, if_true]
      obtain ⟨k, hk, hdeep, hlow⟩ := Tree.deep_kid hn
      refine eqMembers_stuck hk (ih k (ht.2.2 k hk) (hu.2.2 k hk) (hl k hk) hdeep) (fun j hj => ?_)
      have hjK : j < K := by omega
      have := eqOpt_eval hd f (ht.2.2 j hjK) (hu.2.2 j hjK) (Or.inl (hlow j hj))
      rw [Tree.eqb_iff.2 (hl j hjK)] at this
      exact this

end

/-! Moving, swapping and creating. -/
section
variable {N A R V X : Type} [DecidableEq N] [DecidableEq R] {K : Nat}
variable (tr : ATraits A R) (T : TSpec V X)

theorem move_exact (Rf : tr.Reflexive) {W : N → Tree A V} {s : NSt N A R V} (w : World tr.res K W s) {n : Nat}
    {P Q : Path N} (hP : Empty K W P) (hQ : Live K W Q) :
    ∃ s', exec tr T K n (.move P Q : NOp N A X) s = .ok () s' ∧ s'.trace = s.trace := by
  have hp : s.hs (loc W P) = none := by
    have := shows_holds w.holds hP.1
    rw [hP.2] at this; exact this
  obtain ⟨x, hx⟩ := (shows_holds w.holds hQ.1).engagedAt hQ.2
  have hne : loc W P ≠ loc W Q := by intro e; rw [e, hx] at hp; exact nomatch hp
  have hm : Indirect.ctorMove tr (ops tr T K n) (loc W Q) s =
      .ok x { s with hs := upd s.hs (loc W Q) (some { x with p := none }) } := by
    have ha : Indirect.ctorMoveA tr (ops tr T K n) x.alloc (loc W Q) s =
        .ok x { s with hs := upd s.hs (loc W Q) (some { x with p := none }) } := by
      unfold Indirect.ctorMoveA M.noexceptIf
      rw [M.bind_ok (getH_some hx)]
      by_cases h : tr.alwaysEqual = true
      · simp only [h, if_true]
        rw [M.bind_ok (setP_some hx none)]; rfl
      · simp only [h, Bool.false_eq_true, if_false, Rf.eq_refl, if_true]
        rw [M.bind_ok (setP_some hx none)]; rfl
    unfold Indirect.ctorMove M.noexceptIf
    rw [M.bind_ok (getH_some hx), ha]
  refine ⟨{ s with hs := upd (upd s.hs (loc W Q) (some { x with p := none })) (loc W P) (some x) }, ?_, rfl⟩
  · show (resolve P >>= fun l => resolve Q >>= fun m => Indirect.ctorMove tr (ops tr T K n) m >>= fun h =>
      emplace l h) s = _
    rw [M.bind_ok (resolve_eq w hP.1), M.bind_ok (resolve_eq w hQ.1), M.bind_ok hm,
      emplace_none (show upd s.hs (loc W Q) _ (loc W P) = none by rw [upd_other _ _ hne]; exact hp)]

theorem swap_exact {W : N → Tree A V} {s : NSt N A R V} (w : World tr.res K W s) {n : Nat}
    {P Q : Path N} (hP : Live K W P) (hQ : Live K W Q)
    (ha : tr.pocs = true ∨ tr.eq ((treeAt W P).allocOr tr.dflt) ((treeAt W Q).allocOr tr.dflt) = true) :
    ∃ s', exec tr T K n (.swap P Q : NOp N A X) s = .ok () s' ∧ s'.trace = s.trace := by
  have hx : ∀ {Z : Path N}, Live K W Z → ∃ x, s.hs (loc W Z) = some x ∧ x.alloc = (treeAt W Z).allocOr tr.dflt := by
    intro Z hZ
    have hh := shows_holds w.holds hZ.1
    cases ht : treeAt W Z with
    | absent => exact absurd ht hZ.2
    | hollow a => rw [ht] at hh; exact ⟨_, hh, rfl⟩
    | node p a v ks => rw [ht] at hh; exact ⟨_, hh.1, rfl⟩
  obtain ⟨x, hx1, hx2⟩ := hx hP
  obtain ⟨y, hy1, hy2⟩ := hx hQ
  rw [← hx2, ← hy2] at ha
  have run : ∃ s', Indirect.swap tr (loc W P) (loc W Q) s = .ok () s' ∧ s'.trace = s.trace := by
    unfold Indirect.swap M.noexceptIf
    rw [M.bind_ok (getH_some hx1), M.bind_ok (getH_some hy1)]
    generalize loc W P = l at hx1
    generalize loc W Q = m at hy1
    by_cases hp : tr.pocs = true
    · simp only [hp, if_true]
      by_cases e : m = l
      · subst e
        simp [M.bind_eq, setAlloc, setP, hx1, upd]
      · have e' : l ≠ m := fun h => e h.symm
        simp [M.bind_eq, setAlloc, setP, hx1, hy1, upd, e, e']
    · have he := ha.resolve_left hp
      simp only [hp, if_false, he, if_true]
      by_cases e : m = l
      · subst e
        simp [M.bind_eq, setP, hx1, upd]
      · simp [M.bind_eq, setP, hx1, hy1, upd, e]
  obtain ⟨s', h1, h2⟩ := run
  refine ⟨s', ?_, h2⟩
  show (resolve P >>= fun l => resolve Q >>= fun m => Indirect.swap tr l m) s = _
  rw [M.bind_ok (resolve_eq w hP.1), M.bind_ok (resolve_eq w hQ.1), h1]

theorem make_exact {W : N → Tree A V} {s : NSt N A R V} (w : World tr.res K W s) {n : Nat} {P : Path N}
    (hP : Empty K W P) {a : A} {us : List X} {v : V} (hT : T.make (.pack us) (s.env.choice s.ti) = .ok v)
    (hm : memOk s = true) :
    ∃ s', exec tr T K (n + 1) (.make P a us : NOp N A X) s = .ok () s' ∧
      s'.heap = upd s.heap (s.env.pick s.ai) (some ⟨tr.res a, some v⟩) := by
  have hp : s.hs (loc W P) = none := by
    have := shows_holds w.holds hP.1
    rw [hP.2] at this; exact this
  let s₁ : NSt N A R V := { s with
      heap := upd s.heap (s.env.pick s.ai) (some ⟨tr.res a, none⟩)
      trace := s.trace ++ [.alloc (tr.res a) (s.env.pick s.ai)]
      ai := s.ai + 1 }
  have h1p : s₁.heap (s.env.pick s.ai) = some ⟨tr.res a, none⟩ := upd_same _ _ _
  have hmk : (ops tr T K (n + 1)).make a (s.env.pick s.ai) (.pack us) s₁ = .ok () { s₁ with
      ti := s₁.ti + 1
      heap := upd s₁.heap (s.env.pick s.ai) (some ⟨tr.res a, some v⟩)
      trace := s₁.trace ++ [.construct (s.env.pick s.ai) .args] } := by
    show (choose >>= fun c => finish (s.env.pick s.ai) .args (T.make (.pack us) c)) s₁ = _
    rw [M.bind_ok (show (choose : M (NSt N A R V) Nat) s₁ =
      .ok (s₁.env.choice s₁.ti) { s₁ with ti := s₁.ti + 1 } from rfl), hT]
    exact beginObj_raw (s := { s₁ with ti := s₁.ti + 1 }) v .args h1p
  have hc : Indirect.ctorInPlaceA tr (ops tr T K (n + 1)) a us s = .ok ⟨some (s.env.pick s.ai), a⟩ { s₁ with
      ti := s₁.ti + 1
      heap := upd s₁.heap (s.env.pick s.ai) (some ⟨tr.res a, some v⟩)
      trace := s₁.trace ++ [.construct (s.env.pick s.ai) .args] } := by
    unfold Indirect.ctorInPlaceA Indirect.constructFrom
    have hall : allocate (tr.res a) s = .ok (s.env.pick s.ai) s₁ := by rw [allocate_eq, if_pos hm]; rfl
    have : M.onThrow ((ops tr T K (n + 1)).make a (s.env.pick s.ai) (.pack us))
        (deallocate (tr.res a) (s.env.pick s.ai)) s₁ = .ok () { s₁ with
      ti := s₁.ti + 1
      heap := upd s₁.heap (s.env.pick s.ai) (some ⟨tr.res a, some v⟩)
      trace := s₁.trace ++ [.construct (s.env.pick s.ai) .args] } := by
      unfold M.onThrow; rw [hmk]
    rw [bind_assoc, M.bind_ok hall, bind_assoc, M.bind_ok this]
    rfl
  refine ⟨{ s₁ with
      hs := upd s₁.hs (loc W P) (some ⟨some (s.env.pick s.ai), a⟩)
      ti := s₁.ti + 1
      heap := upd s₁.heap (s.env.pick s.ai) (some ⟨tr.res a, some v⟩)
      trace := s₁.trace ++ [.construct (s.env.pick s.ai) .args] }, ?_, ?_⟩
  · show (resolve P >>= fun l => Indirect.ctorInPlaceA tr (ops tr T K (n + 1)) a us >>= fun h => emplace l h) s = _
    rw [M.bind_ok (resolve_eq w hP.1), M.bind_ok hc, emplace_none (by exact hp)]
  · exact upd_upd _ _ _ _

end

theorem height_put {A V : Type} {K : Nat} : ∀ (r : List Nat) {t u : Tree A V}, t.Has K r →
    r.length + u.height K ≤ (t.put r u).height K ∧
      (t.put r u).height K ≤ max (t.height K) (r.length + u.height K)
  | [], t, u, _ => by
    have : t.put [] u = u := by cases t <;> rfl
    rw [this]; simp; omega
  | k :: r, .absent, _, h => h.elim
  | k :: r, .hollow _, _, h => h.elim
  | k :: r, .node p a v ks, u, h => by
    obtain ⟨h1, h2⟩ := height_put r (u := u) h.2
    rw [put_node]
    simp only [Tree.height, List.length_cons]
    constructor
    · have := Verif.le_maxBelow (fun j => (upd ks k ((ks k).put r u) j).height K) K k h.1
      simp only [upd_same] at this
      omega
    · have hk := Verif.le_maxBelow (fun j => (ks j).height K) K k h.1
      have : maxBelow (fun j => (upd ks k ((ks k).put r u) j).height K) K ≤
          max (maxBelow (fun j => (ks j).height K) K) (r.length + u.height K) := by
        refine maxBelow_le fun j hj => ?_
        by_cases e : j = k
        · subst e; simp only [upd_same]; omega
        · simp only [upd_other _ _ e]
          have := Verif.le_maxBelow (fun j => (ks j).height K) K j hj
          omega
      omega

theorem has_put_app {A V : Type} {K : Nat} : ∀ (r : List Nat) {t u : Tree A V} {r' : List Nat}, t.Has K r → u.Has K r' →
    (t.put r u).Has K (r ++ r') ∧ (t.put r u).at' (r ++ r') = u.at' r'
  | [], t, u, r', _, hu => by
    have : t.put [] u = u := by cases t <;> rfl
    rw [this]; exact ⟨hu, rfl⟩
  | k :: r, .absent, _, _, h, _ => h.elim
  | k :: r, .hollow _, _, _, h, _ => h.elim
  | k :: r, .node p a v ks, u, r', h, hu => by
    obtain ⟨h1, h2⟩ := has_put_app r h.2 hu
    rw [put_node]
    refine ⟨⟨h.1, ?_⟩, ?_⟩
    · rw [upd_same]; exact h1
    · show (upd ks k _ k).at' (r ++ r') = _
      rw [upd_same]; exact h2

end Node
end Verif
