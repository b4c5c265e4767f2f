import Verif.Proofs.NodeFacts

set_option autoImplicit false
set_option linter.unusedSectionVars false
set_option linter.unusedSimpArgs false

/-! Assigning a tree from a part of itself. -/

namespace Verif.Node
open Verif

section
variable {N A R V X : Type} [DecidableEq N] [DecidableEq R]
variable {res : A → R} {K : Nat}

/-- From `l` on, state `s` holds the tree, except that the `indirect` reached by the member accesses points
to block `p₀`. -/
inductive Broken (res : A → R) (K : Nat) (s : NSt N A R V) (p₀ : Addr) : Loc N → Tree A V → List Nat → Prop
  | here {l : Loc N} {t : Tree A V} {b : A} (h : s.hs l = some ⟨some p₀, b⟩) : Broken res K s p₀ l t []
  | step {l : Loc N} {p : Addr} {a : A} {v : V} {ks : Nat → Tree A V} {k : Nat} {r : List Nat}
      (h : s.hs l = some ⟨some p, a⟩) (hp : s.heap p = some ⟨res a, some v⟩) (hk : k < K)
      (ho : ∀ j, j < K → j ≠ k → Holds res K s (s.hs (.field p j)) (ks j))
      (hb : Broken res K s p₀ (.field p k) (ks k) r) : Broken res K s p₀ l (.node p a v ks) (k :: r)

theorem Broken.frame {s s' : NSt N A R V} {p₀ : Addr} {l : Loc N} {t : Tree A V} {r : List Nat}
    (h : Broken res K s p₀ l t r) (hl : s'.hs l = s.hs l) (hh : ∀ q, t.Mem K q → s'.heap q = s.heap q)
    (hf : ∀ q k, t.Mem K q → s'.hs (.field q k) = s.hs (.field q k)) : Broken res K s' p₀ l t r := by
  induction h with
  | here h => exact .here (hl.trans h)
  | @step l p a v ks k r h hp hk ho hb ih =>
    refine .step (hl.trans h) ((hh p (Or.inl rfl)).trans hp) hk ?_ ?_
    · intro j hj hne
      rw [hf p j (Or.inl rfl)]
      exact (ho j hj hne).frame (fun q hm => hh q (Or.inr ⟨j, hj, hm⟩))
        (fun q i hm => hf q i (Or.inr ⟨j, hj, hm⟩))
    · exact ih (hf p k (Or.inl rfl)) (fun q hm => hh q (Or.inr ⟨k, hk, hm⟩))
        (fun q i hm => hf q i (Or.inr ⟨k, hk, hm⟩))

theorem Broken.isSome {s : NSt N A R V} {p₀ : Addr} {l : Loc N} {t : Tree A V} {r : List Nat}
    (h : Broken res K s p₀ l t r) : (s.hs l).isSome = true := by
  cases h with
  | here h => rw [h]; rfl
  | step h => rw [h]; rfl

/-- Redirecting the `indirect` at a place breaks the tree there. -/
theorem Broken.of_holds {s s' : NSt N A R V} {p₀ : Addr} {b : A} : ∀ (r : List Nat) {l : Loc N} {t : Tree A V},
    Holds res K s (s.hs l) t → t.Has K r → t.Sep K → (∀ p k, l = .field p k → ¬ t.Mem K p) →
    s'.heap = s.heap → s'.hs (place l t r) = some ⟨some p₀, b⟩ →
    (∀ q k, (t.Mem K q ∨ l = .field q k) → .field q k ≠ place l t r →
      s'.hs (.field q k) = s.hs (.field q k)) →
    (l ≠ place l t r → s'.hs l = s.hs l) → Broken res K s' p₀ l t r
  | [], l, t, _, _, _, _, _, h, _, _ => .here (by cases t <;> exact h)
  | k :: r, l, .absent, _, h, _, _, _, _, _, _ => h.elim
  | k :: r, l, .hollow _, _, h, _, _, _, _, _, _ => h.elim
  | k :: r, l, .node p a v ks, hh, hr, hs, hout, hheap, he, hf, hl => by
    obtain ⟨h1, h2, h3⟩ := hh
    obtain ⟨hk, hr⟩ := hr
    obtain ⟨s1, s2, s3⟩ := hs
    have hpl : ∀ j, j ≠ k → Loc.field p j ≠ place (N := N) (.field p k) (ks k) r := by
      intro j hj e
      rcases place_cases (N := N) r (.field p k) (ks k) hr with h | ⟨q, i, h, hm, _⟩
      · rw [h] at e; cases e; exact hj rfl
      · rw [h] at e; cases e; exact s1 k hk hm
    have hql : ∀ q i j, j < K → j ≠ k → (ks j).Mem K q →
        Loc.field q i ≠ place (N := N) (.field p k) (ks k) r := by
      intro q i j hj hjk hm e
      rcases place_cases (N := N) r (.field p k) (ks k) hr with h | ⟨q', i', h, hm', _⟩
      · rw [h] at e; cases e; exact s1 j hj hm
      · rw [h] at e; cases e; exact s2 j k hj hk hjk q hm hm'
    have hlne : l ≠ place (.field p k) (ks k) r := by
      intro e
      rcases place_cases (N := N) r (.field p k) (ks k) hr with h | ⟨q', i', h, hm', _⟩
      · exact hout p k (e.trans h) (Or.inl rfl)
      · exact hout q' i' (e.trans h) (Or.inr ⟨k, hk, hm'⟩)
    refine .step ((hl hlne).trans h1) (by rw [hheap]; exact h2) hk ?_ ?_
    · intro j hj hjk
      rw [hf p j (Or.inl (Or.inl rfl)) (hpl j hjk)]
      exact (h3 j hj).frame (fun _ _ => by rw [hheap]) (fun q i hm =>
        hf q i (Or.inl (Or.inr ⟨j, hj, hm⟩)) (hql q i j hj hjk hm))
    · refine Broken.of_holds r (h3 k hk) hr (s3 k hk) (fun p' k' e => by cases e; exact s1 k hk) hheap he ?_ ?_
      · rintro q i (hm | e) hne
        · exact hf q i (Or.inl (Or.inr ⟨k, hk, hm⟩)) hne
        · cases e; exact hf p k (Or.inl (Or.inl rfl)) hne
      · intro hne; exact hf p k (Or.inl (Or.inl rfl)) hne

theorem noexcept_ub {σ α : Type} {m : M σ α} {b : Bool} {s : σ} {e : UB} (h : m s = .ub e) :
    M.noexceptIf b m s = .ub e := by
  unfold M.noexceptIf
  rw [h]

variable (tr : ATraits A R) (T : TSpec V X)

/-- Destroying the members of a node, one of which is broken. -/
theorem dropMembers_broken {p₀ p : Addr} {k : Nat} {r : List Nat} {ks : Nat → Tree A V} {m : Nat} {r₀ : R}
    (hk : k < K) (h0 : ∀ j, j < K → ¬ (ks j).Mem K p₀) (hp : ∀ j, j < K → ¬ (ks j).Mem K p)
    (hdj : ∀ i j, i < K → j < K → i ≠ j → ∀ q, (ks i).Mem K q → ¬ (ks j).Mem K q)
    (hsep : ∀ j, j < K → (ks j).Sep K) (hm : ∀ j, j < K → (ks j).height K ≤ m)
    (ih : ∀ s : NSt N A R V, Broken tr.res K s p₀ (.field p k) (ks k) r →
      (∀ q, (ks k).Mem K q → s.heap q ≠ none) → Clean K s → s.heap p₀ = some ⟨r₀, none⟩ → s.heap p ≠ none →
      Indirect.reset tr (ops tr T K m) (.field p k) s = .ub .deadObject) :
    ∀ (j : Nat), k < j → j ≤ K → ∀ s : NSt N A R V,
      (∀ i, i < j → i ≠ k → Holds tr.res K s (s.hs (.field p i)) (ks i)) →
      Broken tr.res K s p₀ (.field p k) (ks k) r → (∀ q, (ks k).Mem K q → s.heap q ≠ none) → Clean K s →
      s.heap p₀ = some ⟨r₀, none⟩ → s.heap p ≠ none → dropMembers tr (ops tr T K m) p j s = .ub .deadObject
  | 0, h, _, _, _, _, _, _, _, _ => absurd h (Nat.not_lt_zero _)
  | j + 1, hkj, hjK, s, hh, hb, hal, hc, hp0, hpn => by
    show (dropMember tr (ops tr T K m) p j >>= fun _ => dropMembers tr (ops tr T K m) p j) s = _
    by_cases e : j = k
    · subst e
      have he : engaged (.field p j) s = .ok true s := by
        simp [engaged, hb.isSome]
      have : dropMember tr (ops tr T K m) p j s = .ub .deadObject := by
        unfold dropMember
        rw [M.bind_ok he]
        simp only [if_true]
        unfold Indirect.dtor M.noexceptIf
        rw [M.bind_eq, ih s hb hal hc hp0 hpn]
      rw [M.bind_eq, this]
    · have hjK' : j < K := Nat.lt_of_succ_le hjK
      have hf : Forest tr.res K (· = Loc.field (N := N) p j) (fun _ => ks j) s :=
        Forest.single (hh j (Nat.lt_succ_self j) e) (hsep j hjK')
          (fun p' k' e' => by cases e'; exact ⟨hp j hjK', hpn⟩)
      have hd : ∃ s', dropMember tr (ops tr T K m) p j s = .ok () s' ∧
          Chng tr.res K (· = Loc.field (N := N) p j) (fun _ => ks j) (upd (fun _ => ks j) (.field p j) .absent) s s' := by
        by_cases he : ks j = .absent
        · refine ⟨s, ?_, ?_⟩
          · have := hh j (Nat.lt_succ_self j) e
            rw [he] at this
            have this : s.hs (.field p j) = none := this
            unfold dropMember
            simp [M.bind_eq, engaged, this]
          · rw [upd_eq (l := Loc.field (N := N) p j) (ts := fun _ => ks j) he]
            exact Chng.refl hf hc
        · obtain ⟨s', h1, h2, _⟩ := dtor_spec tr T (ks j) m (hm j hjK') (.field p j) _ s rfl he hf hc
          refine ⟨s', ?_, h2⟩
          have : engaged (.field p j) s = .ok true s := by
            simp [engaged, (hh j (Nat.lt_succ_self j) e).isSome he]
          unfold dropMember
          rw [M.bind_ok this]; exact h1
      obtain ⟨s', hrun, c⟩ := hd
      rw [M.bind_ok hrun]
      have hkeep : ∀ q, s.heap q ≠ none → ¬ (ks j).Mem K q → s'.heap q = s.heap q := fun q hq hn =>
        c.keeps_heap hq (fun l' _ => hn)
      have hkeepf : ∀ q i, s.heap q ≠ none → ¬ (ks j).Mem K q → ¬ (q = p ∧ i = j) →
          s'.hs (.field q i) = s.hs (.field q i) := by
        intro q i hq hn hne
        refine c.keeps_hs (by intro e'; cases e'; exact hne ⟨rfl, rfl⟩) ?_
        intro p' k' e'
        cases e'
        exact ⟨hq, fun l' _ => hn⟩
      have hdk : ∀ q, (ks k).Mem K q → ¬ (ks j).Mem K q := fun q hq =>
        hdj k j hk hjK' (fun e' => e e'.symm) q hq
      refine dropMembers_broken hk h0 hp hdj hsep hm ih j (by omega) (Nat.le_of_succ_le hjK) s' ?_ ?_ ?_ c.clean
        (by rw [hkeep p₀ (by rw [hp0]; simp) (h0 j hjK')]; exact hp0)
        (by rw [hkeep p hpn (hp j hjK')]; exact hpn)
      · intro i hi hik
        have hij : i ≠ j := by omega
        have hiK : i < K := by omega
        have hold := hh i (by omega) hik
        rw [hkeepf p i hpn (hp j hjK') (by rintro ⟨_, e'⟩; exact hij e')]
        exact c.keeps hold (fun l q _ hq => hdj i j hiK hjK' hij q hq)
          (fun p' k' e' => by cases e'; exact hp i hiK)
      · refine hb.frame (hkeepf p k hpn (hp j hjK') (by rintro ⟨_, e'⟩; exact e e'.symm))
          (fun q hq => hkeep q (hal q hq) (hdk q hq)) ?_
        intro q i hq
        exact hkeepf q i (hal q hq) (hdk q hq) (by rintro ⟨rfl, _⟩; exact hp k hk hq)
      · intro q hq
        rw [hkeep q (hal q hq) (hdk q hq)]; exact hal q hq

/-- Emptying an `indirect` whose node has a member with undefined destruction. -/
theorem reset_ub {l : Loc N} {p : Addr} {b : A} {rr : R} {v : V} {n : Nat} {s : NSt N A R V}
    (h : s.hs l = some ⟨some p, b⟩) (hp : s.heap p = some ⟨rr, some v⟩)
    (hd : dropMembers tr (ops tr T K n) p K
      { s with heap := upd s.heap p (some ⟨rr, none⟩), trace := s.trace ++ [.destroy p] } = .ub .deadObject) :
    Indirect.reset tr (ops tr T K (n + 1)) l s = .ub .deadObject := by
  unfold Indirect.reset M.noexceptIf
  rw [M.bind_ok (getH_some h)]
  have hdt : ∀ a, (ops tr T K (n + 1)).dtor a p s = .ub .deadObject := by
    intro a
    show (node tr T K (ops tr T K n)).dtor a p s = _
    simp only [node]
    rw [M.bind_ok (readObj_some hp), M.bind_ok (writeBody_some none hp)]
    exact hd
  simp only [Indirect.destroyWith, M.bind_eq, hdt]

/-- Emptying a broken tree destroys the node of `p₀`. -/
theorem reset_broken {p₀ : Addr} {r₀ : R} : ∀ (r : List Nat) (n : Nat) (l : Loc N) (t : Tree A V)
    (s : NSt N A R V), Broken tr.res K s p₀ l t r → r.length < n → t.height K ≤ n → t.Sep K → ¬ t.Mem K p₀ →
    (∀ q, t.Mem K q → s.heap q ≠ none) → Clean K s → s.heap p₀ = some ⟨r₀, none⟩ →
    Indirect.reset tr (ops tr T K n) l s = .ub .deadObject
  | _, 0, _, _, _, _, h, _, _, _, _, _, _ => absurd h (Nat.not_lt_zero _)
  | [], n + 1, l, t, s, hb, _, _, _, _, _, hc, hp0 => by
    cases hb with
    | here h =>
      unfold Indirect.reset M.noexceptIf
      rw [M.bind_ok (getH_some h)]
      have hdt : ∀ a, (ops tr T K (n + 1)).dtor a p₀ s = .ub .deadObject := by
        intro a
        show (node tr T K (ops tr T K n)).dtor a p₀ s = _
        simp [node, readObj, readBody, M.bind_eq, hp0]
      simp only [Indirect.destroyWith, M.bind_eq, hdt]
  | k :: r, n + 1, l, t, s, hb, hn, hht, hsep, h0, hal, hc, hp0 => by
    cases hb with
    | @step _ p a v ks _ _ h hp hk ho hb =>
      obtain ⟨m, e, hks⟩ := Tree.height_kid hht
      cases e
      obtain ⟨s1, s2, s3⟩ := hsep
      have hne : p₀ ≠ p := fun e => h0 (Or.inl e)
      have hf : ∀ q, q ≠ p → upd s.heap p (some ⟨tr.res a, none⟩) q = s.heap q := fun q hq => upd_other _ _ hq
      have hkp : ∀ j q, j < K → (ks j).Mem K q → q ≠ p := fun j q hj hm e => s1 j hj (e ▸ hm)
      refine reset_ub tr T h hp (dropMembers_broken tr T (r := r) (p₀ := p₀) (r₀ := r₀) hk
        (fun j hj hm => h0 (Or.inr ⟨j, hj, hm⟩)) s1 s2 s3 hks ?_ K hk (Nat.le_refl K) _ ?_ ?_ ?_ ?_ ?_ ?_)
      · intro s' hb' hal' hc' hp0' _
        exact reset_broken r n _ _ s' hb' (Nat.lt_of_succ_lt_succ hn) (hks k hk) (s3 k hk)
          (fun hm => h0 (Or.inr ⟨k, hk, hm⟩)) hal' hc' hp0'
      · intro i hi hik
        exact (ho i hi hik).frame (fun q hm => hf q (hkp i q hi hm)) (fun _ _ _ => rfl)
      · exact hb.frame rfl (fun q hm => hf q (hkp k q hk hm)) (fun _ _ _ => rfl)
      · intro q hm
        show upd s.heap p _ q ≠ none
        rw [hf q (hkp k q hk hm)]; exact hal q (Or.inr ⟨k, hk, hm⟩)
      · intro p' i hpi
        by_cases e : p' = p
        · subst e
          have hpi : upd s.heap p' (some ⟨tr.res a, none⟩) p' = none ∨ K ≤ i := hpi
          rw [upd_same] at hpi
          exact hc p' i (Or.inr (hpi.resolve_left (by simp)))
        · have hpi : upd s.heap p (some ⟨tr.res a, none⟩) p' = none ∨ K ≤ i := hpi
          rw [hf p' e] at hpi; exact hc p' i hpi
      · show upd s.heap p _ p₀ = _
        rw [hf p₀ hne]; exact hp0
      · show upd s.heap p _ p ≠ none
        rw [upd_same]; simp

/-- A tree is higher than the way to a node in it is long. -/
theorem has_height : ∀ (r : List Nat) (t : Tree A V) {q : Addr} {b : A} {w : V} {js : Nat → Tree A V},
    t.Has K r → t.at' r = .node q b w js → r.length < t.height K
  | [], .absent, _, _, _, _, _, h => by cases h
  | [], .hollow _, _, _, _, _, _, h => by cases h
  | [], .node _ _ _ _, _, _, _, _, _, _ => by
    show 0 < 1 + _
    omega
  | _ :: _, .absent, _, _, _, _, h, _ => h.elim
  | _ :: _, .hollow _, _, _, _, _, h, _ => h.elim
  | k :: r, .node p a v ks, _, _, _, _, ⟨hk, h⟩, hq => by
    have h1 := has_height r (ks k) h hq
    obtain ⟨m, e, hks⟩ := Tree.height_kid (Nat.le_refl ((Tree.node p a v ks).height K))
    have := hks k hk
    rw [List.length_cons, e]; omega

/-- Move assignment from the inside of the own tree, the node there being taken over. -/
theorem assignMove_inside {ts : Loc N → Tree A V} {s : NSt N A R V} {l : Loc N}
    {p₀ q : Addr} {a b : A} {v w : V} {ks js : Nat → Tree A V} {k : Nat} {r : List Nat} {n : Nat}
    (hf : Forest tr.res K (· = l) ts s) (hc : Clean K s) (ht : ts l = .node p₀ a v ks)
    (hr : (Tree.node p₀ a v ks).Has K (k :: r)) (hq : (ks k).at' r = .node q b w js)
    (hn : (Tree.node p₀ a v ks).height K ≤ n) (heq : tr.eq a b = true) :
    Indirect.assignMove tr (ops tr T K n) l (place l (ts l) (k :: r)) s = .ub .deadObject := by
  have hh := hf.holds l rfl
  have hsp := hf.sep l rfl
  have hfo := (focusOne (r := k :: r) hf rfl (by rw [ht]; exact hr)).1.holds _ rfl
  rw [ht] at hh hsp hfo ⊢
  have hout : ∀ p i, l = .field p i → ¬ (Tree.node p₀ a v ks).Mem K p := fun p i e => by
    rw [← ht]; exact hf.out p i l e.symm rfl
  have hal : ∀ x, (Tree.node p₀ a v ks).Mem K x → s.heap x ≠ none := fun x hm => hh.alloc hm
  have hfo : Holds tr.res K s (s.hs (place (.field p₀ k) (ks k) r)) ((ks k).at' r) := hfo
  rw [hq] at hfo
  have hm := hfo.1
  show Indirect.assignMove tr (ops tr T K n) l (place (.field p₀ k) (ks k) r) s = _
  obtain ⟨h1, h2, h3⟩ := hh
  obtain ⟨hk, hr⟩ := hr
  obtain ⟨s1, s2, s3⟩ := hsp
  obtain ⟨n', e, hks⟩ := Tree.height_kid hn
  subst e
  have hne : l ≠ place (.field p₀ k) (ks k) r := by
    intro e
    rcases place_cases (N := N) r (.field p₀ k) (ks k) hr with h | ⟨q', i', h, hm', _⟩
    · exact hout p₀ k (e.trans h) (Or.inl rfl)
    · exact hout q' i' (e.trans h) (Or.inr ⟨k, hk, hm'⟩)
  let sx : NSt N A R V := { s with
    hs := upd (upd s.hs l (some ⟨some q, a⟩)) (place (.field p₀ k) (ks k) r) (some ⟨some p₀, b⟩) }
  have hxm : sx.hs (place (.field p₀ k) (ks k) r) = some ⟨some p₀, b⟩ := upd_same _ _ _
  have hxo : ∀ x i, ((Tree.node p₀ a v ks).Mem K x) → Loc.field x i ≠ place (N := N) (.field p₀ k) (ks k) r →
      sx.hs (.field x i) = s.hs (.field x i) := by
    intro x i hx hx'
    show upd (upd s.hs l _) _ _ _ = _
    rw [upd_other _ _ hx', upd_other _ _ (fun e => hout x i e.symm hx)]
  let s₁ : NSt N A R V :=
    { sx with heap := upd sx.heap p₀ (some ⟨tr.res a, none⟩), trace := sx.trace ++ [.destroy p₀] }
  have hf1 : ∀ x, x ≠ p₀ → s₁.heap x = s.heap x := fun x hx => upd_other _ _ hx
  have h0p : s₁.heap p₀ = some ⟨tr.res a, none⟩ := upd_same _ _ _
  have hkp : ∀ j x, j < K → (ks j).Mem K x → x ≠ p₀ := fun j x hj hm e => s1 j hj (e ▸ hm)
  have hplj : ∀ j, j ≠ k → Loc.field p₀ j ≠ place (N := N) (.field p₀ k) (ks k) r := by
    intro j hj e
    rcases place_cases (N := N) r (.field p₀ k) (ks k) hr with h | ⟨q, i, h, hm, _⟩
    · rw [h] at e; cases e; exact hj rfl
    · rw [h] at e; cases e; exact s1 k hk hm
  have hqlj : ∀ x i j, j < K → j ≠ k → (ks j).Mem K x →
      Loc.field x i ≠ place (N := N) (.field p₀ k) (ks k) r := by
    intro x i j hj hjk hm e
    rcases place_cases (N := N) r (.field p₀ k) (ks k) hr with h | ⟨q', i', h, hm', _⟩
    · rw [h] at e; cases e; exact s1 j hj hm
    · rw [h] at e; cases e; exact s2 j k hj hk hjk x hm hm'
  have hbx : Broken tr.res K sx p₀ (.field p₀ k) (ks k) r := by
    refine Broken.of_holds r (h3 k hk) hr (s3 k hk) (fun p' k' e => by cases e; exact s1 k hk) rfl hxm ?_ ?_
    · rintro x i (hm | e) hne
      · exact hxo x i (Or.inr ⟨k, hk, hm⟩) hne
      · cases e; exact hxo p₀ k (Or.inl rfl) hne
    · intro hne; exact hxo p₀ k (Or.inl rfl) hne
  have hc₁ : Clean K s₁ := by
    intro p' i hpi
    by_cases e : p' = p₀
    · subst e
      rw [h0p] at hpi
      have hpi := hpi.resolve_left (by simp)
      have hne' : Loc.field p' i ≠ place (N := N) (.field p' k) (ks k) r := by
        intro e'
        rcases place_cases (N := N) r (.field p' k) (ks k) hr with h | ⟨q', i', h, hm', hi'⟩
        · rw [h] at e'; cases e'; exact absurd hk (Nat.not_lt.2 hpi)
        · rw [h] at e'; cases e'; exact s1 k hk hm'
      exact (hxo p' i (Or.inl rfl) hne').trans (hc p' i (Or.inr hpi))
    · rw [hf1 p' e] at hpi
      show upd (upd s.hs l _) _ _ _ = _
      rw [upd_other, upd_other]
      · exact hc p' i hpi
      · intro e'
        have := hc p' i hpi
        rw [e', h1] at this; cases this
      · intro e'
        have := hc p' i hpi
        rw [e', hm] at this; cases this
  have hreset : Indirect.reset tr (ops tr T K (n' + 1)) (place (.field p₀ k) (ks k) r) sx = .ub .deadObject := by
    refine reset_ub tr T hxm (v := v) (rr := tr.res a) h2 ?_
    refine dropMembers_broken tr T (r := r) (p₀ := p₀) (r₀ := tr.res a) hk s1 s1 s2 s3 hks ?_ K hk (Nat.le_refl K)
      s₁ ?_ ?_ ?_ hc₁ h0p (by rw [h0p]; simp)
    · intro s' hb' hal' hc' hp0' _
      exact reset_broken tr T r n' _ _ s' hb' (Nat.lt_of_lt_of_le (has_height r (ks k) hr hq) (hks k hk)) (hks k hk) (s3 k hk) (s1 k hk) hal' hc' hp0'
    · intro i hi hik
      rw [show s₁.hs (.field p₀ i) = s.hs (.field p₀ i) from hxo p₀ i (Or.inl rfl) (hplj i hik)]
      exact (h3 i hi).frame (fun x hm => hf1 x (hkp i x hi hm))
        (fun x j hm => hxo x j (Or.inr ⟨i, hi, hm⟩) (hqlj x j i hi hik hm))
    · exact hbx.frame rfl (fun x hm => hf1 x (hkp k x hk hm)) (fun _ _ _ => rfl)
    · intro x hm
      rw [hf1 x (hkp k x hk hm)]; exact hal x (Or.inr ⟨k, hk, hm⟩)
  have hl2a : (upd s.hs l (some (⟨some q, a⟩ : Handle A))) (place (.field p₀ k) (ks k) r) = some ⟨some q, b⟩ := by
    rw [upd_other _ _ (Ne.symm hne)]; exact hm
  have hvl : Indirect.valueless (place (.field p₀ k) (ks k) r) s = .ok false s := valueless_eq hm
  unfold Indirect.assignMove
  rw [if_neg hne]
  refine noexcept_ub ?_
  rw [M.bind_ok hvl]
  simp only [Bool.false_eq_true, if_false]
  rw [M.bind_ok (getH_some h1), M.bind_ok (getH_some hm)]
  simp only [heq, if_true]
  rw [M.bind_ok (setP_some h1 (some q)), M.bind_ok (setP_some (h := ⟨some q, b⟩) hl2a (some p₀)), M.bind_eq]
  simp only [sx] at hreset
  simp only [hreset]

end
end Verif.Node
