import Verif.Proofs.NodeCopy

set_option autoImplicit false
set_option linter.unusedSectionVars false
set_option linter.unusedSimpArgs false

/-! Copy assignment of trees. -/

namespace Verif.Node
open Verif

section
variable {N A R V X : Type} [DecidableEq N] [DecidableEq R]
variable {res : A → R} {K : Nat}

theorem _root_.Verif.Tree.Copy.like {C C' : V → V → Prop} {socc : A → A} (hC : ∀ v w, C v w → C' v w) :
    ∀ {t t' : Tree A V} {a : A}, t.Copy C socc K a t' → t.Like C' K t' := by
  intro t
  induction t with
  | absent => intro t' a h; exact h
  | hollow b => intro t' a h; exact ⟨a, h⟩
  | node p b v ks ih =>
    rintro t' a ⟨p', w, ks', rfl, hc, h⟩
    exact ⟨p', a, w, ks', rfl, hC _ _ hc, fun k hk => ih k (h k hk)⟩

theorem _root_.Verif.Tree.Copy.allocOr {C : V → V → Prop} {socc : A → A} {t t' : Tree A V} {a b : A}
    (h : t.Copy C socc K a t') (hne : t ≠ .absent) : t'.allocOr b = a := by
  cases t with
  | absent => exact absurd rfl hne
  | hollow c => rw [show t' = .hollow a from h]; rfl
  | node p c v ks => obtain ⟨p', w, ks', rfl, _, _⟩ := h; rfl

/-- The new tree replaces the old one, which was destroyed after the new one was made. -/
theorem New.replace {h : Handle A} {t : Tree A V} {s s₁ s₂ : NSt N A R V} {l : Loc N}
    {ts : Loc N → Tree A V} {a₁ : A} (hn : New res K h t s s₁) (hf : Forest res K (· = l) ts s)
    (hc : Chng res K (· = l) ts (upd ts l (.hollow a₁)) s₁ s₂) (hk : ∀ p k, l = .field p k → k < K) :
    Chng res K (· = l) ts (upd ts l t) s { s₂ with hs := upd s₂.hs l (some h) } := by
  have hlp : ∀ p k, l = .field p k → ¬ t.Mem K p := fun p k e hm => hf.base p k e.symm (hn.fresh p hm)
  have hap : ∀ q, t.Mem K q → ¬ (ts l).Mem K q :=
    fun q hm hm' => (hf.holds l rfl).alloc hm' (hn.fresh q hm)
  have hnew : ∀ q, ¬ (upd ts l (.hollow a₁) l).Mem K q := fun q => by rw [upd_same]; exact id
  exact
    { post := by
        refine Forest.single ?_ ?_ ?_
        · show Holds res K _ (upd s₂.hs l _ l) (upd ts l t l)
          rw [upd_same, upd_same]
          have h2 : Holds res K s₂ (some h) t :=
            hc.keeps hn.holds (fun l' q e hm => by cases e; exact hap q hm)
              (fun p k e => hlp p k e.symm)
          refine h2.frame (fun _ _ => rfl) (fun q k hq => ?_)
          exact upd_other _ _ (fun e => hlp q k e.symm hq)
        · rw [upd_same]; exact hn.sep
        · intro p k e
          rw [upd_same]
          exact ⟨hlp p k e, hc.post.base p k e.symm⟩
      src := fun l' q e hm => by
        cases e
        rw [upd_same] at hm
        exact Or.inr (hn.fresh q hm)
      freed := fun l' q e hm => by
        cases e
        right
        refine (hc.freed _ q rfl hm).resolve_left ?_
        rintro ⟨l'', e, hm'⟩
        cases e
        exact hnew q hm'
      heap := fun q h1 h2 => by
        have h2 := h2 l rfl
        rw [upd_same] at h2
        show s₂.heap q = s.heap q
        rw [hc.heap q h1 (fun l' e => by cases e; exact hnew q), hn.heap q h2]
      hs := fun l' hne ho => by
        show upd s₂.hs l _ l' = s.hs l'
        rw [upd_other _ _ hne, hc.hs l' hne ?_, hn.hs l' ?_]
        · intro p k e
          have := (ho p k e l rfl).2
          rw [upd_same] at this; exact this
        · intro p k e l'' e'
          cases e'
          exact ⟨(ho p k e _ rfl).1, hnew p⟩
      clean := by
        intro p k hp
        by_cases e : Loc.field p k = l
        · exfalso
          rcases hp with hp | hp
          · exact hc.post.base p k e hp
          · exact absurd (hk p k e.symm) (Nat.not_lt.2 hp)
        · show upd s₂.hs l _ (.field p k) = none
          rw [upd_other _ _ e]; exact hc.clean p k hp }

/-- The payload of the root node and the allocator of its owner change. -/
theorem Chng.touch {l : Loc N} {ts : Loc N → Tree A V} {s : NSt N A R V} {p : Addr} {a b : A} {v w : V}
    {ks : Nat → Tree A V} (hf : Forest res K (· = l) ts s) (hc : Clean K s)
    (ht : ts l = .node p a v ks) (hr : res b = res a) :
    Chng res K (· = l) ts (upd ts l (.node p b w ks)) s
      { s with heap := upd s.heap p (some ⟨res a, some w⟩), hs := upd s.hs l (some ⟨some p, b⟩) } := by
  have hh := hf.holds l rfl
  have hkK := lt_of_holds hc hh (by rw [ht]; exact fun e => nomatch e)
  have hsp := hf.sep l rfl
  have hout := fun p' k (e : l = .field p' k) => hf.out p' k l e.symm rfl
  rw [ht] at hh hsp hout
  obtain ⟨hl, hp, hkids⟩ := hh
  have hpn : s.heap p ≠ none := by rw [hp]; simp
  have hlp : ∀ k, l ≠ .field p k := fun k e => hout p k e (Or.inl rfl)
  exact
    { post := by
        refine Forest.single ?_ ?_ ?_
        · show Holds res K _ (upd s.hs l _ l) (upd ts l _ l)
          rw [upd_same, upd_same]
          refine ⟨rfl, by rw [hr]; exact upd_same _ _ _, fun k hk => ?_⟩
          show Holds res K _ (upd s.hs l _ (.field p k)) _
          rw [upd_other _ _ (fun e => hlp k e.symm)]
          refine (hkids k hk).frame (fun q hq => upd_other _ _ ?_) (fun q j hq => upd_other _ _ ?_)
          · rintro rfl; exact hsp.1 k hk hq
          · intro e
            exact hout q j e.symm (Or.inr ⟨k, hk, hq⟩)
        · rw [upd_same]; exact hsp
        · intro p' k e
          rw [upd_same]
          refine ⟨hout p' k e, ?_⟩
          show upd s.heap p _ p' ≠ none
          rw [upd_other _ _ (by rintro rfl; exact hlp k e)]
          exact hf.base p' k e.symm
      src := fun l' q e hm => by
        cases e
        rw [upd_same] at hm
        exact Or.inl ⟨_, rfl, by rw [ht]; exact hm⟩
      freed := fun l' q e hm => by
        cases e
        rw [ht] at hm
        exact Or.inl ⟨_, rfl, by rw [upd_same]; exact hm⟩
      heap := fun q h1 _ => by
        have h1 := h1 l rfl
        rw [ht] at h1
        exact upd_other _ _ (fun e => h1 (Or.inl e))
      hs := fun l' hne _ => upd_other _ _ hne
      clean := by
        intro p' k hp'
        have hp' : upd s.heap p (some ⟨res a, some w⟩) p' = none ∨ K ≤ k := hp'
        have hp'' : s.heap p' = none ∨ K ≤ k := by
          by_cases e : p' = p
          · subst e; rw [upd_same] at hp'
            exact Or.inr (hp'.resolve_left (by simp))
          · rw [upd_other _ _ e] at hp'; exact hp'
        by_cases e : Loc.field p' k = l
        · exfalso
          rcases hp'' with h | h
          · exact hf.base p' k e h
          · exact absurd (hkK p' k e.symm) (Nat.not_lt.2 h)
        · show upd s.hs l _ (.field p' k) = none
          rw [upd_other _ _ e]; exact hc p' k hp'' }

variable (tr : ATraits A R) (T : TSpec V X)

/-- Copy assignment between two places with separate trees. -/
def AssignSpec (I : TOps (NSt N A R V) A X) (K : Nat) (t₁ t₂ : Tree A V) : Prop :=
  ∀ (l₁ l₂ : Loc N) (ts : Loc N → Tree A V) (s : NSt N A R V) (a : A), l₁ ≠ l₂ → ts l₁ = t₁ → ts l₂ = t₂ →
    t₁ ≠ .absent → t₂ ≠ .absent → Forest tr.res K (fun l => l = l₁ ∨ l = l₂) ts s → Clean K s →
    Post False
      (fun r s' => r = l₁ ∧ ∃ t', Chng tr.res K (· = l₁) ts (upd ts l₁ t') s s' ∧ t₂.Like (Given T) K t' ∧
        t'.allocOr a = (if tr.pocca then t₂.allocOr a else t₁.allocOr a) ∧
        (InPlace tr T t₁ t₂ → ∀ p c u js, t₁ = .node p c u js → ∃ b w ks', t' = .node p b w ks') ∧
        (¬ InPlace tr T t₁ t₂ → t₂.Copy (Copied T) tr.socc K (t'.allocOr a) t' ∧
          ∀ q, t'.Mem K q → s.heap q = none))
      (fun s' => ∃ t', t' ≠ .absent ∧ Chng tr.res K (· = l₁) ts (upd ts l₁ t') s s' ∧
        (¬ InPlace tr T t₁ t₂ → t' = t₁))
      (Indirect.assignCopy tr I l₁ l₂ s)

/-- The object at another place of the forest keeps its data members. -/
theorem Chng.other_hs {l₁ l₂ : Loc N} {ts ts' : Loc N → Tree A V} {s s' : NSt N A R V}
    (hf : Forest res K (fun l => l = l₁ ∨ l = l₂) ts s) (hne : l₁ ≠ l₂)
    (hc : Chng res K (· = l₁) ts ts' s s') : s'.hs l₂ = s.hs l₂ :=
  hc.keeps_hs (fun e => hne e.symm) (fun p k e =>
    ⟨hf.base p k (Or.inr e.symm), fun l' e' => by cases e'; exact hf.out p k l₁ (Or.inr e.symm) (Or.inl rfl)⟩)

theorem holds_alloc {s : NSt N A R V} {o : Option (Handle A)} {t : Tree A V} (a : A)
    (h : Holds res K s o t) (hne : t ≠ .absent) : ∃ x, o = some x ∧ x.alloc = t.allocOr a := by
  cases t with
  | absent => exact absurd rfl hne
  | hollow b => exact ⟨_, h, rfl⟩
  | node p b v ks => exact ⟨_, h.1, rfl⟩

theorem valueless_eq {l : Loc N} {s : NSt N A R V} {x : Handle A} (h : s.hs l = some x) :
    Indirect.valueless l s = .ok (x.p == none) s := by
  unfold Indirect.valueless; rw [M.bind_ok (getH_some h)]; rfl

theorem deref_eq {l : Loc N} {s : NSt N A R V} {p : Addr} {a : A} (h : s.hs l = some ⟨some p, a⟩) :
    Indirect.deref l s = .ok p s := by
  unfold Indirect.deref; rw [M.bind_ok (getH_some h)]; rfl

theorem ops_assignable (n : Nat) : (ops (N := N) tr T K n).assignable = T.assignable := by
  cases n <;> rfl

/-- The members of the node at `q` as sources, while the members of another node change. -/
structure Source (res : A → R) (K : Nat) (q : Addr) (b : A) (v : V) (ks : Nat → Tree A V)
    (z : NSt N A R V) : Prop where
  node : z.heap q = some ⟨res b, some v⟩
  kids : ∀ k, k < K → Holds res K z (z.hs (.field q k)) (ks k)
  sep : ∀ k, k < K → (ks k).Sep K
  self : ∀ k, k < K → ¬ (ks k).Mem K q

theorem Source.keeps {q d : Addr} {b : A} {v : V} {ks : Nat → Tree A V} {z z' : NSt N A R V}
    {ts ts' : Loc N → Tree A V} (h : Source res K q b v ks z)
    (hc : Chng res K (Members d K) ts ts' z z') (hqd : q ≠ d)
    (hq : ∀ k, k < K → ¬ (ts (.field d k)).Mem K q)
    (hap : ∀ k j x, k < K → j < K → (ks k).Mem K x → ¬ (ts (.field d j)).Mem K x)
    (hd : ∀ k, k < K → ¬ (ks k).Mem K d) : Source res K q b v ks z' where
  node := by
    rw [hc.keeps_heap (by rw [h.node]; simp) ?_]
    · exact h.node
    · rintro l ⟨k, hk, rfl⟩; exact hq k hk
  kids k hk := by
    rw [hc.keeps_hs (l := .field q k) (by rintro ⟨j, _, e⟩; cases e; exact hqd rfl) ?_]
    · refine hc.keeps (h.kids k hk) ?_ ?_
      · rintro l x ⟨j, hj, rfl⟩ hm; exact hap k j x hk hj hm
      · rintro p' k' ⟨j, hj, e⟩; cases e; exact hd k hk
    · rintro p' k' e
      cases e
      refine ⟨by rw [h.node]; simp, ?_⟩
      rintro l ⟨j, hj, rfl⟩; exact hq j hj
  sep := h.sep
  self := h.self

/-- Copy assignment of one member. -/
theorem copyAssignMember_spec (I : TOps (NSt N A R V) A X) {d q : Addr} {k : Nat} {b : A} {r : R} {v w : V}
    {ks : Nat → Tree A V} {ts : Loc N → Tree A V} {z : NSt N A R V} (hk : k < K)
    (hdt : ts (.field d k) ≠ .absent → DtorSpec tr I K (ts (.field d k)))
    (hcp : CopySpec tr T I K (ks k)) (has : AssignSpec tr T I K (ts (.field d k)) (ks k)) (a : A)
    (hd : z.heap d = some ⟨r, some w⟩) (hs : Source tr.res K q b v ks z)
    (hf : Forest tr.res K (Members d K) ts z) (hc : Clean K z) (hqd : q ≠ d)
    (hq : ¬ (ts (.field d k)).Mem K q) (hdk : ¬ (ks k).Mem K d)
    (hap : ∀ x, (ks k).Mem K x → ¬ (ts (.field d k)).Mem K x) :
    Post False
      (fun _ z' => ∃ t', Chng tr.res K (Members d K) ts (upd ts (.field d k) t') z z' ∧
        (ks k).Like (Given T) K t')
      (fun z' => ∃ t', Chng tr.res K (Members d K) ts (upd ts (.field d k) t') z z')
      (copyAssignMember tr I d q k z) := by
  have hm : Members (N := N) d K (.field d k) := ⟨k, hk, rfl⟩
  have hsrc := hs.kids k hk
  have hdst := hf.holds _ hm
  have hext : ∀ {t' : Tree A V} {z' : NSt N A R V},
      Chng tr.res K (· = .field d k) ts (upd ts (.field d k) t') z z' →
      Chng tr.res K (Members d K) ts (upd ts (.field d k) t') z z' := fun c =>
    c.extend hf (fun l e => by cases e; exact hm) (fun l _ hn => upd_other _ _ hn)
  have hasq : hasMember (N := N) (A := A) q k z = .ok (z.hs (.field q k)).isSome z := by
    unfold hasMember; rw [M.bind_ok (readObj_some hs.node)]; rfl
  have hasd : hasMember (N := N) (A := A) d k z = .ok (z.hs (.field d k)).isSome z := by
    unfold hasMember; rw [M.bind_ok (readObj_some hd)]; rfl
  unfold copyAssignMember
  rw [M.bind_ok hasq]
  by_cases hes : ks k = .absent
  · have e1 : z.hs (.field q k) = none := by rw [hes] at hsrc; exact hsrc
    rw [e1]
    simp only [Option.isSome_none, Bool.false_eq_true, if_false]
    rw [M.bind_ok hasd]
    by_cases hed : ts (.field d k) = .absent
    · have e2 : z.hs (.field d k) = none := by rw [hed] at hdst; exact hdst
      rw [e2]
      simp only [Option.isSome_none, Bool.false_eq_true, if_false]
      refine ⟨.absent, ?_, by rw [hes]; rfl⟩
      rw [upd_eq hed]; exact Chng.refl hf hc
    · rw [hdst.isSome hed]
      simp only [if_true]
      obtain ⟨z', h1, c1, _⟩ := hdt hed (.field d k) ts z rfl hed (hf.one hm) hc
      rw [h1]
      exact ⟨.absent, hext c1, by rw [hes]; rfl⟩
  · rw [hsrc.isSome hes]
    simp only [if_true]
    rw [M.bind_ok hasd]
    by_cases hed : ts (.field d k) = .absent
    · have e2 : z.hs (.field d k) = none := by rw [hed] at hdst; exact hdst
      rw [e2]
      simp only [Option.isSome_none, Bool.false_eq_true, if_false]
      refine Post.bind ((ctorCopy_spec tr T I hcp a hes hsrc hc).mono (fun _ _ h => h) ?_ id) ?_
      · rintro z' ⟨h1, h2⟩
        refine ⟨.absent, ?_⟩
        rw [upd_eq hed]
        exact (Chng.refl hf hc).congr rfl rfl h1 h2
      · rintro h' z' ⟨t', hn, hcp'⟩
        obtain ⟨e1, c1⟩ := hn.emplace (hf.one hm) hed (fun p j e => by cases e; exact hk)
        rw [e1]
        exact ⟨t', hext c1, hcp'.like (fun _ _ h => Or.inl h)⟩
    · rw [hdst.isSome hed]
      simp only [if_true]
      have hne : (Loc.field d k : Loc N) ≠ .field q k := by intro e; cases e; exact hqd rfl
      have hu1 : upd ts (.field q k) (ks k) (.field d k) = ts (.field d k) := upd_other _ _ hne
      have hf2 : Forest tr.res K (fun l => l = .field d k ∨ l = .field q k)
          (upd ts (.field q k) (ks k)) z :=
        { holds := by
            rintro l (rfl | rfl)
            · rw [hu1]; exact hdst
            · rw [upd_same]; exact hsrc
          sep := by
            rintro l (rfl | rfl)
            · rw [hu1]; exact hf.sep _ hm
            · rw [upd_same]; exact hs.sep k hk
          disj := by
            rintro l l' (rfl | rfl) (rfl | rfl) hn x
            · exact absurd rfl hn
            · rw [hu1, upd_same]; exact fun h1 h2 => hap x h2 h1
            · rw [hu1, upd_same]; exact hap x
            · exact absurd rfl hn
          out := by
            rintro p k' l (e | e) (rfl | rfl) <;> cases e
            · rw [hu1]; exact hf.out _ _ _ hm hm
            · rw [upd_same]; exact hdk
            · rw [hu1]; exact hq
            · rw [upd_same]; exact hs.self k hk
          base := by
            rintro p k' (e | e) <;> cases e
            · rw [hd]; simp
            · rw [hs.node]; simp }
      have hcv : ∀ {t' : Tree A V} {z' : NSt N A R V},
          Chng tr.res K (· = .field d k) (upd ts (.field q k) (ks k))
            (upd (upd ts (.field q k) (ks k)) (.field d k) t') z z' →
          Chng tr.res K (Members d K) ts (upd ts (.field d k) t') z z' := fun c =>
        hext (c.eqOn (fun l e => by cases e; exact hu1.symm)
          (fun l e => by cases e; rw [upd_same, upd_same]))
      refine Post.bind ((has (.field d k) (.field q k) _ z a hne hu1 (upd_same _ _ _) hed hes hf2 hc).mono
        (fun _ _ h => h) ?_ id) ?_
      · rintro z' ⟨t', _, c, _⟩; exact ⟨t', hcv c⟩
      · rintro _ z' ⟨_, t', c, hl, _⟩; exact ⟨t', hcv c, hl⟩

theorem assignCopy_spec (hS : tr.Sound) : ∀ (t₂ t₁ : Tree A V) (n : Nat), t₁.height K ≤ n → t₂.height K ≤ n →
    AssignSpec (N := N) tr T (ops tr T K n) K t₁ t₂ := by
  intro t₂
  induction t₂ with
  | absent => intro t₁ n _ _ l₁ l₂ ts s a _ _ _ _ h; exact absurd rfl h
  | hollow b =>
    intro t₁ n hn₁ _ l₁ l₂ ts s a hne ht₁ ht₂ hn1 _ hf hc
    have h2 := hf.holds l₂ (Or.inr rfl)
    rw [ht₂] at h2
    have h2 : s.hs l₂ = some ⟨none, b⟩ := h2
    have hf1 := hf.one (Or.inl rfl : l₁ = l₁ ∨ l₁ = l₂)
    have hkK := lt_of_holds hc (hf.holds l₁ (Or.inl rfl)) (by rw [ht₁]; exact hn1)
    obtain ⟨s₁, hr, c1, _⟩ := reset_spec tr T t₁ n hn₁ l₁ ts s a ht₁ hn1 hf1 hc
    have hl1 := c1.post.holds l₁ rfl
    rw [upd_same] at hl1
    have hl1 : s₁.hs l₁ = some ⟨none, t₁.allocOr a⟩ := hl1
    have hip : ¬ InPlace tr T t₁ (.hollow b) := by cases t₁ <;> exact id
    unfold Indirect.assignCopy
    rw [if_neg hne, M.bind_ok (valueless_eq h2)]
    simp only [beq_self_eq_true, if_true]
    rw [M.bind_ok hr]
    cases hpo : tr.pocca with
    | false =>
      simp only [Bool.false_eq_true, if_false]
      exact ⟨rfl, .hollow (t₁.allocOr a), c1, ⟨_, rfl⟩, rfl, fun h => (hip h).elim, fun _ => ⟨rfl, fun q h => h.elim⟩⟩
    | true =>
      simp only [if_true]
      have h2' : s₁.hs l₂ = some ⟨none, b⟩ := by rw [Chng.other_hs hf hne c1]; exact h2
      rw [M.bind_ok (getH_some h2'), M.bind_ok (setAlloc_some hl1 b)]
      refine ⟨rfl, .hollow b, ?_, ⟨_, rfl⟩, rfl, fun h => (hip h).elim, fun _ => ⟨rfl, fun q h => h.elim⟩⟩
      have hp := Chng.poke (t := .hollow b) (o := some ⟨none, b⟩) c1.post c1.clean (fun q hm => by
        rw [upd_same] at hm; exact hm) (fun q hm => hm) trivial (fun _ => rfl) hkK
      rw [upd_upd] at hp
      exact Chng.trans hc c1 hp
  | node q b v ks ih =>
    intro t₁ n hn₁ hn₂ l₁ l₂ ts s a hne ht₁ ht₂ hn1 hn2 hf hc
    have h2 := hf.holds l₂ (Or.inr rfl)
    have hsp2 := hf.sep l₂ (Or.inr rfl)
    rw [ht₂] at h2 hsp2
    have h2l : s.hs l₂ = some ⟨some q, b⟩ := h2.1
    have hf1 := hf.one (Or.inl rfl : l₁ = l₁ ∨ l₁ = l₂)
    have h1 := hf.holds l₁ (Or.inl rfl)
    have hkK := lt_of_holds hc h1 (by rw [ht₁]; exact hn1)
    rw [ht₁] at h1
    obtain ⟨x, hx, hxa⟩ := holds_alloc a h1 hn1
    unfold Indirect.assignCopy
    rw [if_neg hne, M.bind_ok (valueless_eq h2l)]
    simp only [show ((some q : Option Addr) == none) = false from rfl, Bool.false_eq_true, if_false]
    rw [M.bind_ok (getH_some hx), M.bind_ok (getH_some h2l)]
    rw [ops_assignable]
    by_cases hasg : (T.assignable && !(x.p == none) && tr.eq x.alloc b) = true
    · -- assignment of the node
      simp only [hasg, if_true]
      simp only [Bool.and_eq_true] at hasg
      obtain ⟨⟨hta, hxp⟩, heq⟩ := hasg
      cases t₁ with
      | absent => exact absurd rfl hn1
      | hollow c =>
        have h1 : s.hs l₁ = some ⟨none, c⟩ := h1
        rw [h1] at hx; cases hx
        simp at hxp
      | node d c u js =>
        have h1l : s.hs l₁ = some ⟨some d, c⟩ := h1.1
        rw [h1l] at hx; cases hx
        have hres : tr.res b = tr.res c := (hS.eq_res c b heq).symm
        have hsp1 := hf.sep l₁ (Or.inl rfl)
        rw [ht₁] at hsp1
        obtain ⟨m, rfl, hks⟩ := Tree.height_kid hn₂
        obtain ⟨m', e, hjs⟩ := Tree.height_kid hn₁
        cases e
        have hdisj := fun x => hf.disj l₁ l₂ (Or.inl rfl) (Or.inr rfl) hne x
        rw [ht₁, ht₂] at hdisj
        have hqd : q ≠ d := fun e => hdisj d (Or.inl rfl) (Or.inl e.symm)
        have hip : InPlace tr T (.node d c u js) (.node q b v ks) := ⟨hta, heq⟩
        rw [M.bind_ok (deref_eq h1l), M.bind_ok (deref_eq h2l)]
        -- the node's assignment
        have hasgn : Post False
            (fun _ s' => ∃ t', Chng tr.res K (· = l₁) ts (upd ts l₁ t') s s' ∧ ∃ w js', t' = .node d c w js' ∧
              (Tree.node q b v ks).Like (Given T) K t')
            (fun s' => ∃ t', t' ≠ .absent ∧ Chng tr.res K (· = l₁) ts (upd ts l₁ t') s s')
            ((ops tr T K (m + 1)).copyAssign d q s) := by
          show Post _ _ _ ((readObj d >>= fun d' => readObj q >>= fun v => choose >>= fun ch =>
            emit (.assign d (.copyOf q)) >>= fun _ => writeObj d (T.copyAssign d' v ch).2 >>= fun _ =>
            rethrow (T.copyAssign d' v ch).1 >>= fun _ =>
            eachMember (copyAssignMember tr (ops tr T K m) d q) K) s)
          rw [M.bind_ok (readObj_some h1.2.1), M.bind_ok (readObj_some h2.2.1)]
          have hch : (choose : M (NSt N A R V) Nat) s =
            .ok (s.env.choice s.ti) { s with ti := s.ti + 1 } := rfl
          rw [M.bind_ok hch]
          have hem : emit (Ev.assign d (.copyOf q)) ({ s with ti := s.ti + 1 } : NSt N A R V) =
            .ok () { s with ti := s.ti + 1, trace := s.trace ++ [.assign d (.copyOf q)] } := rfl
          rw [M.bind_ok hem]
          generalize hca : T.copyAssign u v (s.env.choice s.ti) = ca
          obtain ⟨ex, w⟩ := ca
          have hwr := writeObj_some (p := d) (r := tr.res c) (v := u) w
            (s := { s with ti := s.ti + 1, trace := s.trace ++ [.assign d (.copyOf q)] }) h1.2.1
          rw [M.bind_ok hwr]
          -- the payload is assigned
          have ct := Chng.touch (b := c) (w := w) hf1 hc ht₁ rfl
          generalize hs₁ : ({ s with
            ti := s.ti + 1, trace := s.trace ++ [.assign d (.copyOf q)]
            heap := upd s.heap d (some ⟨tr.res c, some w⟩) } : NSt N A R V) = s₁
          have h1heap : s₁.heap = upd s.heap d (some ⟨tr.res c, some w⟩) := by rw [← hs₁]
          have h1hs : s₁.hs = s.hs := by rw [← hs₁]
          have c1 : Chng tr.res K (· = l₁) ts (upd ts l₁ (.node d c w js)) s s₁ :=
            ct.congr rfl rfl h1heap (by rw [h1hs]; exact (upd_id _ _ _ h1l).symm)
          cases ex with
          | some e => exact ⟨.node d c w js, (by simp), c1⟩
          | none =>
            show Post _ _ _ (eachMember (copyAssignMember tr (ops tr T K m) d q) K s₁)
            have hmem := c1.post.members (s' := s₁) (upd_same _ _ _) (fun _ _ => rfl)
              (by rw [h1heap, upd_same]; simp) rfl
            have hd₁ : s₁.heap d = some ⟨tr.res c, some w⟩ := by rw [h1heap, upd_same]
            generalize hos : opened (upd ts l₁ (Tree.node d c w js)) d js = os at hmem
            have hos' : ∀ k, os (.field d k) = js k := fun k => by rw [← hos, opened_member]
            have hsr : Source tr.res K q b v ks s₁ :=
              { node := by rw [h1heap, upd_other _ _ hqd]; exact h2.2.1
                kids := fun k hk => by
                  rw [h1hs]
                  refine (h2.2.2 k hk).frame (fun y hy => ?_) (fun _ _ _ => by rw [h1hs])
                  rw [h1heap, upd_other]
                  rintro rfl
                  exact hdisj y (Or.inl rfl) (Or.inr ⟨k, hk, hy⟩)
                sep := hsp2.2.2
                self := hsp2.1 }
            have hq0 : ∀ k, k < K → ¬ (os (.field d k)).Mem K q := fun k hk hm => by
              rw [hos'] at hm
              exact hdisj q (Or.inr ⟨k, hk, hm⟩) (Or.inl rfl)
            have hd0 : ∀ k, k < K → ¬ (ks k).Mem K d := fun k hk hm =>
              hdisj d (Or.inl rfl) (Or.inr ⟨k, hk, hm⟩)
            have hap0 : ∀ k j y, k < K → j < K → (ks k).Mem K y → ¬ (os (.field d j)).Mem K y :=
              fun k j y hk hj hm hm' => by
                rw [hos'] at hm'
                exact hdisj y (Or.inr ⟨j, hj, hm'⟩) (Or.inr ⟨k, hk, hm⟩)
            let P : Nat → NSt N A R V → Prop := fun k z => ∃ ts',
              Chng tr.res K (Members d K) os ts' s₁ z ∧
              (∀ j, j < k → (ks j).Like (Given T) K (ts' (.field d j))) ∧
              (∀ j, k ≤ j → ts' (.field d j) = js j)
            have hstep : ∀ j, j < K → ∀ z, P j z → Post False (fun _ z' => P (j + 1) z')
                (fun z' => ∃ ts', Chng tr.res K (Members d K) os ts' s₁ z')
                (copyAssignMember tr (ops tr T K m) d q j z) := by
              rintro j hj z ⟨ts', cz, hlk, hold⟩
              have hoj := hold j (Nat.le_refl j)
              have hdz : z.heap d = some ⟨tr.res c, some w⟩ := by
                rw [cz.keeps_heap (by rw [hd₁]; simp) ?_]
                · exact hd₁
                · rintro l ⟨k, hk, rfl⟩
                  exact hmem.out d k _ ⟨k, hk, rfl⟩ ⟨k, hk, rfl⟩
              have hsz := hsr.keeps cz hqd hq0 hap0 hd0
              have hspec := copyAssignMember_spec tr T (ops tr T K m) (ts := ts') hj
                (fun _ => by rw [hoj]; exact dtor_spec tr T _ m (hjs j hj))
                (copy_of_build tr T _ _ (build_spec tr T (ks j) m (hks j hj)))
                (by rw [hoj]; exact ih j (js j) m (hjs j hj) (hks j hj)) a hdz hsz cz.post cz.clean hqd
                (by rw [hoj, ← hos' j]; exact hq0 j hj) (hd0 j hj)
                (fun y hy => by rw [hoj, ← hos' j]; exact hap0 j j y hj hj hy)
              refine hspec.mono ?_ ?_ id
              · rintro _ z' ⟨t', c', hl'⟩
                refine ⟨_, Chng.trans (hc := ?_) cz c', ?_, ?_⟩
                · exact c1.clean
                · intro i hi
                  by_cases e : i = j
                  · subst e; rw [upd_same]; exact hl'
                  · rw [upd_other _ _ (by intro e'; cases e'; exact e rfl)]
                    exact hlk i (by omega)
                · intro i hi
                  rw [upd_other _ _ (by intro e'; cases e'; omega)]
                  exact hold i (by omega)
              · rintro z' ⟨t', c'⟩
                exact ⟨_, Chng.trans c1.clean cz c'⟩
            have hP0 : P 0 s₁ := ⟨os, Chng.refl hmem c1.clean, fun j hj => absurd hj (Nat.not_lt_zero j),
              fun j _ => hos' j⟩
            have hclose : ∀ {ts' : Loc N → Tree A V} {z : NSt N A R V},
                Chng tr.res K (Members d K) os ts' s₁ z →
                Chng tr.res K (· = l₁) ts (upd ts l₁ (.node d c w (fun k => ts' (.field d k)))) s z := by
              intro ts' z cz
              have cz' : Chng tr.res K (Opened (· = l₁) l₁ d K) os ts' s₁ z := cz.dset (fun l => by
                constructor
                · rintro (⟨h1, h2⟩ | h)
                  · exact absurd h1 h2
                  · exact h
                · intro h; exact Or.inr h)
              rw [← hos] at cz'
              have cc := Chng.close c1.post rfl (upd_same _ _ _) cz'
              refine Chng.trans hc c1 (cc.eqOn (fun _ _ => rfl) (fun l e => ?_))
              cases e
              rw [upd_same, upd_same]
            refine (each_rule hstep hP0).mono ?_ ?_ id
            · rintro _ z ⟨ts', cz, hlk, _⟩
              exact ⟨_, hclose cz, w, _, rfl, d, c, w, _, rfl, Or.inr ⟨u, _, hca⟩, hlk⟩
            · rintro z ⟨ts', cz⟩
              exact ⟨.node d c w _, (by simp), hclose cz⟩
        refine Post.bind (hasgn.mono (fun _ _ h => h)
          (fun s' ⟨t', h1, h2⟩ => ⟨t', h1, h2, fun h => absurd hip h⟩) id) ?_
        rintro _ s' ⟨t', ct, w, js', rfl, hlike⟩
        cases hpo : tr.pocca with
        | false =>
          simp only [Bool.false_eq_true, if_false]
          exact ⟨rfl, _, ct, hlike, rfl, fun _ _ _ _ _ e => by cases e; exact ⟨_, _, _, rfl⟩, fun h => absurd hip h⟩
        | true =>
          simp only [if_true]
          have h2' : s'.hs l₂ = some ⟨some q, b⟩ := by rw [Chng.other_hs hf hne ct]; exact h2l
          have hl' := ct.post.holds l₁ rfl
          rw [upd_same] at hl'
          rw [M.bind_ok (getH_some h2'), M.bind_ok (setAlloc_some hl'.1 b)]
          have ct2 := Chng.touch (b := b) (w := w) ct.post ct.clean (upd_same _ _ _) hres
          rw [upd_upd] at ct2
          refine ⟨rfl, .node d b w js', Chng.trans hc ct (ct2.congr rfl rfl ?_ rfl), ?_, rfl,
            fun _ _ _ _ _ e => by cases e; exact ⟨_, _, _, rfl⟩, fun h => absurd hip h⟩
          · show s'.heap = upd s'.heap d _
            exact (upd_id _ _ _ hl'.2.1).symm
          · obtain ⟨p', a', w', ks', e, h3, h4⟩ := hlike
            cases e
            exact ⟨_, _, _, _, rfl, h3, h4⟩
    · -- replacement
      have hip : ¬ InPlace tr T t₁ (.node q b v ks) := by
        cases t₁ with
        | absent => exact id
        | hollow c => exact id
        | node d c u js =>
          rintro ⟨h3, h4⟩
          have h1l : s.hs l₁ = some ⟨some d, c⟩ := h1.1
          rw [h1l] at hx; cases hx
          exact hasg (by simp [h3, h4])
      simp only [hasg, Bool.false_eq_true, if_false]
      rw [M.bind_ok (deref_eq h2l)]
      rw [hxa]
      have hb := build_spec tr T (.node q b v ks) n hn₂ (if tr.pocca then b else t₁.allocOr a) s _ q b v ks rfl
        h2 hc
      refine Post.bind (hb.mono (fun _ _ h => h) ?_ id) ?_
      · rintro s' ⟨e1, e2⟩
        refine ⟨t₁, hn1, ?_, fun _ => rfl⟩
        rw [upd_eq ht₁]
        exact (Chng.refl hf1 hc).congr rfl rfl e1 e2
      · rintro p s₁ ⟨t', hn, hcp⟩
        have hf₁ := hn.keeps_forest hf
        obtain ⟨s₂, hr, c2, _⟩ := reset_spec tr T t₁ n hn₁ l₁ ts s₁ a ht₁ hn1
          (hf₁.one (Or.inl rfl : l₁ = l₁ ∨ l₁ = l₂)) hn.clean
        rw [M.bind_ok hr]
        have hl := c2.post.holds l₁ rfl
        rw [upd_same] at hl
        have hl : s₂.hs l₁ = some ⟨none, t₁.allocOr a⟩ := hl
        rw [M.bind_ok (setP_some hl (some p))]
        have hlike : (Tree.node q b v ks).Like (Given T) K t' := hcp.like (fun _ _ h => Or.inl h)
        have hal : t'.allocOr a = if tr.pocca then b else t₁.allocOr a := hcp.allocOr hn2
        cases hpo : tr.pocca with
        | false =>
          simp only [Bool.false_eq_true, if_false]
          rw [hpo] at hn hal
          exact ⟨rfl, t', hn.replace hf1 c2 hkK, hlike, hal, fun h => absurd h hip, fun _ =>
            ⟨by rw [hal]; rw [hpo] at hcp; exact hcp, hn.fresh⟩⟩
        | true =>
          simp only [if_true]
          rw [hpo] at hn hal
          have h2' : s₂.hs l₂ = some ⟨some q, b⟩ := by
            rw [Chng.other_hs hf₁ hne c2, hn.hs l₂ ?_]
            · exact h2l
            · intro p' k e hm
              exact hf.base p' k (Or.inr e.symm) (hn.fresh p' hm)
          have h2'' : (upd s₂.hs l₁ (some ⟨some p, t₁.allocOr a⟩)) l₂ = some ⟨some q, b⟩ := by
            rw [upd_other _ _ (Ne.symm hne)]; exact h2'
          rw [M.bind_ok (getH_some h2''), M.bind_ok (setAlloc_some (h := ⟨some p, t₁.allocOr a⟩) (upd_same _ _ _) b)]
          refine ⟨rfl, t', ?_, hlike, hal, fun h => absurd h hip, fun _ =>
            ⟨by rw [hal]; rw [hpo] at hcp; exact hcp, hn.fresh⟩⟩
          have := hn.replace hf1 c2 hkK
          refine this.congr rfl rfl rfl ?_
          show upd (upd s₂.hs l₁ _) l₁ _ = _
          rw [upd_upd]; rfl

end
end Verif.Node
