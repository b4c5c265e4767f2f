import Verif.Spec.Tree
import Verif.Proofs.Basic

set_option autoImplicit false
set_option linter.unusedSectionVars false
set_option linter.unusedSimpArgs false

/-! Forests of trees held by a state, and changes of forests. -/

namespace Verif

theorem le_maxBelow (f : Nat → Nat) : ∀ (K k : Nat), k < K → f k ≤ maxBelow f K
  | 0, _, h => absurd h (Nat.not_lt_zero _)
  | K + 1, k, h => by
    unfold maxBelow
    by_cases hk : k < K
    · exact Nat.le_trans (le_maxBelow f K k hk) (Nat.le_max_left _ _)
    · have : k = K := by omega
      subst this; exact Nat.le_max_right _ _

theorem Tree.height_kid {A V : Type} {K n : Nat} {p : Addr} {a : A} {v : V} {ks : Nat → Tree A V}
    (h : (Tree.node p a v ks).height K ≤ n) : ∃ m, n = m + 1 ∧ ∀ k, k < K → (ks k).height K ≤ m := by
  unfold Tree.height at h
  cases n with
  | zero => omega
  | succ m =>
    refine ⟨m, rfl, fun k hk => ?_⟩
    have := le_maxBelow (fun k => (ks k).height K) K k hk
    omega

namespace Node
open Verif

section
variable {N A R V X : Type} [DecidableEq N] [DecidableEq R]
variable {res : A → R} {K : Nat}

theorem Holds.alloc {s : NSt N A R V} : ∀ {t : Tree A V} {o : Option (Handle A)} {q : Addr},
    Holds res K s o t → t.Mem K q → s.heap q ≠ none := by
  intro t
  induction t with
  | absent => intro o q _ hm; exact hm.elim
  | hollow a => intro o q _ hm; exact hm.elim
  | node p a v ks ih =>
    intro o q h hm
    obtain ⟨_, hp, hk⟩ := h
    rcases hm with rfl | ⟨k, hkK, hm⟩
    · rw [hp]; simp
    · exact ih k (hk k hkK) hm

/-- What a tree's holding depends on. -/
theorem Holds.frame {s s' : NSt N A R V} : ∀ {t : Tree A V} {o : Option (Handle A)},
    Holds res K s o t → (∀ q, t.Mem K q → s'.heap q = s.heap q) →
    (∀ q k, t.Mem K q → s'.hs (.field q k) = s.hs (.field q k)) → Holds res K s' o t := by
  intro t
  induction t with
  | absent => intro o h _ _; exact h
  | hollow a => intro o h _ _; exact h
  | node p a v ks ih =>
    intro o h hh hf
    obtain ⟨ho, hp, hk⟩ := h
    refine ⟨ho, ?_, fun k hkK => ?_⟩
    · rw [hh p (Or.inl rfl)]; exact hp
    · rw [hf p k (Or.inl rfl)]
      exact ih k (hk k hkK) (fun q hq => hh q (Or.inr ⟨k, hkK, hq⟩))
        (fun q j hq => hf q j (Or.inr ⟨k, hkK, hq⟩))

theorem Holds.congr {s s' : NSt N A R V} {t : Tree A V} {o : Option (Handle A)}
    (h : Holds res K s o t) (hh : s'.heap = s.heap) (hs : s'.hs = s.hs) : Holds res K s' o t :=
  h.frame (fun q _ => by rw [hh]) (fun q k _ => by rw [hs])

theorem Holds.engagedAt {s : NSt N A R V} {t : Tree A V} {o : Option (Handle A)}
    (h : Holds res K s o t) (ht : t ≠ .absent) : ∃ x, o = some x := by
  cases t with
  | absent => exact absurd rfl ht
  | hollow a => exact ⟨_, h⟩
  | node p a v ks => exact ⟨_, h.1⟩

theorem Holds.isSome {s : NSt N A R V} {t : Tree A V} {o : Option (Handle A)}
    (h : Holds res K s o t) (ht : t ≠ .absent) : o.isSome = true := by
  obtain ⟨x, rfl⟩ := h.engagedAt ht; rfl

/-- The places in `D` hold separate trees `ts`. -/
structure Forest (res : A → R) (K : Nat) (D : Loc N → Prop) (ts : Loc N → Tree A V)
    (s : NSt N A R V) : Prop where
  holds : ∀ l, D l → Holds res K s (s.hs l) (ts l)
  sep : ∀ l, D l → (ts l).Sep K
  disj : ∀ l l', D l → D l' → l ≠ l' → ∀ q, (ts l).Mem K q → ¬ (ts l').Mem K q
  out : ∀ p k l, D (.field p k) → D l → ¬ (ts l).Mem K p
  base : ∀ p k, D (.field p k) → s.heap p ≠ none

/-- From `s` to `s'` the places in `D` changed their trees from `ts` to `ts'`; blocks of the new trees are
blocks of the old ones or fresh, blocks that are no longer used are free, and nothing else changed. -/
structure Chng (res : A → R) (K : Nat) (D : Loc N → Prop) (ts ts' : Loc N → Tree A V)
    (s s' : NSt N A R V) : Prop where
  post : Forest res K D ts' s'
  src : ∀ l q, D l → (ts' l).Mem K q → (∃ l', D l' ∧ (ts l').Mem K q) ∨ s.heap q = none
  freed : ∀ l q, D l → (ts l).Mem K q → (∃ l', D l' ∧ (ts' l').Mem K q) ∨ s'.heap q = none
  heap : ∀ q, (∀ l, D l → ¬ (ts l).Mem K q) → (∀ l, D l → ¬ (ts' l).Mem K q) → s'.heap q = s.heap q
  hs : ∀ l, ¬ D l → (∀ p k, l = .field p k → ∀ l', D l' → ¬ (ts l').Mem K p ∧ ¬ (ts' l').Mem K p) →
    s'.hs l = s.hs l
  clean : Clean K s'

theorem Forest.congr {D : Loc N → Prop} {ts : Loc N → Tree A V} {s s' : NSt N A R V}
    (h : Forest res K D ts s) (hh : s'.heap = s.heap) (hs : s'.hs = s.hs) : Forest res K D ts s' where
  holds l hl := by rw [hs]; exact (h.holds l hl).congr hh hs
  sep := h.sep
  disj := h.disj
  out := h.out
  base p k hd := by rw [hh]; exact h.base p k hd

theorem Clean.congr {s s' : NSt N A R V} (h : Clean K s) (hh : s'.heap = s.heap) (hs : s'.hs = s.hs) :
    Clean K s' := by
  intro p k; rw [hh, hs]; exact h p k

theorem Chng.congr {D : Loc N → Prop} {ts ts' : Loc N → Tree A V} {s s' z z' : NSt N A R V}
    (h : Chng res K D ts ts' s s') (hh : z.heap = s.heap) (hs : z.hs = s.hs)
    (hh' : z'.heap = s'.heap) (hs' : z'.hs = s'.hs) : Chng res K D ts ts' z z' where
  post := h.post.congr hh' hs'
  src l q hd hm := by rw [hh]; exact h.src l q hd hm
  freed l q hd hm := by rw [hh']; exact h.freed l q hd hm
  heap q h1 h2 := by rw [hh, hh']; exact h.heap q h1 h2
  hs l h1 h2 := by rw [hs, hs']; exact h.hs l h1 h2
  clean := h.clean.congr hh' hs'

theorem Chng.refl {D : Loc N → Prop} {ts : Loc N → Tree A V} {s : NSt N A R V}
    (h : Forest res K D ts s) (hc : Clean K s) : Chng res K D ts ts s s where
  post := h
  src l _ hd hm := Or.inl ⟨l, hd, hm⟩
  freed l _ hd hm := Or.inl ⟨l, hd, hm⟩
  heap _ _ _ := rfl
  hs _ _ _ := rfl
  clean := hc

theorem Chng.trans {D : Loc N → Prop} {ts ts' ts'' : Loc N → Tree A V} {s s' s'' : NSt N A R V}
    (hc : Clean K s) (h : Chng res K D ts ts' s s') (h' : Chng res K D ts' ts'' s' s'') :
    Chng res K D ts ts'' s s'' where
  post := h'.post
  src l q hd hm := by
    rcases h'.src l q hd hm with ⟨l', hd', hm'⟩ | hn
    · exact h.src l' q hd' hm'
    · by_cases hx : ∃ l', D l' ∧ (ts l').Mem K q
      · exact Or.inl hx
      · right
        have hx' : ∀ l', D l' → ¬ (ts' l').Mem K q :=
          fun l' hd' hm' => (h.post.holds l' hd').alloc hm' hn
        rw [← h.heap q (fun l' hd' hm' => hx ⟨l', hd', hm'⟩) hx']; exact hn
  freed l q hd hm := by
    by_cases hx : ∃ l', D l' ∧ (ts'' l').Mem K q
    · exact Or.inl hx
    · right
      rcases h.freed l q hd hm with ⟨l', hd', hm'⟩ | hn
      · exact (h'.freed l' q hd' hm').resolve_left hx
      · rw [h'.heap q (fun l' hd' hm' => (h.post.holds l' hd').alloc hm' hn)
          (fun l' hd' hm' => hx ⟨l', hd', hm'⟩)]
        exact hn
  heap q h1 h2 := by
    by_cases hx : ∃ l', D l' ∧ (ts' l').Mem K q
    · obtain ⟨l', hd', hm'⟩ := hx
      have e1 : s.heap q = none := (h.src l' q hd' hm').resolve_left (fun ⟨x, hx, hy⟩ => h1 x hx hy)
      have e2 : s''.heap q = none := (h'.freed l' q hd' hm').resolve_left (fun ⟨x, hx, hy⟩ => h2 x hx hy)
      rw [e1, e2]
    · have hx' : ∀ l', D l' → ¬ (ts' l').Mem K q := fun l' hd' hm' => hx ⟨l', hd', hm'⟩
      rw [h'.heap q hx' h2, h.heap q h1 hx']
  hs l hd ho := by
    cases l with
    | var x => rw [h'.hs _ hd (fun p k he => nomatch he), h.hs _ hd (fun p k he => nomatch he)]
    | field p k =>
      have h1 : ∀ l', D l' → ¬ (ts l').Mem K p := fun l' hd' => (ho p k rfl l' hd').1
      have h2 : ∀ l', D l' → ¬ (ts'' l').Mem K p := fun l' hd' => (ho p k rfl l' hd').2
      by_cases hx : ∃ l', D l' ∧ (ts' l').Mem K p
      · obtain ⟨l', hd', hm'⟩ := hx
        have e1 : s.heap p = none := (h.src l' p hd' hm').resolve_left (fun ⟨x, hx, hy⟩ => h1 x hx hy)
        have e2 : s''.heap p = none :=
          (h'.freed l' p hd' hm').resolve_left (fun ⟨x, hx, hy⟩ => h2 x hx hy)
        rw [hc p k (Or.inl e1), h'.clean p k (Or.inl e2)]
      · have hx' : ∀ l', D l' → ¬ (ts' l').Mem K p := fun l' hd' hm' => hx ⟨l', hd', hm'⟩
        rw [h'.hs _ hd (fun p' k' he l' hd' => by cases he; exact ⟨hx' l' hd', h2 l' hd'⟩),
          h.hs _ hd (fun p' k' he l' hd' => by cases he; exact ⟨h1 l' hd', hx' l' hd'⟩)]
  clean := h'.clean

/-- A tree apart from the changing forest is still held. -/
theorem Chng.keeps {D : Loc N → Prop} {ts ts' : Loc N → Tree A V} {s s' : NSt N A R V}
    (h : Chng res K D ts ts' s s') {t : Tree A V} {o : Option (Handle A)} (ht : Holds res K s o t)
    (hd : ∀ l q, D l → t.Mem K q → ¬ (ts l).Mem K q)
    (ho : ∀ p k, D (.field p k) → ¬ t.Mem K p) : Holds res K s' o t := by
  have hn : ∀ l q, D l → t.Mem K q → ¬ (ts' l).Mem K q := by
    intro l q hl hm hm'
    rcases h.src l q hl hm' with ⟨l', hl', hm''⟩ | hn
    · exact hd l' q hl' hm hm''
    · exact ht.alloc hm hn
  refine ht.frame (fun q hm => h.heap q (fun l hl => hd l q hl hm) (fun l hl => hn l q hl hm)) ?_
  intro q k hm
  refine h.hs _ (fun hD => ho q k hD hm) ?_
  intro p k' he l' hl'
  cases he
  exact ⟨hd l' q hl' hm, hn l' q hl' hm⟩

/-- An object apart from the changing forest keeps its data members. -/
theorem Chng.keeps_hs {D : Loc N → Prop} {ts ts' : Loc N → Tree A V} {s s' : NSt N A R V}
    (h : Chng res K D ts ts' s s') {l : Loc N} (hl : ¬ D l)
    (ho : ∀ p k, l = .field p k → s.heap p ≠ none ∧ ∀ l', D l' → ¬ (ts l').Mem K p) :
    s'.hs l = s.hs l := by
  refine h.hs l hl ?_
  intro p k he l' hl'
  obtain ⟨h1, h2⟩ := ho p k he
  refine ⟨h2 l' hl', fun hm => ?_⟩
  rcases h.src l' p hl' hm with ⟨l'', hl'', hm''⟩ | hn
  · exact h2 l'' hl'' hm''
  · exact h1 hn

/-- A block apart from the changing forest keeps its contents. -/
theorem Chng.keeps_heap {D : Loc N → Prop} {ts ts' : Loc N → Tree A V} {s s' : NSt N A R V}
    (h : Chng res K D ts ts' s s') {q : Addr} (hq : s.heap q ≠ none)
    (ho : ∀ l', D l' → ¬ (ts l').Mem K q) : s'.heap q = s.heap q := by
  refine h.heap q ho (fun l' hl' hm => ?_)
  rcases h.src l' q hl' hm with ⟨l'', hl'', hm''⟩ | hn
  · exact ho l'' hl'' hm''
  · exact hq hn

/-- A change of part of a forest is a change of the forest. -/
theorem Chng.extend {D D₁ : Loc N → Prop} {ts ts' : Loc N → Tree A V} {s s' : NSt N A R V}
    (hf : Forest res K D ts s) (h : Chng res K D₁ ts ts' s s') (hsub : ∀ l, D₁ l → D l)
    (he : ∀ l, D l → ¬ D₁ l → ts' l = ts l) : Chng res K D ts ts' s s' := by
  have hnew : ∀ l q, D₁ l → (ts' l).Mem K q → s.heap q ≠ none → ∃ l', D₁ l' ∧ (ts l').Mem K q :=
    fun l q hl hm hn => (h.src l q hl hm).resolve_right hn
  have hk : ∀ l, D l → ¬ D₁ l → Holds res K s' (s'.hs l) (ts l) := by
    intro l hl hl₁
    rw [h.keeps_hs hl₁ (fun p k e => by
      subst e; exact ⟨hf.base p k hl, fun l' hl' => hf.out p k l' hl (hsub _ hl')⟩)]
    refine h.keeps (hf.holds l hl) (fun l' q hl' hm => ?_) (fun p k hd => hf.out p k l (hsub _ hd) hl)
    exact hf.disj l l' hl (hsub _ hl') (fun e => hl₁ (e ▸ hl')) q hm
  -- blocks of the new trees of `D₁` are apart from the others
  have hap : ∀ l l' q, D₁ l → D l' → ¬ D₁ l' → (ts' l).Mem K q → ¬ (ts l').Mem K q := by
    intro l l' q hl hl' hl₁ hm hm'
    obtain ⟨l'', hl'', hm''⟩ := hnew l q hl hm ((hf.holds l' hl').alloc hm')
    exact hf.disj l'' l' (hsub _ hl'') hl' (fun e => hl₁ (e ▸ hl'')) q hm'' hm'
  have hall : ∀ l q, D l → (ts' l).Mem K q → (∃ l', D l' ∧ (ts l').Mem K q) ∨ s.heap q = none := by
    intro l q hl hm
    by_cases hl₁ : D₁ l
    · rcases h.src l q hl₁ hm with ⟨l', hl', hm'⟩ | hn
      · exact Or.inl ⟨l', hsub _ hl', hm'⟩
      · exact Or.inr hn
    · rw [he l hl hl₁] at hm; exact Or.inl ⟨l, hl, hm⟩
  exact
    { post :=
        { holds := fun l hl => by
            by_cases hl₁ : D₁ l
            · exact h.post.holds l hl₁
            · rw [he l hl hl₁]; exact hk l hl hl₁
          sep := fun l hl => by
            by_cases hl₁ : D₁ l
            · exact h.post.sep l hl₁
            · rw [he l hl hl₁]; exact hf.sep l hl
          disj := fun l l' hl hl' hne q hm hm' => by
            by_cases hl₁ : D₁ l <;> by_cases hl₁' : D₁ l'
            · exact h.post.disj l l' hl₁ hl₁' hne q hm hm'
            · rw [he l' hl' hl₁'] at hm'; exact hap l l' q hl₁ hl' hl₁' hm hm'
            · rw [he l hl hl₁] at hm; exact hap l' l q hl₁' hl hl₁ hm' hm
            · rw [he l hl hl₁] at hm; rw [he l' hl' hl₁'] at hm'
              exact hf.disj l l' hl hl' hne q hm hm'
          out := fun p k l hd hl hm => by
            rcases hall l p hl hm with ⟨l', hl', hm'⟩ | hn
            · exact hf.out p k l' hd hl' hm'
            · exact hf.base p k hd hn
          base := fun p k hd => by
            by_cases hd₁ : D₁ (.field p k)
            · exact h.post.base p k hd₁
            · rw [h.keeps_heap (hf.base p k hd) (fun l' hl' => hf.out p k l' hd (hsub _ hl'))]
              exact hf.base p k hd }
      src := hall
      freed := fun l q hl hm => by
        by_cases hl₁ : D₁ l
        · rcases h.freed l q hl₁ hm with ⟨l', hl', hm'⟩ | hn
          · exact Or.inl ⟨l', hsub _ hl', hm'⟩
          · exact Or.inr hn
        · exact Or.inl ⟨l, hl, by rw [he l hl hl₁]; exact hm⟩
      heap := fun q h1 h2 => h.heap q (fun l hl => h1 l (hsub _ hl)) (fun l hl => h2 l (hsub _ hl))
      hs := fun l hd ho => h.hs l (fun hd₁ => hd (hsub _ hd₁))
        (fun p k e l' hl' => ho p k e l' (hsub _ hl'))
      clean := h.clean }

/-- Trees of the places one level below the node at `p`. -/
def opened (ts : Loc N → Tree A V) (p : Addr) (ks : Nat → Tree A V) : Loc N → Tree A V
  | .field q k => if q = p then ks k else ts (.field q k)
  | .var x => ts (.var x)

/-- The places of `D` with `l` replaced by the members of the node at `p`. -/
def Opened (D : Loc N → Prop) (l : Loc N) (p : Addr) (K : Nat) (l' : Loc N) : Prop :=
  (D l' ∧ l' ≠ l) ∨ ∃ k, k < K ∧ l' = .field p k

theorem opened_member (ts : Loc N → Tree A V) (p : Addr) (ks : Nat → Tree A V) (k : Nat) :
    opened ts p ks (.field p k) = ks k := by simp [opened]

theorem opened_other (ts : Loc N → Tree A V) (p : Addr) (ks : Nat → Tree A V) {l : Loc N}
    (h : ∀ k, l ≠ .field p k) : opened ts p ks l = ts l := by
  cases l with
  | var x => rfl
  | field q k =>
    have : q ≠ p := fun e => h k (by rw [e])
    simp [opened, this]

theorem Forest.member_not {D : Loc N → Prop} {ts : Loc N → Tree A V} {s : NSt N A R V} {l : Loc N}
    {p : Addr} {a : A} {v : V} {ks : Nat → Tree A V} (hf : Forest res K D ts s) (hl : D l)
    (ht : ts l = .node p a v ks) (k : Nat) : ¬ D (.field p k) := by
  intro hd
  exact hf.out p k l hd hl (by rw [ht]; exact Or.inl rfl)

theorem Forest.open {D : Loc N → Prop} {ts : Loc N → Tree A V} {s : NSt N A R V} {l : Loc N} {p : Addr}
    {a : A} {v : V} {ks : Nat → Tree A V} (hf : Forest res K D ts s) (hl : D l)
    (ht : ts l = .node p a v ks) :
    Forest res K (Opened D l p K) (opened ts p ks) s := by
  have hnot := hf.member_not hl ht
  have hh := hf.holds l hl
  have hsp := hf.sep l hl
  rw [ht] at hh hsp
  obtain ⟨_, hp, hkids⟩ := hh
  obtain ⟨hs1, hs2, hs3⟩ := hsp
  have hoth : ∀ l', D l' → opened ts p ks l' = ts l' :=
    fun l' hl' => opened_other ts p ks (fun k e => hnot k (e ▸ hl'))
  have hin : ∀ k q, k < K → (ks k).Mem K q → (ts l).Mem K q := fun k q hk hm => by
    rw [ht]; exact Or.inr ⟨k, hk, hm⟩
  exact
    { holds := by
        rintro l' (⟨hl', _⟩ | ⟨k, hk, rfl⟩)
        · rw [hoth l' hl']; exact hf.holds l' hl'
        · rw [opened_member]; exact hkids k hk
      sep := by
        rintro l' (⟨hl', _⟩ | ⟨k, hk, rfl⟩)
        · rw [hoth l' hl']; exact hf.sep l' hl'
        · rw [opened_member]; exact hs3 k hk
      disj := by
        rintro l₁ l₂ (⟨h1, n1⟩ | ⟨k, hk, rfl⟩) (⟨h2, n2⟩ | ⟨j, hj, rfl⟩) hne q
        · rw [hoth _ h1, hoth _ h2]; exact hf.disj _ _ h1 h2 hne q
        · rw [hoth _ h1, opened_member]
          intro hm hm'
          exact hf.disj _ _ h1 hl n1 q hm (hin j q hj hm')
        · rw [hoth _ h2, opened_member]
          intro hm hm'
          exact hf.disj _ _ h2 hl n2 q hm' (hin k q hk hm)
        · rw [opened_member, opened_member]
          exact hs2 k j hk hj (fun e => hne (by rw [e])) q
      out := by
        rintro p' k' l' (⟨h1, n1⟩ | ⟨k, hk, he⟩) (⟨h2, n2⟩ | ⟨j, hj, rfl⟩)
        · rw [hoth _ h2]; exact hf.out _ _ _ h1 h2
        · rw [opened_member]
          exact fun hm => hf.out _ _ _ h1 hl (hin j _ hj hm)
        · cases he
          rw [hoth _ h2]
          exact fun hm => hf.disj _ _ h2 hl n2 _ hm (by rw [ht]; exact Or.inl rfl)
        · cases he
          rw [opened_member]; exact hs1 j hj
      base := by
        rintro p' k' (⟨h1, _⟩ | ⟨k, hk, he⟩)
        · exact hf.base _ _ h1
        · cases he; rw [hp]; simp }

/-- A change below the node at `p` is a change of the tree with that node. -/
theorem Chng.close {D : Loc N → Prop} {ts ts' : Loc N → Tree A V} {s s' : NSt N A R V} {l : Loc N}
    {p : Addr} {a : A} {v : V} {ks : Nat → Tree A V} (hf : Forest res K D ts s) (hl : D l)
    (ht : ts l = .node p a v ks)
    (h : Chng res K (Opened D l p K) (opened ts p ks) ts' s s') :
    Chng res K D ts (upd ts' l (.node p a v (fun k => ts' (.field p k)))) s s' := by
  have hnot := hf.member_not hl ht
  have hfo := hf.open hl ht
  have hh := hf.holds l hl
  rw [ht] at hh
  obtain ⟨hhl, hp, hkids⟩ := hh
  have hsp := hf.sep l hl
  rw [ht] at hsp
  have hoth : ∀ l', D l' → opened ts p ks l' = ts l' :=
    fun l' hl' => opened_other ts p ks (fun k e => hnot k (e ▸ hl'))
  have hpin : (ts l).Mem K p := by rw [ht]; exact Or.inl rfl
  -- the block `p` itself
  have hpold : ∀ l', Opened D l p K l' → ¬ (opened ts p ks l').Mem K p := by
    rintro l' (⟨h2, n2⟩ | ⟨k, hk, rfl⟩)
    · rw [hoth _ h2]; exact fun hm => hf.disj _ _ h2 hl n2 p hm hpin
    · rw [opened_member]; exact hsp.1 k hk
  have hpne : s.heap p ≠ none := by rw [hp]; simp
  have hp' : s'.heap p = s.heap p := h.keeps_heap hpne hpold
  have hpnew : ∀ l', Opened D l p K l' → ¬ (ts' l').Mem K p := by
    intro l' hl' hm
    rcases h.src l' p hl' hm with ⟨l'', h1, h2⟩ | hn
    · exact hpold l'' h1 h2
    · exact hpne hn
  have hlo : ¬ Opened D l p K l := by
    rintro (⟨_, n⟩ | ⟨k, _, rfl⟩)
    · exact n rfl
    · exact hnot k hl
  have hl' : s'.hs l = s.hs l := by
    refine h.keeps_hs hlo ?_
    intro p' k' e
    subst e
    refine ⟨hf.base _ _ hl, ?_⟩
    rintro l' (⟨h2, n2⟩ | ⟨k, hk, rfl⟩)
    · rw [hoth _ h2]; exact hf.out _ _ _ hl h2
    · rw [opened_member]
      exact fun hm => hf.out _ _ _ hl hl (by rw [ht]; exact Or.inr ⟨k, hk, hm⟩)
  -- correspondence between blocks of the opened and the closed forests
  have toD : ∀ q, (∃ l', Opened D l p K l' ∧ (opened ts p ks l').Mem K q) → ∃ l', D l' ∧ (ts l').Mem K q := by
    rintro q ⟨l', (⟨h2, n2⟩ | ⟨k, hk, rfl⟩), hm⟩
    · exact ⟨l', h2, by rw [hoth _ h2] at hm; exact hm⟩
    · exact ⟨l, hl, by rw [opened_member] at hm; rw [ht]; exact Or.inr ⟨k, hk, hm⟩⟩
  have toD' : ∀ q, (∃ l', Opened D l p K l' ∧ (ts' l').Mem K q) →
      ∃ l', D l' ∧ (upd ts' l (.node p a v (fun k => ts' (.field p k))) l').Mem K q := by
    rintro q ⟨l', (⟨h2, n2⟩ | ⟨k, hk, rfl⟩), hm⟩
    · exact ⟨l', h2, by rw [upd_other _ _ n2]; exact hm⟩
    · exact ⟨l, hl, by rw [upd_same]; exact Or.inr ⟨k, hk, hm⟩⟩
  have ofD' : ∀ l' q, D l' → (upd ts' l (.node p a v (fun k => ts' (.field p k))) l').Mem K q →
      q = p ∨ ∃ l'', Opened D l p K l'' ∧ (ts' l'').Mem K q := by
    intro l' q hd hm
    by_cases e : l' = l
    · subst e
      rw [upd_same] at hm
      rcases hm with rfl | ⟨k, hk, hm⟩
      · exact Or.inl rfl
      · exact Or.inr ⟨_, Or.inr ⟨k, hk, rfl⟩, hm⟩
    · rw [upd_other _ _ e] at hm
      exact Or.inr ⟨l', Or.inl ⟨hd, e⟩, hm⟩
  have hsrc : ∀ l' q, D l' → (upd ts' l (.node p a v (fun k => ts' (.field p k))) l').Mem K q →
      (∃ l'', D l'' ∧ (ts l'').Mem K q) ∨ s.heap q = none := by
    intro l' q hd hm
    rcases ofD' l' q hd hm with rfl | ⟨l'', hd'', hm''⟩
    · exact Or.inl ⟨l, hl, hpin⟩
    · rcases h.src l'' q hd'' hm'' with hx | hn
      · exact Or.inl (toD q hx)
      · exact Or.inr hn
  exact
    { post :=
        { holds := fun l' hd => by
            by_cases e : l' = l
            · subst e
              rw [upd_same]
              refine ⟨by rw [hl']; exact hhl, by rw [hp']; exact hp, fun k hk => ?_⟩
              exact h.post.holds _ (Or.inr ⟨k, hk, rfl⟩)
            · rw [upd_other _ _ e]; exact h.post.holds _ (Or.inl ⟨hd, e⟩)
          sep := fun l' hd => by
            by_cases e : l' = l
            · subst e
              rw [upd_same]
              refine ⟨fun k hk => hpnew _ (Or.inr ⟨k, hk, rfl⟩), fun i j hi hj hne q => ?_,
                fun k hk => h.post.sep _ (Or.inr ⟨k, hk, rfl⟩)⟩
              exact h.post.disj _ _ (Or.inr ⟨i, hi, rfl⟩) (Or.inr ⟨j, hj, rfl⟩)
                (fun e => hne (by cases e; rfl)) q
            · rw [upd_other _ _ e]; exact h.post.sep _ (Or.inl ⟨hd, e⟩)
          disj := fun l₁ l₂ h1 h2 hne q => by
            by_cases e1 : l₁ = l
            · subst e1
              have e2 : l₂ ≠ l₁ := fun e => hne e.symm
              rw [upd_same, upd_other _ _ e2]
              rintro (rfl | ⟨k, hk, hm⟩) hm'
              · exact hpnew _ (Or.inl ⟨h2, e2⟩) hm'
              · exact h.post.disj _ _ (Or.inr ⟨k, hk, rfl⟩) (Or.inl ⟨h2, e2⟩)
                  (fun e => hnot k (e ▸ h2)) q hm hm'
            · by_cases e2 : l₂ = l
              · subst e2
                rw [upd_same, upd_other _ _ e1]
                rintro hm (rfl | ⟨k, hk, hm'⟩)
                · exact hpnew _ (Or.inl ⟨h1, e1⟩) hm
                · exact h.post.disj _ _ (Or.inl ⟨h1, e1⟩) (Or.inr ⟨k, hk, rfl⟩)
                    (fun e => hnot k (e ▸ h1)) q hm hm'
              · rw [upd_other _ _ e1, upd_other _ _ e2]
                exact h.post.disj _ _ (Or.inl ⟨h1, e1⟩) (Or.inl ⟨h2, e2⟩) hne q
          out := fun p' k' l' hd hd' hm => by
            rcases hsrc l' p' hd' hm with ⟨l'', h1, h2⟩ | hn
            · exact hf.out _ _ _ hd h1 h2
            · exact hf.base _ _ hd hn
          base := fun p' k' hd => by
            by_cases e : Loc.field p' k' = l
            · subst e
              rw [h.keeps_heap (hf.base _ _ hl) ?_]
              · exact hf.base _ _ hl
              · rintro l' (⟨h2, n2⟩ | ⟨k, hk, rfl⟩)
                · rw [hoth _ h2]; exact hf.out _ _ _ hl h2
                · rw [opened_member]
                  exact fun hm => hf.out _ _ _ hl hl (by rw [ht]; exact Or.inr ⟨k, hk, hm⟩)
            · exact h.post.base _ _ (Or.inl ⟨hd, e⟩) }
      src := hsrc
      freed := fun l' q hd hm => by
        have hcase : q = p ∨ ∃ l'', Opened D l p K l'' ∧ (opened ts p ks l'').Mem K q := by
          by_cases e : l' = l
          · subst e
            rw [ht] at hm
            rcases hm with rfl | ⟨k, hk, hm⟩
            · exact Or.inl rfl
            · exact Or.inr ⟨_, Or.inr ⟨k, hk, rfl⟩, by rw [opened_member]; exact hm⟩
          · exact Or.inr ⟨l', Or.inl ⟨hd, e⟩, by rw [hoth _ hd]; exact hm⟩
        rcases hcase with rfl | ⟨l'', h1, h2⟩
        · exact Or.inl ⟨l, hl, by rw [upd_same]; exact Or.inl rfl⟩
        · rcases h.freed l'' q h1 h2 with hx | hn
          · exact Or.inl (toD' q hx)
          · exact Or.inr hn
      heap := fun q h1 h2 => by
        refine h.heap q (fun l' hl' hm => ?_) (fun l' hl' hm => ?_)
        · obtain ⟨x, hx, hy⟩ := toD q ⟨l', hl', hm⟩; exact h1 x hx hy
        · obtain ⟨x, hx, hy⟩ := toD' q ⟨l', hl', hm⟩; exact h2 x hx hy
      hs := fun l' hd ho => by
        refine h.hs l' ?_ ?_
        · rintro (⟨h1, _⟩ | ⟨k, hk, rfl⟩)
          · exact hd h1
          · exact (ho p k rfl l hl).1 hpin
        · intro p' k' e l'' hl''
          refine ⟨fun hm => ?_, fun hm => ?_⟩
          · obtain ⟨x, hx, hy⟩ := toD p' ⟨l'', hl'', hm⟩; exact (ho p' k' e x hx).1 hy
          · obtain ⟨x, hx, hy⟩ := toD' p' ⟨l'', hl'', hm⟩; exact (ho p' k' e x hx).2 hy
      clean := h.clean }

end
end Node
end Verif
