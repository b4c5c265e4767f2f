import Verif.Proofs.Concurrent
import Verif.Spec.Synced

/-!
Threads that synchronise: every call has a part of the memory of its own while it runs, and the calls take effect when they end.
-/

set_option autoImplicit false
set_option linter.unusedSectionVars false
set_option linter.unusedSimpArgs false

namespace Verif.Conc
open Verif.Spec (Race nextAct touches readOnly Serial Conflict)
open Within (Allowed RespOk Any)

variable {Th L A R B V N Op : Type} [DecidableEq Th] [DecidableEq L] [DecidableEq R] [Body B]

/-- `s` is the memory of `a` and of `b` together; what both have are objects with their blocks. -/
structure Join (a b s : St L A R B) : Prop where
  hs : ∀ z h, s.hs z = some h ↔ a.hs z = some h ∨ b.hs z = some h
  heap : ∀ p k, s.heap p = some k ↔ a.heap p = some k ∨ b.heap p = some k
  meet : ∀ p k k', a.heap p = some k → b.heap p = some k' → ∃ z h, a.hs z = some h ∧ b.hs z = some h ∧ h.p = some p

/-- In addition to `VApi`: the invariant of memory that is put together, and that calls change only what they may. -/
structure LApi (L A R B V N Op : Type) [DecidableEq L] [DecidableEq R] [Body B] extends VApi L A R B V N Op where
  okJoin : ∀ a b s, Ok a → Ok b → Join a b s → Ok s
  frame : ∀ m n σ o z, z ∉ changes o → Indirect.FrameAt z σ (step m n σ o)

section
variable (api : LApi L A R B V N Op)

/-- The blocks of the objects that call `o`, begun in `u`, only reads. -/
def Gd (o : Op) (u : St L A R B) (p : Addr) : Prop :=
  ∃ z h, z ∈ api.operands o ∧ z ∉ api.changes o ∧ u.hs z = some h ∧ h.p = some p

/-- What call `o`, begun in `u`, may use and write. -/
def cframe (o : Op) (u : St L A R B) : Within.Frame L A R B where
  U z := z ∈ api.operands o
  W z := z ∈ api.changes o
  sub z h := api.chg o z h
  G := Gd api o u
  bp := api.bp

/-- A call that runs now may change object `z`. -/
def Wr (run : Th → Option Op) (z : L) : Prop := ∃ i o, run i = some o ∧ z ∈ api.changes o

/-- The memory is divided: `pv i` is what the call of thread `i` uses, `ρ` the objects that no call changes now. -/
structure Sep (run : Th → Option Op) (u : Th → St L A R B) (hs : L → Option (Handle A)) (heap : Addr → Option (Cell R B))
    (ρ : St L A R B) (pv : Th → St L A R B) : Prop where
  objs : ∀ i o z, run i = some o → z ∈ api.operands o → (pv i).hs z = hs z
  hsN : ∀ i o z, run i = some o → z ∉ api.operands o → (pv i).hs z = none
  kept : ∀ i o z, run i = some o → z ∈ api.operands o → z ∉ api.changes o → (u i).hs z = hs z
  blocks : ∀ i p k, (pv i).heap p = some k → heap p = some k
  idle : ∀ i p, run i = none → (pv i).heap p = none
  disj : ∀ i j o p k k', i ≠ j → run i = some o → (pv i).heap p = some k → (pv j).heap p = some k' → Gd api o (u i) p
  rest : ∀ z, ¬ Wr api run z → ρ.hs z = hs z
  restN : ∀ z, Wr api run z → ρ.hs z = none
  rblocks : ∀ p k, ρ.heap p = some k → heap p = some k
  rdisj : ∀ i o p k k', run i = some o → (pv i).heap p = some k → ρ.heap p = some k' → Gd api o (u i) p
  cover : ∀ p k, heap p = some k → ρ.heap p = some k ∨ ∃ i, (pv i).heap p = some k

/-- The call of a thread: it could be made without interruption, starting in `u`. -/
def CMid (r : Option Op) (t : Thread L A R B (Out L A V)) (σ : Spec.Boxes L A V) (u P : St L A R B) : Prop :=
  match r with
  | none => t.cur = none
  | some o => ∃ m e, t.cur = some m ∧ api.Ok u ∧ api.legal u o ∧ Within.Within (cframe api o u) Any m ∧
      Kept (cframe api o u) P ∧ P.ai = t.ai ∧ P.ti = t.ti ∧
      (∀ f, Agree e f t.ai t.ti → Prog.interp (api.prog o) (u.enter f) = Prog.interp m (at' P f)) ∧
      ∀ z ∈ api.operands o, api.abs u z = σ z

/-- The invariant. -/
structure Inv' (s : St L A R B) (c : Sys Th L A R B Op (Out L A V)) (ρ : St L A R B) (u pv : Th → St L A R B)
    (σ : Spec.Boxes L A V) : Prop where
  ok : api.Ok ρ
  sep : Sep api c.run u c.conf.hs c.conf.heap ρ pv
  apart : ∀ i j o o' z, i ≠ j → c.run i = some o → c.run j = some o' → z ∈ api.operands o → z ∉ api.changes o'
  mid : ∀ i, CMid api (c.run i) (c.conf.th i) σ (u i) (pv i)
  serial : Serial api.step (api.abs s) c.done σ
  vals : ∀ z, ¬ Wr api c.run z → api.abs ρ z = σ z

def Fit (s : St L A R B) (c : Sys Th L A R B Op (Out L A V)) : Prop := ∃ ρ u pv σ, Inv' api s c ρ u pv σ

/-- What is needed when a call begins. -/
def Ready (s : St L A R B) (c : Sys Th L A R B Op (Out L A V)) (i : Th) (o : Op) : Prop :=
  (∀ j o', c.run j = some o' → ¬ Conflict api.operands api.changes o o') ∧
  ∀ σ, Serial api.step (api.abs s) c.done σ → (∀ z ∈ api.operands o, api.abs (c.conf.view i) z = σ z) → api.vlegal σ o

def FitOut (s : St L A R B) : Outcome (Sys Th L A R B Op (Out L A V)) → Prop
  | .running c => Fit api s c
  | .terminated => ∃ (done : List (Ended Th Op (Out L A V))) (σ : Spec.Boxes L A V) (o : Op) (mem : Bool) (n : N),
      Serial api.step (api.abs s) done σ ∧ api.vlegal σ o ∧ api.step mem n σ o = .terminated
  | .ub _ => False

variable {api}

theorem part_hs {s : St L A R B} {U : L → Prop} {z : L} (h : U z) : (part s U).hs z = s.hs z := by simp [part, h]
theorem part_hsN {s : St L A R B} {U : L → Prop} {z : L} (h : ¬ U z) : (part s U).hs z = none := by simp [part, h]
theorem part_heap {s : St L A R B} {U : L → Prop} {p : Addr} {z : L} {h : Handle A} (hu : U z) (hz : s.hs z = some h)
    (hp : h.p = some p) : (part s U).heap p = s.heap p := by
  simp only [part]; rw [if_pos ⟨z, h, hu, hz, hp⟩]
theorem part_some {s : St L A R B} {U : L → Prop} {p : Addr} {k : Cell R B} (h : (part s U).heap p = some k) :
    s.heap p = some k ∧ ∃ z h, U z ∧ s.hs z = some h ∧ h.p = some p := by
  simp only [part] at h
  split at h
  · exact ⟨h, by assumption⟩
  · cases h

theorem abs_part {s : St L A R B} {U : L → Prop} {z : L} (h : U z) : api.abs (part s U) z = api.abs s z := by
  refine api.local_abs _ _ _ (part_hs h) ?_
  intro k p hk hp
  rw [part_hs h] at hk
  exact part_heap h hk hp

/-! ### An access -/

section Access
variable {run : Th → Option Op} {u pv : Th → St L A R B} {v ρ P' S' : St L A R B} {i : Th} {o : Op}

theorem Sep.change (S : Sep api run u v.hs v.heap ρ pv)
    (ap : ∀ i j o o' z, i ≠ j → run i = some o → run j = some o' → z ∈ api.operands o → z ∉ api.changes o')
    (hr : run i = some o) (C : Change (cframe api o (u i)) (pv i) v P' S') :
    Sep api run u S'.hs S'.heap ρ (upd pv i P') := by
  have ei : upd pv i P' i = P' := by simp [upd]
  have ej : ∀ j, j ≠ i → upd pv i P' j = pv j := by intro j hj; simp [upd, hj]
  cases C with
  | keep h1 h2 h3 h4 =>
    have e1 : ∀ j, (upd pv i P' j).hs = (pv j).hs := by intro j; simp only [upd]; split <;> simp_all
    have e2 : ∀ j, (upd pv i P' j).heap = (pv j).heap := by intro j; simp only [upd]; split <;> simp_all
    constructor <;> try simp only [e1, e2, h3, h4]
    · exact S.objs
    · exact S.hsN
    · exact S.kept
    · exact S.blocks
    · exact S.idle
    · exact S.disj
    · exact S.rest
    · exact S.restN
    · exact S.rblocks
    · exact S.rdisj
    · exact S.cover
  | obj l x hl hx h1 h2 h3 h4 =>
    have e2 : ∀ j, (upd pv i P' j).heap = (pv j).heap := by intro j; simp only [upd]; split <;> simp_all
    have far : ∀ j o' z, run j = some o' → z ∈ api.operands o' → (j = i → z ∉ api.changes o) → z ≠ l := by
      rintro j o' z hj hz hn rfl
      by_cases hji : j = i
      · exact hn hji hl
      · exact ap j i o' o _ hji hj hr hz hl
    have hne : ∀ {z}, z ≠ l → upd v.hs l x z = v.hs z := by intro z hz; simp [upd, hz]
    constructor
    · intro j o' z hj hz
      rw [h3]
      by_cases hji : j = i
      · subst hji
        rw [ei, h1]
        simp only [upd]; split
        · rfl
        · exact S.objs _ _ _ hj hz
      · rw [ej j hji, hne (far j o' z hj hz fun h => absurd h hji)]; exact S.objs _ _ _ hj hz
    · intro j o' z hj hz
      by_cases hji : j = i
      · subst hji
        have : z ≠ l := by
          rintro rfl
          rw [hr] at hj; cases hj
          exact hz (api.chg _ _ hl)
        rw [ei, h1]; simp only [upd, this, if_false]; exact S.hsN _ _ _ hj hz
      · rw [ej j hji]; exact S.hsN _ _ _ hj hz
    · intro j o' z hj hz hc
      rw [h3, hne (far j o' z hj hz ?_)]
      · exact S.kept _ _ _ hj hz hc
      · rintro rfl; rw [hr] at hj; cases hj; exact hc
    · simp only [e2, h4]; exact S.blocks
    · simp only [e2]; exact S.idle
    · simp only [e2]; exact S.disj
    · intro z hz
      rw [h3, hne]
      · exact S.rest z hz
      · rintro rfl; exact hz ⟨i, o, hr, hl⟩
    · exact S.restN
    · simp only [h4]; exact S.rblocks
    · simp only [e2]; exact S.rdisj
    · simp only [e2, h4]; exact S.cover
  | block q x hq hm hx h1 h2 h3 h4 =>
    have e1 : ∀ j, (upd pv i P' j).hs = (pv j).hs := by intro j; simp only [upd]; split <;> simp_all
    have other : ∀ j, j ≠ i → (pv j).heap q = none := by
      intro j hj
      cases h : (pv j).heap q with
      | none => rfl
      | some k =>
        rcases hm with hm | hm
        · obtain ⟨k', hk'⟩ := Option.ne_none_iff_exists'.1 hm
          exact absurd (S.disj i j o q k' k (Ne.symm hj) hr hk' h) hq
        · rw [S.blocks j q k h] at hm; cases hm
    have rother : ρ.heap q = none := by
      cases h : ρ.heap q with
      | none => rfl
      | some k =>
        rcases hm with hm | hm
        · obtain ⟨k', hk'⟩ := Option.ne_none_iff_exists'.1 hm
          exact absurd (S.rdisj i o q k' k hr hk' h) hq
        · rw [S.rblocks q k h] at hm; cases hm
    have e2 : ∀ j p, p ≠ q → (upd pv i P' j).heap p = (pv j).heap p := by
      intro j p hp
      by_cases hj : j = i
      · subst hj; rw [ei, h2]; simp only [upd, hp, if_false]
      · rw [ej j hj]
    have e3 : (upd pv i P' i).heap q = x := by rw [ei, h2]; simp only [upd, if_true]
    have e4 : ∀ j, j ≠ i → (upd pv i P' j).heap q = none := by
      intro j hj; rw [ej j hj]; exact other j hj
    have hne : ∀ {p}, p ≠ q → upd v.heap q x p = v.heap p := by intro z hz; simp [upd, hz]
    constructor
    · simp only [e1, h3]; exact S.objs
    · simp only [e1]; exact S.hsN
    · simp only [h3]; exact S.kept
    · intro j p k h
      rw [h4]
      by_cases hp : p = q
      · subst hp
        by_cases hj : j = i
        · subst hj; rw [e3] at h; simp only [upd, if_true]; exact h
        · rw [e4 j hj] at h; cases h
      · rw [e2 j p hp] at h; rw [hne hp]; exact S.blocks j p k h
    · intro j p hj
      have hji : j ≠ i := by rintro rfl; rw [hr] at hj; cases hj
      rw [ej j hji]; exact S.idle j p hj
    · intro j j' o' p k k' hjj hj h h'
      by_cases hp : p = q
      · subst hp
        by_cases hji : j = i
        · rw [e4 j' (fun h => hjj (hji.trans h.symm))] at h'; cases h'
        · rw [e4 j hji] at h; cases h
      · rw [e2 _ p hp] at h h'; exact S.disj j j' o' p k k' hjj hj h h'
    · simp only [h3]; exact S.rest
    · exact S.restN
    · intro p k h
      have hp : p ≠ q := by rintro rfl; rw [rother] at h; cases h
      rw [h4, hne hp]; exact S.rblocks p k h
    · intro j o' p k k' hj h h'
      have hp : p ≠ q := by rintro rfl; rw [rother] at h'; cases h'
      rw [e2 _ p hp] at h; exact S.rdisj j o' p k k' hj h h'
    · intro p k h
      rw [h4] at h
      by_cases hp : p = q
      · subst hp
        simp only [upd, if_true] at h
        exact .inr ⟨i, by rw [e3]; exact h⟩
      · rw [hne hp] at h
        rcases S.cover p k h with h | ⟨j, h⟩
        · exact .inl h
        · exact .inr ⟨j, by rw [e2 _ p hp]; exact h⟩

end Access

/-! ### A call begins -/

section Begin
variable {s : St L A R B} {c : Sys Th L A R B Op (Out L A V)} {ρ : St L A R B} {u pv : Th → St L A R B}
  {σ : Spec.Boxes L A V} {i : Th} {o : Op}

theorem upd_run {run : Th → Option Op} {j : Th} {r : Option Op} {o' : Op} (h : upd run i r j = some o') :
    j = i ∧ r = some o' ∨ j ≠ i ∧ run j = some o' := by
  by_cases hj : j = i
  · subst hj; left; simpa [upd] using h
  · right; exact ⟨hj, by simpa [upd, hj] using h⟩

theorem Inv'.begin (I : Inv' api s c ρ u pv σ) (hi : c.run i = none) (hR : Ready api s c i o) (e : Env) :
    Inv' api s { c with conf := c.conf.setTh i ⟨some (api.prog o), e, 0, 0, (c.conf.th i).log⟩, run := upd c.run i (some o) }
      (part ρ (· ∉ api.changes o)) (upd u i (part ρ (· ∈ api.operands o)))
      (upd pv i ((part ρ (· ∈ api.operands o)).enter e)) σ := by
  have S := I.sep
  have hne : ∀ {j o'}, c.run j = some o' → j ≠ i := by rintro j o' hj rfl; rw [hi] at hj; cases hj
  have hcf : ∀ {j o'}, c.run j = some o' → ∀ z, (z ∈ api.operands o → z ∉ api.changes o') ∧
      (z ∈ api.changes o → z ∉ api.operands o') := by
    intro j o' hj z
    exact ⟨fun h h' => hR.1 j o' hj ⟨z, .inl ⟨h, h'⟩⟩, fun h h' => hR.1 j o' hj ⟨z, .inr ⟨h, h'⟩⟩⟩
  have hnW : ∀ {z}, z ∈ api.operands o → ¬ Wr api c.run z := by
    rintro z hz ⟨j, o', hj, hz'⟩; exact (hcf hj z).1 hz hz'
  have W' : ∀ {z}, Wr api (upd c.run i (some o)) z → z ∈ api.changes o ∨ Wr api c.run z := by
    rintro z ⟨j, o', hj, hz⟩
    rcases upd_run hj with ⟨-, h⟩ | ⟨-, h⟩
    · cases h; exact .inl hz
    · exact .inr ⟨j, o', h, hz⟩
  have W1 : ∀ {z}, ¬ Wr api (upd c.run i (some o)) z → z ∉ api.changes o ∧ ¬ Wr api c.run z := by
    intro z hz
    refine ⟨fun h => hz ⟨i, o, by simp [upd], h⟩, ?_⟩
    rintro ⟨j, o', hj, hz'⟩
    exact hz ⟨j, o', by simp [upd, hne hj, hj], hz'⟩
  have uok : api.Ok (part ρ (· ∈ api.operands o)) := api.okPart _ _ I.ok
  have absu : ∀ z ∈ api.operands o, api.abs (part ρ (· ∈ api.operands o)) z = σ z := by
    intro z hz
    rw [abs_part hz]; exact I.vals z (hnW hz)
  have hlegal : api.legal (part ρ (· ∈ api.operands o)) o := by
    refine (api.legal_eq _ _).2 ?_
    refine (api.local_legal (· ∈ api.operands o) σ _ o (fun z hz => (absu z hz).symm) fun _ h => h).1 ?_
    refine hR.2 σ I.serial fun z hz => ?_
    rw [← I.vals z (hnW hz)]
    refine (api.local_abs _ _ _ (S.rest z (hnW hz)) ?_).symm
    intro h p hh hp
    obtain ⟨k, hk⟩ := Option.ne_none_iff_exists'.1 (api.own _ _ _ _ I.ok hh hp)
    rw [hk]; exact (S.rblocks p k hk).symm
  have ei : ∀ {X : Type} {g : Th → X} {x : X}, upd g i x i = x := by intro X g x; simp [upd]
  have ej : ∀ {X : Type} {g : Th → X} {x : X} {j : Th}, j ≠ i → upd g i x j = g j := by intro X g x j hj; simp [upd, hj]
  refine ⟨api.okPart _ _ I.ok, ?_, ?_, ?_, I.serial, ?_⟩
  · constructor
    · intro j o' z hj hz
      rcases upd_run hj with ⟨rfl, h⟩ | ⟨hji, h⟩
      · cases h
        rw [ei]
        exact (part_hs hz).trans (S.rest z (hnW hz))
      · rw [ej hji]; exact S.objs _ _ _ h hz
    · intro j o' z hj hz
      rcases upd_run hj with ⟨rfl, h⟩ | ⟨hji, h⟩
      · cases h; rw [ei]; exact part_hsN hz
      · rw [ej hji]; exact S.hsN _ _ _ h hz
    · intro j o' z hj hz hc
      rcases upd_run hj with ⟨rfl, h⟩ | ⟨hji, h⟩
      · cases h; rw [ei]; exact (part_hs hz).trans (S.rest z (hnW hz))
      · rw [ej hji]; exact S.kept _ _ _ h hz hc
    · intro j p k h
      by_cases hji : j = i
      · subst hji; rw [ei] at h; exact S.rblocks p k (part_some h).1
      · rw [ej hji] at h; exact S.blocks j p k h
    · intro j p hj
      have hj : upd c.run i (some o) j = none := hj
      have hji : j ≠ i := by rintro rfl; simp [upd] at hj
      rw [ej hji] at hj ⊢; exact S.idle j p hj
    · intro j j' o' p k k' hjj hj h h'
      rcases upd_run hj with ⟨rfl, hr⟩ | ⟨hji, hr⟩
      · cases hr
        have hj'i : j' ≠ j := fun h => hjj h.symm
        rw [ei] at h ⊢
        rw [ej hj'i] at h'
        cases hrj : c.run j' with
        | none => rw [S.idle j' p hrj] at h'; cases h'
        | some o'' =>
          obtain ⟨hk, z, g, hz, hg, hp⟩ := part_some h
          obtain ⟨z', g', hz', hc', hg', hp'⟩ := S.rdisj j' o'' p k' k hrj h' hk
          have hw : ¬ Wr api c.run z' := by
            rintro ⟨l, ol, hl, hzl⟩
            by_cases hlj : j' = l
            · subst hlj; rw [hrj] at hl; cases hl; exact hc' hzl
            · exact I.apart j' l o'' ol z' hlj hrj hl hz' hzl
          rw [S.kept _ _ _ hrj hz' hc', ← S.rest z' hw] at hg'
          have := api.uniq _ _ _ _ _ _ I.ok hg hg' hp hp'
          subst this
          exact ⟨z, g, hz, fun h => (hcf hrj z).2 h hz', by rw [part_hs hz]; exact hg, hp⟩
      · rw [ej hji] at h ⊢
        by_cases hj'i : j' = i
        · subst hj'i; rw [ei] at h'; exact S.rdisj j o' p k k' hr h (part_some h').1
        · rw [ej hj'i] at h'; exact S.disj j j' o' p k k' hjj hr h h'
    · intro z hz
      obtain ⟨h1, h2⟩ := W1 hz
      exact (part_hs (U := (· ∉ api.changes o)) h1).trans (S.rest z h2)
    · intro z hz
      by_cases hc : z ∈ api.changes o
      · exact part_hsN (U := (· ∉ api.changes o)) (fun h => h hc)
      · rw [part_hs (U := (· ∉ api.changes o)) hc]
        rcases W' hz with h | h
        · exact absurd h hc
        · exact S.restN z h
    · intro p k h; exact S.rblocks p k (part_some h).1
    · intro j o' p k k' hj h h'
      obtain ⟨hk', z', g', hz', hg', hp'⟩ := part_some h'
      rcases upd_run hj with ⟨rfl, hr⟩ | ⟨hji, hr⟩
      · cases hr
        rw [ei] at h ⊢
        obtain ⟨hk, z, g, hz, hg, hp⟩ := part_some h
        have := api.uniq _ _ _ _ _ _ I.ok hg hg' hp hp'
        subst this
        exact ⟨z, g, hz, hz', by rw [part_hs hz]; exact hg, hp⟩
      · rw [ej hji] at h ⊢; exact S.rdisj j o' p k k' hr h hk'
    · intro p k h0
      rcases S.cover p k h0 with h | ⟨j, h⟩
      · obtain ⟨z, g, hz, hp⟩ := api.owned _ _ _ I.ok h
        by_cases hc : z ∈ api.changes o
        · refine .inr ⟨i, ?_⟩
          rw [ei]
          exact (part_heap (U := (· ∈ api.operands o)) (api.chg _ _ hc) hz hp).trans h
        · left; rw [part_heap (U := (· ∉ api.changes o)) hc hz hp]; exact h
      · refine .inr ⟨j, ?_⟩
        have hji : j ≠ i := by rintro rfl; rw [S.idle _ p hi] at h; cases h
        rw [ej hji]; exact h
  · intro j j' o1 o2 z hjj hj hj' hz
    rcases upd_run hj with ⟨rfl, h⟩ | ⟨hji, h⟩
    · cases h
      rcases upd_run hj' with ⟨h', -⟩ | ⟨hji, h'⟩
      · exact absurd h'.symm hjj
      · exact (hcf h' z).1 hz
    · rcases upd_run hj' with ⟨rfl, h'⟩ | ⟨hji, h'⟩
      · cases h'; exact fun hc => (hcf h z).2 hc hz
      · exact I.apart j j' o1 o2 z hjj h h' hz
  · intro j
    by_cases hji : j = i
    · subst hji
      simp only [Conf.setTh, ei, CMid]
      refine ⟨_, e, rfl, uok, hlegal, ?_, ?_, rfl, rfl, fun f _ => rfl, absu⟩
      · exact api.within _ o rfl (fun z hz => hz) fun z hz => hz
      · refine ⟨?_, ?_, ?_⟩
        · rintro l h p hl hh hp ⟨z, h', hz, hc, hz', hp'⟩
          have := api.uniq _ _ _ _ _ _ uok hh hz' hp hp'
          subst this
          exact hc hl
        · intro p k r hp hk hr
          rw [api.body _ _ _ _ uok hk hr]; exact hp
        · rintro p ⟨z, h', hz, hc, hz', hp'⟩
          show (part ρ (· ∈ api.operands o)).heap p ≠ none
          exact api.own _ _ _ _ uok hz' hp'
    · simp only [Conf.setTh, ej hji]; exact I.mid j
  · intro z hz
    obtain ⟨h1, h2⟩ := W1 hz
    rw [abs_part (api := api) (U := (· ∉ api.changes o)) h1]; exact I.vals z h2

end Begin

/-! ### A call ends -/

section End
variable {s : St L A R B} {c : Sys Th L A R B Op (Out L A V)} {ρ : St L A R B} {u pv : Th → St L A R B}
  {σ σ' : Spec.Boxes L A V} {i : Th} {o : Op} {P : St L A R B}

/-- The objects that no call changes, when the call `o`, with the memory `P`, has ended. -/
def settle (ch : List L) (ρ P : St L A R B) : St L A R B :=
  { ρ with
    hs := fun z => if z ∈ ch then P.hs z else ρ.hs z
    heap := fun p => match ρ.heap p with
      | some k => some k
      | none => P.heap p }

theorem Inv'.finish (I : Inv' api s c ρ u pv σ) (hr : c.run i = some o) (hP : api.Ok P) (h1 : P.hs = (pv i).hs)
    (h2 : P.heap = (pv i).heap) (a : Seen (Out L A V)) (t : Thread L A R B (Out L A V)) (ht : t.cur = none)
    (hag : ∀ z ∈ api.operands o, σ' z = api.abs P z) (hfr : ∀ z, z ∉ api.changes o → σ' z = σ z)
    (hs : Serial api.step (api.abs s) (c.done ++ [⟨i, o, a⟩]) σ') :
    Fit api s ⟨c.conf.setTh i t, upd c.run i none, c.done ++ [⟨i, o, a⟩]⟩ := by
  have S := I.sep
  have ei : ∀ {X : Type} {g : Th → X} {x : X}, upd g i x i = x := by intro X g x; simp [upd]
  have ej : ∀ {X : Type} {g : Th → X} {x : X} {j : Th}, j ≠ i → upd g i x j = g j := by intro X g x j hj; simp [upd, hj]
  have run' : ∀ {j o'}, upd c.run i none j = some o' → j ≠ i ∧ c.run j = some o' := by
    intro j o' hj
    rcases upd_run hj with ⟨-, h⟩ | h
    · cases h
    · exact h
  have hWo : ∀ {z}, z ∈ api.operands o → z ∉ api.changes o → ¬ Wr api c.run z := by
    rintro z hz hc ⟨j, o', hj, hz'⟩
    by_cases hij : i = j
    · subst hij; rw [hr] at hj; cases hj; exact hc hz'
    · exact I.apart i j o o' z hij hr hj hz hz'
  have W' : ∀ {z}, z ∈ api.changes o → ¬ Wr api (upd c.run i none) z := by
    rintro z hz ⟨j, o', hj, hz'⟩
    obtain ⟨hji, hj⟩ := run' hj
    exact I.apart i j o o' z (Ne.symm hji) hr hj (api.chg _ _ hz) hz'
  have W1 : ∀ {z}, z ∉ api.changes o → ¬ Wr api (upd c.run i none) z → ¬ Wr api c.run z := by
    rintro z hz hn ⟨j, o', hj, hz'⟩
    by_cases hij : j = i
    · subst hij; rw [hr] at hj; cases hj; exact hz hz'
    · exact hn ⟨j, o', by rw [ej hij]; exact hj, hz'⟩
  have heapP : ∀ p k, P.heap p = some k → c.conf.heap p = some k := by
    intro p k h; rw [h2] at h; exact S.blocks i p k h
  have heapS : ∀ p k, (settle (api.changes o) ρ P).heap p = some k ↔ ρ.heap p = some k ∨ P.heap p = some k := by
    intro p k
    simp only [settle]
    cases h : ρ.heap p with
    | none => simp
    | some k' =>
      simp only [Option.some.injEq]
      refine ⟨.inl, ?_⟩
      rintro (h' | h')
      · exact h'
      · have e1 := S.rblocks p k' h
        rw [heapP p k h'] at e1; cases e1; rfl
  have hJ : Join ρ P (settle (api.changes o) ρ P) := by
    refine ⟨?_, heapS, ?_⟩
    · intro z h
      simp only [settle]
      by_cases hc : z ∈ api.changes o
      · rw [if_pos hc, S.restN z ⟨i, o, hr, hc⟩]; simp
      · rw [if_neg hc]
        refine ⟨.inl, ?_⟩
        rintro (h' | h')
        · exact h'
        · rw [h1] at h'
          have hz : z ∈ api.operands o := Classical.byContradiction fun hn => by
            rw [S.hsN i o z hr hn] at h'; cases h'
          rw [S.rest z (hWo hz hc), ← S.objs i o z hr hz]; exact h'
    · intro p k k' hk hk'
      rw [h2] at hk'
      obtain ⟨z, h, hz, hc, hh, hp⟩ := S.rdisj i o p k' k hr hk' hk
      rw [S.kept i o z hr hz hc] at hh
      refine ⟨z, h, ?_, ?_, hp⟩
      · rw [S.rest z (hWo hz hc)]; exact hh
      · rw [h1, S.objs i o z hr hz]; exact hh
  have hok := api.okJoin _ _ _ I.ok hP hJ
  refine ⟨settle (api.changes o) ρ P, u, upd pv i ⟨fun _ => none, fun _ => none, [], ρ.env, 0, 0⟩, σ', hok, ?_, ?_, ?_, hs, ?_⟩
  · constructor
    · intro j o' z hj hz
      obtain ⟨hji, hj⟩ := run' hj
      rw [ej hji]; exact S.objs _ _ _ hj hz
    · intro j o' z hj hz
      obtain ⟨hji, hj⟩ := run' hj
      rw [ej hji]; exact S.hsN _ _ _ hj hz
    · intro j o' z hj hz
      obtain ⟨hji, hj⟩ := run' hj
      exact S.kept _ _ _ hj hz
    · intro j p k h
      by_cases hji : j = i
      · subst hji; rw [ei] at h; cases h
      · rw [ej hji] at h; exact S.blocks j p k h
    · intro j p hj
      by_cases hji : j = i
      · subst hji; rw [ei]
      · have hj : upd c.run i none j = none := hj
        rw [ej hji] at hj ⊢; exact S.idle j p hj
    · intro j j' o' p k k' hjj hj h h'
      obtain ⟨hji, hj⟩ := run' hj
      rw [ej hji] at h
      by_cases hj'i : j' = i
      · subst hj'i; rw [ei] at h'; cases h'
      · rw [ej hj'i] at h'; exact S.disj j j' o' p k k' hjj hj h h'
    · intro z hz
      simp only [settle]
      split
      · rename_i hc
        rw [h1]; exact S.objs i o z hr (api.chg _ _ hc)
      · rename_i hc
        exact S.rest z (W1 hc hz)
    · intro z hz
      have hc : z ∉ api.changes o := fun h => W' h hz
      simp only [settle, if_neg hc]
      obtain ⟨j, o', hj, hz'⟩ := hz
      exact S.restN z ⟨j, o', (run' hj).2, hz'⟩
    · intro p k h
      rcases (heapS p k).1 h with h | h
      · exact S.rblocks p k h
      · exact heapP p k h
    · intro j o' p k k' hj h h'
      obtain ⟨hji, hj⟩ := run' hj
      rw [ej hji] at h
      rcases (heapS p k').1 h' with h' | h'
      · exact S.rdisj j o' p k k' hj h h'
      · rw [h2] at h'; exact S.disj j i o' p k k' hji hj h h'
    · intro p k h0
      rcases S.cover p k h0 with h | ⟨j, h⟩
      · exact .inl ((heapS p k).2 (.inl h))
      · by_cases hji : j = i
        · subst hji; exact .inl ((heapS p k).2 (.inr (by rw [h2]; exact h)))
        · exact .inr ⟨j, by rw [ej hji]; exact h⟩
  · intro j j' o1 o2 z hjj hj hj'
    exact I.apart j j' o1 o2 z hjj (run' hj).2 (run' hj').2
  · intro j
    by_cases hji : j = i
    · subst hji
      simp only [Conf.setTh, ei, CMid]; exact ht
    · have := I.mid j
      simp only [Conf.setTh, ej hji]
      cases hrj : c.run j with
      | none => rw [hrj] at this; exact this
      | some o' =>
        rw [hrj] at this
        obtain ⟨m, e, g1, g2, g3, g4, g5, g6, g7, g8, g9⟩ := this
        refine ⟨m, e, g1, g2, g3, g4, g5, g6, g7, g8, fun z hz => ?_⟩
        rw [g9 z hz, hfr z]
        exact I.apart j i o' o z hji hrj hr hz
  · intro z hz
    by_cases hc : z ∈ api.changes o
    · rw [hag z (api.chg _ _ hc)]
      refine (api.local_abs _ _ _ (by simp [settle, hc]) ?_).symm
      intro h p hh hp
      obtain ⟨k, hk⟩ := Option.ne_none_iff_exists'.1 (api.own _ _ _ _ hP hh hp)
      rw [hk]; exact ((heapS p k).2 (.inr hk)).symm
    · rw [hfr z hc, ← I.vals z (W1 hc hz)]
      refine (api.local_abs _ _ _ (by simp [settle, hc]) ?_).symm
      intro h p hh hp
      obtain ⟨k, hk⟩ := Option.ne_none_iff_exists'.1 (api.own _ _ _ _ I.ok hh hp)
      rw [hk]; exact ((heapS p k).2 (.inl hk)).symm

end End

/-! ### Everything -/

section All
variable {s : St L A R B} {c : Sys Th L A R B Op (Out L A V)} {evs : List (Event Th Op)}

theorem tick_fit (G : Fit api s c) (ev : Event Th Op) (hR : ∀ i o e, ev = .start i o e → c.run i = none → Ready api s c i o) :
    FitOut api s (Sys.tick api.prog ev c) := by
  obtain ⟨ρ, u, pv, σ, I⟩ := G
  cases ev with
  | start i o e =>
    simp only [Sys.tick]
    cases hr : c.run i with
    | some o' => exact ⟨ρ, u, pv, σ, I⟩
    | none => exact ⟨_, _, _, _, I.begin hr (hR i o e rfl hr) e⟩
  | step i =>
    simp only [Sys.tick]
    cases hr : c.run i with
    | none => exact ⟨ρ, u, pv, σ, I⟩
    | some o =>
      have S := I.sep
      have Mi := I.mid i
      rw [hr] at Mi
      obtain ⟨m, e, hc, uok, hleg, hw, K, hai, hti, hint, hval⟩ := Mi
      have hsafe := api.safe o e (u i) uok hleg
      have hvl := (api.legal_eq _ _).1 hleg
      have href := api.refines (u i) o e uok hvl
      have hloc := api.local_step (· ∈ api.operands o) σ (api.abs (u i)) o (available (u i) e) (api.seed e)
        (fun z hz => (hval z hz).symm) fun _ h => h
      have hcall : api.call o e (u i) = Prog.interp m (at' (pv i) e) := by
        rw [api.call_eq]; exact hint e (Agree.refl _ _ _)
      simp only [Conf.tick, hc]
      cases m with
      | ret out =>
        simp only [Thread.ending, hc]
        simp only [Prog.interp] at hcall
        rw [hcall] at hsafe href
        simp only at href
        rw [href] at hloc
        cases hs : api.step (available (u i) e) (api.seed e) σ o <;> rw [hs] at hloc <;> simp only [Indirect.RAgree] at hloc
        rename_i o' σ'
        obtain ⟨rfl, hag⟩ := hloc
        refine I.finish hr hsafe rfl rfl _ _ rfl hag (fun z hz => ?_) (.ret i o _ _ I.serial hs)
        exact (api.frame _ _ σ o z hz).1 _ _ hs
      | throw x =>
        simp only [Thread.ending, hc]
        simp only [Prog.interp] at hcall
        rw [hcall] at hsafe href
        simp only at href
        rw [href] at hloc
        cases hs : api.step (available (u i) e) (api.seed e) σ o <;> rw [hs] at hloc <;> simp only [Indirect.RAgree] at hloc
        rename_i o' σ'
        obtain ⟨rfl, hag⟩ := hloc
        refine I.finish hr hsafe rfl rfl _ _ rfl hag (fun z hz => ?_) (.threw i o _ _ I.serial hs)
        exact (api.frame _ _ σ o z hz).2 _ _ hs
      | terminate =>
        simp only [Prog.interp] at hcall
        rw [hcall] at href
        simp only at href
        rw [href] at hloc
        refine ⟨c.done, σ, o, available (u i) e, api.seed e, I.serial,
          (api.local_legal (· ∈ api.operands o) σ _ o (fun z hz => (hval z hz).symm) fun _ h => h).2 hvl, ?_⟩
        cases hs : api.step (available (u i) e) (api.seed e) σ o <;> rw [hs] at hloc <;> simp only [Indirect.RAgree] at hloc
      | undef b => rw [hcall] at hsafe; exact hsafe
      | act a k =>
        have hub : ∀ b, a.exec (at' (pv i) e) ≠ .error b := by
          intro b hb
          rw [hcall] at hsafe
          simp only [Prog.interp, hb, Safe] at hsafe
        obtain ⟨r, S', P', e'', h1, h2, h4, h5, h6, h7⟩ :=
          act_step (v := c.conf.view i) (e := e) (F := cframe api o (u i)) api.raw (fun z hz => S.objs i o z hr hz)
            (S.blocks i) K hw.1 hai hti hub
        simp only [h1, Thread.ending, hc]
        refine ⟨ρ, u, upd pv i P', σ, I.ok, S.change I.apart hr h2, I.apart, ?_, I.serial, I.vals⟩
        intro j
        by_cases hji : j = i
        · subst hji
          simp only [upd, if_true, hr]
          refine ⟨_, e'', rfl, uok, hleg, hw.2 r h4, h2.kept K, h5, h6, ?_, hval⟩
          intro f hf
          obtain ⟨g1, g2⟩ := h7 f (by rw [h5, h6]; exact hf)
          rw [hint f (by rw [← hai, ← hti]; exact g1)]
          simp only [Prog.interp, g2]
        · simp only [upd, hji, if_false]; exact I.mid j

theorem exec_fit {evs : List (Event Th Op)} (G : Fit api s c)
    (hR : ∀ before i o e after c', evs = before ++ .start i o e :: after → Sys.exec api.prog before c = .running c' →
      c'.run i = none → Fit api s c' → Ready api s c' i o) :
    FitOut api s (Sys.exec api.prog evs c) := by
  induction evs generalizing c with
  | nil => exact G
  | cons ev evs ih =>
    have := tick_fit G ev fun i o e he hi => hR [] i o e evs c (by rw [he]; rfl) rfl hi G
    simp only [Sys.exec]
    cases h : Sys.tick api.prog ev c with
    | terminated => rw [h] at this; exact this
    | ub b => rw [h] at this; exact this
    | running c1 =>
      rw [h] at this
      refine ih this ?_
      intro before i o e after c' he hx
      exact hR (ev :: before) i o e after c' (by rw [he]; rfl) (by simp only [Sys.exec, h]; exact hx)

theorem start_fit (hok : api.Ok s) : Fit api s (Sys.start s : Sys Th L A R B Op (Out L A V)) := by
  have nW : ∀ z, ¬ Wr api (fun _ : Th => none) z := by rintro z ⟨i, o, h, -⟩; cases h
  refine ⟨s, fun _ => s, fun _ => ⟨fun _ => none, fun _ => none, [], s.env, 0, 0⟩, api.abs s, hok, ?_, ?_, ?_, .start, ?_⟩
  · constructor
    · intro i o z h; cases h
    · intro i o z h; cases h
    · intro i o z h; cases h
    · intro i p k h; cases h
    · intro i p _; rfl
    · intro i j o p k k' _ h; cases h
    · intro z _; rfl
    · intro z hz; exact absurd hz (nW z)
    · intro p k h; exact h
    · intro i o p k k' h; cases h
    · intro p k h; exact .inl h
  · intro i j o o' z _ h; cases h
  · intro i; exact rfl
  · intro z _; rfl

/-- No data race. -/
theorem Fit.noRace (G : Fit api s c) : ¬ Race c.conf := by
  obtain ⟨ρ, u, pv, σ, I⟩ := G
  have S := I.sep
  rintro ⟨i, j, a, b, x, hne, ha, hb, hta, htb, hro⟩
  have key : ∀ i a, nextAct (c.conf.th i) = some a → ∃ o, c.run i = some o ∧ ∀ x, touches a x →
      (match x with
        | .obj l => l ∈ api.operands o
        | .block p => (pv i).heap p ≠ none) ∧
      (¬ readOnly a → match x with
        | .obj l => l ∈ api.changes o
        | .block p => ¬ Gd api o (u i) p) := by
    intro i a ha
    have Mi := I.mid i
    unfold nextAct at ha
    cases hr : c.run i with
    | none =>
      rw [hr] at Mi
      simp only [CMid] at Mi
      rw [Mi] at ha; cases ha
    | some o =>
      refine ⟨o, rfl, ?_⟩
      intro x hx
      rw [hr] at Mi
      obtain ⟨m, e, hc, uok, hleg, hw, K, hai, hti, hint, hval⟩ := Mi
      rw [hc] at ha
      have hsafe := api.safe o e (u i) uok hleg
      cases m with
      | act a' k =>
        cases ha
        have hcall : api.call o e (u i) = Prog.interp (.act a k) (at' (pv i) e) := by
          rw [api.call_eq]; exact hint e (Agree.refl _ _ _)
        have hub : ∀ b, a.exec (at' (pv i) e) ≠ .error b := by
          intro b hb
          rw [hcall] at hsafe
          simp only [Prog.interp, hb, Safe] at hsafe
        have hA := hw.1
        cases a with
        | getH l => cases hx; exact ⟨hA, fun h => absurd trivial h⟩
        | setP l p => cases hx; exact ⟨api.chg _ _ hA.1, fun _ => hA.1⟩
        | setAlloc l p => cases hx; exact ⟨api.chg _ _ hA, fun _ => hA⟩
        | emplace l p => cases hx; exact ⟨api.chg _ _ hA.1, fun _ => hA.1⟩
        | endLife l => cases hx; exact ⟨api.chg _ _ hA, fun _ => hA⟩
        | deallocate r p =>
          cases hx
          exact ⟨fun h => hub .badFree (by simp [Act.exec, at', h]), fun _ => hA⟩
        | readBody p =>
          cases hx
          exact ⟨fun h => hub .deadObject (by simp [Act.exec, at', h]), fun h => absurd trivial h⟩
        | writeBody p b =>
          cases hx
          exact ⟨fun h => hub .deadObject (by simp [Act.exec, at', h]), fun _ => hA.1⟩
        | «begin» p f evs =>
          cases hx
          exact ⟨fun h => hub .notRaw (by simp [Act.exec, at', h]), fun _ => hA.1⟩
        | allocate r => exact absurd hx id
        | emit ev => exact absurd hx id
        | choose => exact absurd hx id
      | ret _ => cases ha
      | throw _ => cases ha
      | terminate => cases ha
      | undef _ => cases ha
  obtain ⟨o, hr, hA⟩ := key i a ha
  obtain ⟨o', hr', hB⟩ := key j b hb
  have hA := hA x hta
  have hB := hB x htb
  have hw : ¬ readOnly a ∨ ¬ readOnly b := by
    by_cases h : readOnly a
    · exact .inr fun h' => hro ⟨h, h'⟩
    · exact .inl h
  cases x with
  | obj l =>
    simp only at hA hB
    rcases hw with h | h
    · exact I.apart j i o' o l (Ne.symm hne) hr' hr hB.1 (hA.2 h)
    · exact I.apart i j o o' l hne hr hr' hA.1 (hB.2 h)
  | block p =>
    simp only at hA hB
    obtain ⟨k, hk⟩ := Option.ne_none_iff_exists'.1 hA.1
    obtain ⟨k', hk'⟩ := Option.ne_none_iff_exists'.1 hB.1
    rcases hw with h | h
    · exact hA.2 h (S.disj i j o p k k' hne hr hk hk')
    · exact hB.2 h (S.disj j i o' p k' k (Ne.symm hne) hr' hk' hk)

/-- The values of the objects that no call changes now. -/
theorem Fit.values (G : Fit api s c) : ∃ σ, Serial api.step (api.abs s) c.done σ ∧
    ∀ i z, (∀ j o, c.run j = some o → z ∉ api.changes o) → api.abs (c.conf.view i) z = σ z := by
  obtain ⟨ρ, u, pv, σ, I⟩ := G
  refine ⟨σ, I.serial, fun i z hz => ?_⟩
  have hw : ¬ Wr api c.run z := by rintro ⟨j, o, hj, h⟩; exact hz j o hj h
  rw [← I.vals z hw]
  refine (api.local_abs _ _ _ (I.sep.rest z hw) ?_).symm
  intro h p hh hp
  obtain ⟨k, hk⟩ := Option.ne_none_iff_exists'.1 (api.own _ _ _ _ I.ok hh hp)
  rw [hk]; exact (I.sep.rblocks p k hk).symm

/-- Between calls the memory is in order. -/
theorem Fit.okIdle (G : Fit api s c) (hidle : ∀ i, c.run i = none) (i : Th) : api.Ok (c.conf.view i) := by
  obtain ⟨ρ, u, pv, σ, I⟩ := G
  refine api.okJoin ρ ρ _ I.ok I.ok ⟨?_, ?_, ?_⟩
  · intro z h
    have hw : ¬ Wr api c.run z := by rintro ⟨j, o, hj, h⟩; rw [hidle j] at hj; cases hj
    rw [I.sep.rest z hw]; simp [Conf.view]
  · intro p k
    refine ⟨fun h => ?_, fun h => ?_⟩
    · rcases I.sep.cover p k h with h | ⟨j, h⟩
      · exact .inl h
      · rw [I.sep.idle j p (hidle j)] at h; cases h
    · rcases h with h | h <;> exact I.sep.rblocks p k h
  · intro p k k' hk _
    obtain ⟨z, h, hz, hp⟩ := api.owned _ _ _ I.ok hk
    exact ⟨z, h, hz, hz, hp⟩

/-- What the client ensures is what is needed. -/
theorem ready_of (hS : Spec.Synchronised api.prog api.vlegal api.operands api.changes api.abs s evs) {before after : List (Event Th Op)}
    {i : Th} {o : Op} {e : Env} (he : evs = before ++ .start i o e :: after)
    (hx : Sys.exec api.prog before (Sys.start s) = .running c) (hi : c.run i = none) : Ready api s c i o := by
  obtain ⟨h1, h2⟩ := hS before i o e after c he hx hi
  exact ⟨h1, fun σ _ ha => (api.local_legal (· ∈ api.operands o) _ σ o ha fun _ h => h).1 h2⟩

theorem synced (hok : api.Ok s) (hS : Spec.Synchronised api.prog api.vlegal api.operands api.changes api.abs s evs) :
    FitOut api s (Sys.exec api.prog evs (Sys.start s)) :=
  exec_fit (start_fit hok) fun _ _ _ _ _ _ he hx hi _ => ready_of hS he hx hi

theorem s_no_ub (hok : api.Ok s) (hS : Spec.Synchronised api.prog api.vlegal api.operands api.changes api.abs s evs) (u : UB) :
    Sys.exec api.prog evs (Sys.start s) ≠ .ub u := by
  intro h
  have := synced hok hS
  rw [h] at this; exact this

theorem s_no_race (hok : api.Ok s) (hS : Spec.Synchronised api.prog api.vlegal api.operands api.changes api.abs s evs)
    (h : Sys.exec api.prog evs (Sys.start s) = .running c) : ¬ Race c.conf := by
  have := synced hok hS
  rw [h] at this; exact Fit.noRace this

theorem s_serial (hok : api.Ok s) (hS : Spec.Synchronised api.prog api.vlegal api.operands api.changes api.abs s evs)
    (h : Sys.exec api.prog evs (Sys.start s) = .running c) : ∃ σ, Serial api.step (api.abs s) c.done σ ∧
    ∀ i z, (∀ j o, c.run j = some o → z ∉ api.changes o) → api.abs (c.conf.view i) z = σ z := by
  have := synced hok hS
  rw [h] at this; exact Fit.values this

theorem s_terminated (hok : api.Ok s) (hS : Spec.Synchronised api.prog api.vlegal api.operands api.changes api.abs s evs)
    (h : Sys.exec api.prog evs (Sys.start s) = .terminated) :
    ∃ (done : List (Ended Th Op (Out L A V))) (σ : Spec.Boxes L A V) (o : Op) (mem : Bool) (n : N),
      Serial api.step (api.abs s) done σ ∧ api.vlegal σ o ∧ api.step mem n σ o = .terminated := by
  have := synced hok hS
  rw [h] at this; exact this

theorem s_owned_once (hok : api.Ok s) (hS : Spec.Synchronised api.prog api.vlegal api.operands api.changes api.abs s evs)
    (h : Sys.exec api.prog evs (Sys.start s) = .running c) (hidle : ∀ i, c.run i = none) (i : Th) :
    (∀ p k, c.conf.heap p = some k → ∃ z h, c.conf.hs z = some h ∧ h.p = some p) ∧
    (∀ z h p, c.conf.hs z = some h → h.p = some p → c.conf.heap p ≠ none) ∧
    ∀ z z' h h' p, c.conf.hs z = some h → c.conf.hs z' = some h' → h.p = some p → h'.p = some p → z = z' := by
  have := synced hok hS
  rw [h] at this
  have hk := Fit.okIdle this hidle i
  exact ⟨fun p k => api.owned _ p k hk, fun z h p => api.own _ z h p hk, fun z z' h h' p => api.uniq _ z z' h h' p hk⟩

/-- The client may reason about the calls as if they were made one after the other. -/
theorem s_serially (hok : api.Ok s)
    (hS : Spec.SynchronisedSerially api.prog api.step api.vlegal api.operands api.changes api.abs s evs) :
    Spec.Synchronised api.prog api.vlegal api.operands api.changes api.abs s evs := by
  intro before i o e after c he hx hi
  obtain ⟨h1, h2⟩ := hS before i o e after c he hx hi
  refine ⟨h1, ?_⟩
  have hf : FitOut api s (Sys.exec api.prog before (Sys.start s)) := by
    refine exec_fit (start_fit hok) ?_
    intro b i' o' e' a c' he' hx' hi' _
    obtain ⟨g1, g2⟩ := hS b i' o' e' (a ++ .start i o e :: after) c' (by rw [he, he']; simp) hx' hi'
    exact ⟨g1, fun σ hσ _ => g2 σ hσ⟩
  rw [hx] at hf
  obtain ⟨σ, hσ, hv⟩ := Fit.values hf
  refine (api.local_legal (· ∈ api.operands o) σ _ o (fun z hz => (hv i z ?_).symm) fun _ h => h).1 (h2 σ hσ)
  intro j o' hj hz'
  exact h1 j o' hj ⟨z, .inl ⟨hz, hz'⟩⟩

end All
end

section Log
variable {Out : Type} {prog : Op → Prog L A R B Out}

/-- Every thread sees the results of its calls, in their order. -/
def Logged (c : Sys Th L A R B Op Out) : Prop :=
  (∀ i, (c.conf.th i).log = Spec.sawOf i c.done) ∧ ∀ i, c.run i = none → (c.conf.th i).cur = none

theorem tick_logged {c c' : Sys Th L A R B Op Out} (h : Logged c) {ev : Event Th Op} (hx : Sys.tick prog ev c = .running c') :
    Logged c' := by
  have ne : ∀ {X : Type} {g : Th → X} {x : X} {i j : Th}, j ≠ i → upd g i x j = g j := by intro X g x i j hj; simp [upd, hj]
  cases ev with
  | start i o e =>
    simp only [Sys.tick] at hx
    cases hr : c.run i with
    | some o' => rw [hr] at hx; cases hx; exact h
    | none =>
      rw [hr] at hx; cases hx
      refine ⟨fun j => ?_, fun j hj => ?_⟩
      · simp only [Conf.setTh, upd]
        split
        · rename_i hji; subst hji; exact h.1 j
        · exact h.1 j
      · simp only [Conf.setTh, upd] at hj ⊢
        split at hj
        · cases hj
        · rename_i hji; rw [if_neg hji]; exact h.2 j hj
  | step i =>
    simp only [Sys.tick] at hx
    cases hr : c.run i with
    | none => rw [hr] at hx; cases hx; exact h
    | some o =>
      rw [hr] at hx
      have ended : ∀ a, Logged (⟨c.conf.setTh i { c.conf.th i with cur := none, log := (c.conf.th i).log ++ [a] },
          upd c.run i none, c.done ++ [⟨i, o, a⟩]⟩ : Sys Th L A R B Op Out) := by
        intro a
        refine ⟨fun j => ?_, fun j hj => ?_⟩
        · by_cases hji : j = i
          · subst hji
            simp [Conf.setTh, upd, Spec.sawOf, h.1 j]
          · have : ¬ i = j := fun h => hji h.symm
            simp [Conf.setTh, upd, hji, this, Spec.sawOf, h.1 j]
        · by_cases hji : j = i
          · subst hji; simp [Conf.setTh, upd]
          · simp only [Conf.setTh, ne hji] at hj ⊢; exact h.2 j hj
      simp only [Conf.tick] at hx
      cases hc : (c.conf.th i).cur with
      | none =>
        simp only [hc, Thread.ending] at hx; cases hx; exact h
      | some m =>
        cases m with
        | ret out => simp only [hc, Thread.ending] at hx; cases hx; exact ended _
        | throw x => simp only [hc, Thread.ending] at hx; cases hx; exact ended _
        | terminate => simp only [hc] at hx; cases hx
        | undef b => simp only [hc] at hx; cases hx
        | act a k =>
          simp only [hc, Thread.ending] at hx
          cases ha : a.exec (c.conf.view i) with
          | error b => simp only [ha] at hx; cases hx
          | ok rs =>
            obtain ⟨r, s'⟩ := rs
            simp only [ha] at hx; cases hx
            refine ⟨fun j => ?_, fun j hj => ?_⟩
            · simp only [upd]
              split
              · rename_i hji; subst hji; exact h.1 j
              · exact h.1 j
            · have hji : j ≠ i := by rintro rfl; simp only [hr] at hj; cases hj
              simp only [ne hji]; exact h.2 j hj

theorem exec_logged {c c' : Sys Th L A R B Op Out} (h : Logged c) {evs : List (Event Th Op)}
    (hx : Sys.exec prog evs c = .running c') : Logged c' := by
  induction evs generalizing c with
  | nil => cases hx; exact h
  | cons ev evs ih =>
    simp only [Sys.exec] at hx
    cases ht : Sys.tick prog ev c with
    | running c1 => rw [ht] at hx; exact ih (tick_logged h ht) hx
    | terminated => rw [ht] at hx; cases hx
    | ub b => rw [ht] at hx; cases hx

theorem start_logged (s : St L A R B) : Logged (Sys.start s : Sys Th L A R B Op Out) := ⟨fun _ => rfl, fun _ _ => rfl⟩

end Log
end Verif.Conc
