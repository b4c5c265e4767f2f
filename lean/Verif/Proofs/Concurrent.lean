import Verif.Proofs.Within
import Verif.Proofs.Threads

/-!
Interleaved accesses of threads: every thread has a part of the memory of its own, and sees what it would see alone.
-/

set_option autoImplicit false
set_option linter.unusedSectionVars false
set_option linter.unusedSimpArgs false

namespace Verif.Conc
open Verif.Spec (Uses Race nextAct touches readOnly)
open Within (Allowed RespOk Any)

variable {Th L A R B Op Out : Type} [DecidableEq Th] [DecidableEq L] [DecidableEq R] [Body B]

/-- The part of the memory that belongs to the objects `U`. -/
noncomputable def part (s : St L A R B) (U : L → Prop) : St L A R B :=
  open Classical in
  { s with
    hs := fun z => if U z then s.hs z else none
    heap := fun p => if ∃ z h, U z ∧ s.hs z = some h ∧ h.p = some p then s.heap p else none }

/-- A client alone, in memory: starting in `s`, it has seen `log` of its calls, each made without interruption, and is now in state
`s'`. -/
inductive MAlone (call : Op → Env → St L A R B → Res (St L A R B) Out) (next : List (Seen Out) → Option Op)
    (s : St L A R B) : List (Seen Out) → St L A R B → Prop
  | start : MAlone call next s [] s
  | ret {log : List (Seen Out)} {u u' : St L A R B} (o : Op) (e : Env) (out : Out) (h : MAlone call next s log u)
      (hn : next log = some o) (hc : call o e u = .ok out u') : MAlone call next s (log ++ [.ret out]) u'
  | threw {log : List (Seen Out)} {u u' : St L A R B} (o : Op) (e : Env) (x : Exn) (h : MAlone call next s log u)
      (hn : next log = some o) (hc : call o e u = .threw x u') : MAlone call next s (log ++ [.exn x]) u'

/-- A thread `i` uses its own objects as it likes, and those that are shared only as operands that its calls do not change;
and all its calls are legal if it is alone, whatever the environment does.  `legal` are the preconditions of a call, `operands` and
`changes` the objects it names and changes. -/
def MFair (call : Op → Env → St L A R B → Res (St L A R B) Out) (legal : St L A R B → Op → Prop)
    (operands changes : Op → List L) (owner : L → Option Th) (next : Th → List (Seen Out) → Option Op) (s : St L A R B)
    (i : Th) : Prop :=
  ∀ log u o, MAlone call (next i) (part s (Uses owner i)) log u → next i log = some o →
    legal u o ∧ ∀ z ∈ operands o, owner z = some i ∨ owner z = none ∧ z ∉ changes o

/-- How a call may end. -/
def Safe {α : Type} (Ok : St L A R B → Prop) : Res (St L A R B) α → Prop
  | .ok _ s => Ok s
  | .threw _ s => Ok s
  | .terminated => True
  | _ => False

/-- A library, with what has to be known about it. -/
structure Api (L A R B Op Out : Type) [DecidableEq L] [DecidableEq R] [Body B] where
  prog : Op → Prog L A R B Out
  call : Op → Env → St L A R B → Res (St L A R B) Out
  legal : St L A R B → Op → Prop
  operands : Op → List L
  changes : Op → List L
  Ok : St L A R B → Prop
  bp : B → Option Addr
  call_eq : ∀ o e s, call o e s = Prog.interp (prog o) (s.enter e)
  chg : ∀ o z, z ∈ changes o → z ∈ operands o
  okPart : ∀ s U, Ok s → Ok (part s U)
  safe : ∀ o e s, Ok s → legal s o → Safe Ok (call o e s)
  within : ∀ (F : Within.Frame L A R B) o, F.bp = bp → (∀ z ∈ operands o, F.U z) → (∀ z ∈ changes o, F.W z) →
    Within.Within F Any (prog o)
  own : ∀ s l h p, Ok s → s.hs l = some h → h.p = some p → s.heap p ≠ none
  uniq : ∀ s l l' h h' p, Ok s → s.hs l = some h → s.hs l' = some h' → h.p = some p → h'.p = some p → l = l'
  owned : ∀ s p c, Ok s → s.heap p = some c → ∃ l h, s.hs l = some h ∧ h.p = some p
  body : ∀ s p c r, Ok s → s.heap p = some c → bp c.body = some r → r = p
  raw : bp Body.raw = none

/-- The blocks of the objects that nobody owns. -/
def Sh (owner : L → Option Th) (s : St L A R B) (p : Addr) : Prop :=
  ∃ z h, owner z = none ∧ s.hs z = some h ∧ h.p = some p

/-- What thread `i` may use and write. -/
def frame (bp : B → Option Addr) (owner : L → Option Th) (s : St L A R B) (i : Th) : Within.Frame L A R B where
  U := Uses owner i
  W z := owner z = some i
  sub _ h := .inl h
  G := Sh owner s
  bp := bp

/-- No pointer of a writable object, nor in a writable block, is into `G`, and `G` is allocated. -/
structure Kept (F : Within.Frame L A R B) (s : St L A R B) : Prop where
  own : ∀ l h p, F.W l → s.hs l = some h → h.p = some p → ¬ F.G p
  body : ∀ p c r, ¬ F.G p → s.heap p = some c → F.bp c.body = some r → ¬ F.G r
  live : ∀ p, F.G p → s.heap p ≠ none

/-- The memory is divided: every thread has its own objects and blocks, and sees the shared ones, which are as in `s`. -/
structure Sync (owner : L → Option Th) (s : St L A R B) (hs : L → Option (Handle A)) (heap : Addr → Option (Cell R B))
    (pv : Th → St L A R B) : Prop where
  objs : ∀ i z, Uses owner i z → (pv i).hs z = hs z
  hsN : ∀ i z, ¬ Uses owner i z → (pv i).hs z = none
  blocks : ∀ i p k, (pv i).heap p = some k → heap p = some k
  disj : ∀ i j p k k', i ≠ j → (pv i).heap p = some k → (pv j).heap p = some k' → Sh owner s p
  sh : ∀ i p, Sh owner s p → (pv i).heap p = heap p
  cover : ∀ p k, heap p = some k → Sh owner s p ∨ ∃ i, (pv i).heap p = some k
  hs0 : ∀ z, owner z = none → hs z = s.hs z
  heap0 : ∀ p, Sh owner s p → heap p = s.heap p

section Sync
variable {owner : L → Option Th} {s : St L A R B} {hs : L → Option (Handle A)} {heap : Addr → Option (Cell R B)}
  {pv : Th → St L A R B} {i : Th} {P' : St L A R B} {bp : B → Option Addr}

theorem Sync.keep (S : Sync owner s hs heap pv) (h1 : P'.hs = (pv i).hs) (h2 : P'.heap = (pv i).heap) :
    Sync owner s hs heap (upd pv i P') := by
  have e1 : ∀ j, (upd pv i P' j).hs = (pv j).hs := by intro j; simp only [upd]; split <;> simp_all
  have e2 : ∀ j, (upd pv i P' j).heap = (pv j).heap := by intro j; simp only [upd]; split <;> simp_all
  refine ⟨?_, ?_, ?_, ?_, ?_, ?_, S.hs0, S.heap0⟩ <;> simp only [e1, e2]
  · exact S.objs
  · exact S.hsN
  · exact S.blocks
  · exact S.disj
  · exact S.sh
  · exact S.cover

theorem Sync.setH (S : Sync owner s hs heap pv) {l : L} (hl : owner l = some i) {v : Option (Handle A)}
    (h1 : P'.hs = upd (pv i).hs l v) (h2 : P'.heap = (pv i).heap) :
    Sync owner s (upd hs l v) heap (upd pv i P') := by
  have e2 : ∀ j, (upd pv i P' j).heap = (pv j).heap := by intro j; simp only [upd]; split <;> simp_all
  refine ⟨?_, ?_, ?_, ?_, ?_, ?_, ?_, S.heap0⟩
  · intro j z hz
    by_cases hj : j = i
    · subst hj
      simp only [upd, if_true, h1]
      split
      · rfl
      · exact S.objs _ _ hz
    · have : z ≠ l := by
        rintro rfl
        rcases hz with h | h <;> rw [hl] at h <;> simp at h
        exact hj h.symm
      simp only [upd, hj, this, if_false]
      exact S.objs _ _ hz
  · intro j z hz
    by_cases hj : j = i
    · subst hj
      have : z ≠ l := by rintro rfl; exact hz (.inl hl)
      simp only [upd, if_true, h1, this, if_false]
      exact S.hsN _ _ hz
    · simp only [upd, hj, if_false]
      exact S.hsN _ _ hz
  · simp only [e2]; exact S.blocks
  · simp only [e2]; exact S.disj
  · simp only [e2]; exact S.sh
  · simp only [e2]; exact S.cover
  · intro z hz
    have : z ≠ l := by rintro rfl; rw [hl] at hz; cases hz
    simp only [upd, this, if_false]
    exact S.hs0 z hz

theorem Sync.setB (S : Sync owner s hs heap pv) {q : Addr} (hq : ¬ Sh owner s q)
    (hm : (pv i).heap q ≠ none ∨ heap q = none) {v : Option (Cell R B)}
    (h1 : P'.hs = (pv i).hs) (h2 : P'.heap = upd (pv i).heap q v) :
    Sync owner s hs (upd heap q v) (upd pv i P') := by
  have e1 : ∀ j, (upd pv i P' j).hs = (pv j).hs := by intro j; simp only [upd]; split <;> simp_all
  have other : ∀ j, j ≠ i → (pv j).heap q = none := by
    intro j hj
    cases h : (pv j).heap q with
    | none => rfl
    | some k =>
      rcases hm with hm | hm
      · obtain ⟨k', hk'⟩ := Option.ne_none_iff_exists'.1 hm
        exact absurd (S.disj j i q k k' hj h hk') hq
      · rw [S.blocks j q k h] at hm; cases hm
  have e2 : ∀ j p, p ≠ q → (upd pv i P' j).heap p = (pv j).heap p := by
    intro j p hp
    by_cases hj : j = i
    · subst hj; simp only [upd, if_true, h2, hp, if_false]
    · simp only [upd, hj, if_false]
  have e3 : (upd pv i P' i).heap q = v := by simp only [upd, if_true, h2]
  have e4 : ∀ j, j ≠ i → (upd pv i P' j).heap q = none := by
    intro j hj; simp only [upd, hj, if_false]; exact other j hj
  refine ⟨?_, ?_, ?_, ?_, ?_, ?_, S.hs0, ?_⟩
  · simp only [e1]; exact S.objs
  · simp only [e1]; exact S.hsN
  · intro j p k h
    by_cases hp : p = q
    · subst hp
      by_cases hj : j = i
      · subst hj; rw [e3] at h; simp only [upd, if_true]; exact h
      · rw [e4 j hj] at h; cases h
    · rw [e2 j p hp] at h
      simp only [upd, hp, if_false]; exact S.blocks j p k h
  · intro j j' p k k' hne h h'
    by_cases hp : p = q
    · subst hp
      by_cases hj : j = i
      · have hj' : j' ≠ i := fun e => hne (hj.trans e.symm)
        rw [e4 j' hj'] at h'; cases h'
      · rw [e4 j hj] at h; cases h
    · rw [e2 _ p hp] at h h'
      exact S.disj j j' p k k' hne h h'
  · intro j p hp
    have : p ≠ q := by rintro rfl; exact hq hp
    rw [e2 _ p this]
    simp only [upd, this, if_false]
    exact S.sh j p hp
  · intro p k h
    by_cases hp : p = q
    · subst hp
      simp only [upd, if_true] at h
      exact .inr ⟨i, by rw [e3]; exact h⟩
    · simp only [upd, hp, if_false] at h
      rcases S.cover p k h with h | ⟨j, h⟩
      · exact .inl h
      · exact .inr ⟨j, by rw [e2 _ p hp]; exact h⟩
  · intro p hp
    have : p ≠ q := by rintro rfl; exact hq hp
    simp only [upd, this, if_false]
    exact S.heap0 p hp

end Sync

section KeptLemmas
variable {F : Within.Frame L A R B} {s s' : St L A R B}

theorem Kept.keep (K : Kept F s) (h1 : s'.hs = s.hs) (h2 : s'.heap = s.heap) : Kept F s' :=
  ⟨by rw [h1]; exact K.own, by rw [h2]; exact K.body, by rw [h2]; exact K.live⟩

theorem Kept.setH (K : Kept F s) {l : L} {v : Option (Handle A)} (hv : ∀ h p, v = some h → h.p = some p → ¬ F.G p)
    (h1 : s'.hs = upd s.hs l v) (h2 : s'.heap = s.heap) : Kept F s' := by
  refine ⟨?_, by rw [h2]; exact K.body, by rw [h2]; exact K.live⟩
  intro l' h p hl hh hp
  rw [h1] at hh
  simp only [upd] at hh
  split at hh
  · exact hv h p hh hp
  · exact K.own l' h p hl hh hp

theorem Kept.setB (K : Kept F s) {q : Addr} (hq : ¬ F.G q) {v : Option (Cell R B)}
    (hv : ∀ c r, v = some c → F.bp c.body = some r → ¬ F.G r)
    (h1 : s'.hs = s.hs) (h2 : s'.heap = upd s.heap q v) : Kept F s' := by
  refine ⟨by rw [h1]; exact K.own, ?_, ?_⟩
  · intro p c r hp hc hr
    rw [h2] at hc
    simp only [upd] at hc
    split at hc
    · exact hv c r hc hr
    · exact K.body p c r hp hc hr
  · intro p hp
    have : p ≠ q := by rintro rfl; exact hq hp
    rw [h2]
    simp only [upd, this, if_false]
    exact K.live p hp

end KeptLemmas

/-- The same decisions so far. -/
def Agree (e f : Env) (a t : Nat) : Prop :=
  (∀ n, n < a → e.fail n = f.fail n ∧ e.pick n = f.pick n) ∧ ∀ n, n < t → e.choice n = f.choice n

theorem Agree.refl (e : Env) (a t : Nat) : Agree e e a t := ⟨fun _ _ => ⟨rfl, rfl⟩, fun _ _ => rfl⟩

/-- The state in another environment. -/
abbrev at' (s : St L A R B) (f : Env) : St L A R B := { s with env := f }


/-- An environment that fails the next allocation. -/
def failNow (e : Env) (n : Nat) : Env := { e with fail := upd e.fail n true }
/-- An environment that serves the next allocation with `p`. -/
def serveNow (e : Env) (n : Nat) (p : Addr) : Env := { e with fail := upd e.fail n false, pick := upd e.pick n p }
/-- An environment with the next choice. -/
def chooseNow (e : Env) (n : Nat) (v : Nat) : Env := { e with choice := upd e.choice n v }

theorem agree_fail {e f : Env} {a t : Nat} (h : Agree (failNow e a) f (a + 1) t) : Agree e f a t ∧ f.fail a = true := by
  refine ⟨⟨fun n hn => ?_, h.2⟩, ?_⟩
  · have := h.1 n (by omega)
    simpa [failNow, upd, Nat.ne_of_lt hn] using this
  · have := (h.1 a (by omega)).1
    simpa [failNow, upd] using this.symm

theorem agree_serve {e f : Env} {a t : Nat} {p : Addr} (h : Agree (serveNow e a p) f (a + 1) t) :
    Agree e f a t ∧ f.fail a = false ∧ f.pick a = p := by
  refine ⟨⟨fun n hn => ?_, h.2⟩, ?_, ?_⟩
  · have := h.1 n (by omega)
    simpa [serveNow, upd, Nat.ne_of_lt hn] using this
  · have := (h.1 a (by omega)).1
    simpa [serveNow, upd] using this.symm
  · have := (h.1 a (by omega)).2
    simpa [serveNow, upd] using this.symm

theorem agree_choose {e f : Env} {a t v : Nat} (h : Agree (chooseNow e t v) f a (t + 1)) :
    Agree e f a t ∧ f.choice t = v := by
  refine ⟨⟨h.1, fun n hn => ?_⟩, ?_⟩
  · have := h.2 n (by omega)
    simpa [chooseNow, upd, Nat.ne_of_lt hn] using this
  · have := h.2 t (by omega)
    simpa [chooseNow, upd] using this.symm

/-- What an access of a thread changes, in its private memory and in the shared one. -/
inductive Change (F : Within.Frame L A R B) (P v P' S' : St L A R B) : Prop
  | keep (h1 : P'.hs = P.hs) (h2 : P'.heap = P.heap) (h3 : S'.hs = v.hs) (h4 : S'.heap = v.heap)
  | obj (l : L) (x : Option (Handle A)) (hl : F.W l) (hx : ∀ h p, x = some h → h.p = some p → ¬ F.G p)
      (h1 : P'.hs = upd P.hs l x) (h2 : P'.heap = P.heap) (h3 : S'.hs = upd v.hs l x) (h4 : S'.heap = v.heap)
  | block (q : Addr) (x : Option (Cell R B)) (hq : ¬ F.G q) (hm : P.heap q ≠ none ∨ v.heap q = none)
      (hx : ∀ c r, x = some c → F.bp c.body = some r → ¬ F.G r)
      (h1 : P'.hs = P.hs) (h2 : P'.heap = upd P.heap q x) (h3 : S'.hs = v.hs) (h4 : S'.heap = upd v.heap q x)

theorem Change.kept {F : Within.Frame L A R B} {P v P' S' : St L A R B} (C : Change F P v P' S') (K : Kept F P) : Kept F P' := by
  cases C with
  | keep h1 h2 => exact K.keep h1 h2
  | obj l x hl hx h1 h2 => exact K.setH hx h1 h2
  | block q x hq hm hx h1 h2 => exact K.setB hq hx h1 h2

section Step
variable {F : Within.Frame L A R B} {P : St L A R B}

/-- What is to be shown of an access: it happens in the shared memory as it does in the private one. -/
def Stepped (F : Within.Frame L A R B) (P : St L A R B) (a : Act L A R B) (v : St L A R B) (e : Env) : Prop :=
  ∃ r S' P' e', a.exec v = .ok (r, S') ∧ Change F P v P' S' ∧ RespOk F a r ∧ P'.ai = S'.ai ∧ P'.ti = S'.ti ∧
    ∀ f, Agree e' f P'.ai P'.ti → Agree e f P.ai P.ti ∧ a.exec (at' P f) = .ok (r, at' P' f)

theorem act_step {a : Act L A R B} {v : St L A R B} {e : Env} (hraw : F.bp Body.raw = none)
    (hobjs : ∀ z, F.U z → P.hs z = v.hs z) (hblocks : ∀ p k, P.heap p = some k → v.heap p = some k) (K : Kept F P)
    (hA : Allowed F a) (hai : P.ai = v.ai) (hti : P.ti = v.ti) (hub : ∀ u, a.exec (at' P e) ≠ .error u) :
    Stepped F P a v e := by
  cases a with
  | getH l =>
    have e1 := hobjs l hA
    cases h : P.hs l with
    | none => exact absurd (by simp [Act.exec, at', h]) (hub .deadHandle)
    | some k =>
      rw [h] at e1
      refine ⟨k, v, P, e, by simp [Act.exec, ← e1], Change.keep rfl rfl rfl rfl, ?_, hai, hti, ?_⟩
      · intro hw p hp; exact K.own l k p hw h hp
      · intro f hf; exact ⟨hf, by simp [Act.exec, at', h]⟩
  | setP l p =>
    have e1 := hobjs l (F.sub _ hA.1)
    cases h : P.hs l with
    | none => exact absurd (by simp [Act.exec, at', h]) (hub .deadHandle)
    | some k =>
      rw [h] at e1
      refine ⟨(), { v with hs := upd v.hs l (some { k with p := p }) }, { P with hs := upd P.hs l (some { k with p := p }) }, e, by simp [Act.exec, ← e1],
        Change.obj l _ hA.1 ?_ rfl rfl rfl rfl, trivial, hai, hti, ?_⟩
      · rintro h' q ⟨⟩ hq; exact hA.2 q hq
      · intro f hf; exact ⟨hf, by simp [Act.exec, at', h]⟩
  | setAlloc l a =>
    have e1 := hobjs l (F.sub _ hA)
    cases h : P.hs l with
    | none => exact absurd (by simp [Act.exec, at', h]) (hub .deadHandle)
    | some k =>
      rw [h] at e1
      refine ⟨(), { v with hs := upd v.hs l (some { k with alloc := a }) }, { P with hs := upd P.hs l (some { k with alloc := a }) }, e, by simp [Act.exec, ← e1],
        Change.obj l _ hA ?_ rfl rfl rfl rfl, trivial, hai, hti, ?_⟩
      · rintro h' q ⟨⟩ hq; exact K.own l k q hA h hq
      · intro f hf; exact ⟨hf, by simp [Act.exec, at', h]⟩
  | emplace l k =>
    have e1 := hobjs l (F.sub _ hA.1)
    cases h : P.hs l with
    | some k => exact absurd (by simp [Act.exec, at', h]) (hub .liveHandle)
    | none =>
      rw [h] at e1
      refine ⟨(), { v with hs := upd v.hs l (some k) }, { P with hs := upd P.hs l (some k) }, e, by simp [Act.exec, ← e1],
        Change.obj l _ hA.1 ?_ rfl rfl rfl rfl, trivial, hai, hti, ?_⟩
      · rintro h' q ⟨⟩ hq; exact hA.2 q hq
      · intro f hf; exact ⟨hf, by simp [Act.exec, at', h]⟩
  | endLife l =>
    have e1 := hobjs l (F.sub _ hA)
    cases h : P.hs l with
    | none => exact absurd (by simp [Act.exec, at', h]) (hub .deadHandle)
    | some k =>
      rw [h] at e1
      refine ⟨(), { v with hs := upd v.hs l none }, { P with hs := upd P.hs l none }, e, by simp [Act.exec, ← e1],
        Change.obj l _ hA ?_ rfl rfl rfl rfl, trivial, hai, hti, ?_⟩
      · rintro h' q ⟨⟩
      · intro f hf; exact ⟨hf, by simp [Act.exec, at', h]⟩
  | allocate r =>
    have hfail : v.env.fail v.ai = true ∨ v.heap (v.env.pick v.ai) ≠ none →
        (Act.allocate r).exec v = .ok (none, { v with ai := v.ai + 1 }) := by
      intro h
      simp only [Act.exec]
      cases hf : v.env.fail v.ai with
      | true => simp
      | false =>
        cases hh : v.heap (v.env.pick v.ai) with
        | none => simp [hf, hh] at h
        | some c => simp
    by_cases hc : v.env.fail v.ai = true ∨ v.heap (v.env.pick v.ai) ≠ none
    · refine ⟨none, { v with ai := v.ai + 1 }, { P with ai := P.ai + 1 }, failNow e P.ai, hfail hc, Change.keep rfl rfl rfl rfl,
        ?_, by simp [hai], hti, ?_⟩
      · intro q hq; cases hq
      · intro f hf
        obtain ⟨h1, h2⟩ := agree_fail hf
        exact ⟨h1, by simp [Act.exec, at', h2]⟩
    · have h1 : v.env.fail v.ai = false := by
        cases h : v.env.fail v.ai with
        | false => rfl
        | true => exact absurd (.inl h) hc
      have h2 : v.heap (v.env.pick v.ai) = none := Classical.byContradiction fun h => hc (.inr h)
      have h3 : P.heap (v.env.pick v.ai) = none := by
        cases h : P.heap (v.env.pick v.ai) with
        | none => rfl
        | some k => rw [hblocks _ k h] at h2; cases h2
      have h4 : ¬ F.G (v.env.pick v.ai) := fun h => K.live _ h h3
      refine ⟨some (v.env.pick v.ai), { v with
          ai := v.ai + 1
          heap := upd v.heap (v.env.pick v.ai) (some ⟨r, Body.raw⟩)
          trace := v.trace ++ [.alloc r (v.env.pick v.ai)] }, { P with
          ai := P.ai + 1
          heap := upd P.heap (v.env.pick v.ai) (some ⟨r, Body.raw⟩)
          trace := P.trace ++ [.alloc r (v.env.pick v.ai)] }, serveNow e P.ai (v.env.pick v.ai),
        by simp [Act.exec, h1, h2], Change.block _ _ h4 (.inr h2) ?_ rfl rfl rfl rfl, ?_, by simp [hai], hti, ?_⟩
      · rintro c r' ⟨⟩ hr
        rw [hraw] at hr
        cases hr
      · intro q hq; cases hq; exact h4
      · intro f hf
        obtain ⟨g1, g2, g3⟩ := agree_serve hf
        exact ⟨g1, by simp [Act.exec, at', g2, g3, h3]⟩
  | deallocate r p =>
    cases h : P.heap p with
    | none => exact absurd (by simp [Act.exec, at', h]) (hub .badFree)
    | some c =>
      have e1 := hblocks p c h
      by_cases hr : c.arena = r
      · by_cases ho : Body.occupied c.body = true
        · exact absurd (by simp [Act.exec, at', h, hr, ho]) (hub .freeLive)
        · refine ⟨(), { v with heap := upd v.heap p none, trace := v.trace ++ [.dealloc r p] }, { P with heap := upd P.heap p none, trace := P.trace ++ [.dealloc r p] }, e,
            by simp [Act.exec, e1, hr, ho], Change.block _ _ hA (.inl (by simp [h])) ?_ rfl rfl rfl rfl, trivial,
            hai, hti, ?_⟩
          · rintro c r' ⟨⟩
          · intro f hf; exact ⟨hf, by simp [Act.exec, at', h, hr, ho]⟩
      · exact absurd (by simp [Act.exec, at', h, hr]) (hub .wrongArena)
  | readBody p =>
    cases h : P.heap p with
    | none => exact absurd (by simp [Act.exec, at', h]) (hub .deadObject)
    | some c =>
      have e1 := hblocks p c h
      refine ⟨c.body, v, P, e, by simp [Act.exec, e1], Change.keep rfl rfl rfl rfl, ?_, hai, hti, ?_⟩
      · intro hw r hr; exact K.body p c r hw h hr
      · intro f hf; exact ⟨hf, by simp [Act.exec, at', h]⟩
  | writeBody p b =>
    cases h : P.heap p with
    | none => exact absurd (by simp [Act.exec, at', h]) (hub .deadObject)
    | some c =>
      have e1 := hblocks p c h
      refine ⟨(), { v with heap := upd v.heap p (some { c with body := b }) }, { P with heap := upd P.heap p (some { c with body := b }) }, e,
        by simp [Act.exec, e1], Change.block _ _ hA.1 (.inl (by simp [h])) ?_ rfl rfl rfl rfl, trivial, hai, hti, ?_⟩
      · rintro c' r' ⟨⟩ hr; exact hA.2 r' hr
      · intro f hf; exact ⟨hf, by simp [Act.exec, at', h]⟩
  | «begin» p g evs =>
    cases h : P.heap p with
    | none => exact absurd (by simp [Act.exec, at', h]) (hub .notRaw)
    | some c =>
      have e1 := hblocks p c h
      cases hg : g c.body with
      | none => exact absurd (by simp [Act.exec, at', h, hg]) (hub .notRaw)
      | some b =>
        refine ⟨(), { v with heap := upd v.heap p (some { c with body := b }), trace := v.trace ++ evs }, { P with heap := upd P.heap p (some { c with body := b }), trace := P.trace ++ evs }, e,
          by simp [Act.exec, e1, hg], Change.block _ _ hA.1 (.inl (by simp [h])) ?_ rfl rfl rfl rfl, trivial, hai,
          hti, ?_⟩
        · rintro c' r' ⟨⟩ hr; exact hA.2 c.body b hg (fun r hr => K.body p c r hA.1 h hr) r' hr
        · intro f hf; exact ⟨hf, by simp [Act.exec, at', h, hg]⟩
  | emit ev =>
    refine ⟨(), { v with trace := v.trace ++ [ev] }, { P with trace := P.trace ++ [ev] }, e, rfl, Change.keep rfl rfl rfl rfl, trivial, hai, hti, ?_⟩
    intro f hf; exact ⟨hf, by simp [Act.exec, at']⟩
  | choose =>
    refine ⟨v.env.choice v.ti, { v with ti := v.ti + 1 }, { P with ti := P.ti + 1 }, chooseNow e P.ti (v.env.choice v.ti), rfl,
      Change.keep rfl rfl rfl rfl, trivial, hai, by simp [hti], ?_⟩
    intro f hf
    obtain ⟨h1, h2⟩ := agree_choose hf
    exact ⟨h1, by simp [Act.exec, at', h2]⟩

end Step

theorem Sync.change {owner : L → Option Th} {s v P' S' : St L A R B} {pv : Th → St L A R B} {i : Th} {bp : B → Option Addr}
    (S : Sync owner s v.hs v.heap pv) (C : Change (frame bp owner s i) (pv i) v P' S') :
    Sync owner s S'.hs S'.heap (upd pv i P') := by
  cases C with
  | keep h1 h2 h3 h4 => rw [h3, h4]; exact S.keep h1 h2
  | obj l x hl hx h1 h2 h3 h4 => rw [h3, h4]; exact S.setH hl h1 h2
  | block q x hq hm hx h1 h2 h3 h4 => rw [h3, h4]; exact S.setB hq hm h1 h2

section Main
variable (api : Api L A R B Op Out) (owner : L → Option Th) (next : Th → List (Seen Out) → Option Op) (s : St L A R B)

/-- Everything a thread alone can reach is in order. -/
theorem alone_ok {api : Api L A R B Op Out} {owner : L → Option Th} {next : Th → List (Seen Out) → Option Op}
    {s : St L A R B} {i : Th} (hs : api.Ok s)
    (hF : MFair api.call api.legal api.operands api.changes owner next s i) {log : List (Seen Out)} {u : St L A R B}
    (h : MAlone api.call (next i) (part s (Uses owner i)) log u) : api.Ok u := by
  induction h with
  | start => exact api.okPart _ _ hs
  | ret o e out h hn hc ih =>
    have := api.safe o e _ ih (hF _ _ _ h hn).1
    rw [hc] at this; exact this
  | threw o e x h hn hc ih =>
    have := api.safe o e _ ih (hF _ _ _ h hn).1
    rw [hc] at this; exact this

/-- A thread and its private state: idle as after calls made alone, or within a call that could be made alone. -/
def Mid (i : Th) (t : Thread L A R B Out) (P : St L A R B) : Prop :=
  match t.cur with
  | none => MAlone api.call (next i) (part s (Uses owner i)) t.log P
  | some m => ∃ u o e, MAlone api.call (next i) (part s (Uses owner i)) t.log u ∧ next i t.log = some o ∧
      Within.Within (frame api.bp owner s i) Any m ∧ Kept (frame api.bp owner s i) P ∧ P.ai = t.ai ∧ P.ti = t.ti ∧
      ∀ f, Agree e f t.ai t.ti → Prog.interp (api.prog o) (u.enter f) = Prog.interp m (at' P f)

/-- The invariant of every interleaving. -/
def Good (c : Conf Th L A R B Out) : Prop :=
  ∃ pv, Sync owner s c.hs c.heap pv ∧ ∀ i, Mid api owner next s i (c.th i) (pv i)

/-- The outcome of interleavings. -/
def GoodOut : Outcome (Conf Th L A R B Out) → Prop
  | .running c => Good api owner next s c
  | .terminated => ∃ i log u o e, MAlone api.call (next i) (part s (Uses owner i)) log u ∧ next i log = some o ∧
      api.call o e u = .terminated
  | .ub _ => False

variable {api owner next s}

theorem Mid.upd {c : Conf Th L A R B Out} {pv : Th → St L A R B} (M : ∀ j, Mid api owner next s j (c.th j) (pv j)) {i : Th}
    {t : Thread L A R B Out} {P : St L A R B} (h : Mid api owner next s i t P) :
    ∀ j, Mid api owner next s j (upd c.th i t j) (upd pv i P j) := by
  intro j
  by_cases hj : j = i
  · subst hj; simpa [Verif.upd] using h
  · simpa [Verif.upd, hj] using M j

theorem kept_start {i : Th} {hs : L → Option (Handle A)} {heap : Addr → Option (Cell R B)} {pv : Th → St L A R B}
    (hok : api.Ok s) (S : Sync owner s hs heap pv) (h : api.Ok (pv i)) : Kept (frame api.bp owner s i) (pv i) := by
  have hown : ∀ l k p, owner l = some i → (pv i).hs l = some k → k.p = some p → ¬ Sh owner s p := by
    rintro l k p hl hk hp ⟨z, h', hz, hz', hp'⟩
    have e1 : (pv i).hs z = some h' := by rw [S.objs i z (.inr hz), S.hs0 z hz]; exact hz'
    have := api.uniq _ _ _ _ _ _ h hk e1 hp hp'
    subst this
    rw [hl] at hz; cases hz
  refine ⟨hown, ?_, ?_⟩
  · intro p c r hp hc hr
    rw [api.body _ _ _ _ h hc hr]; exact hp
  · rintro p ⟨z, h', hz, hz', hp'⟩
    rw [S.sh i p ⟨z, h', hz, hz', hp'⟩, S.heap0 p ⟨z, h', hz, hz', hp'⟩]
    exact api.own _ _ _ _ hok hz' hp'

theorem tick_good (hok : api.Ok s) (hF : ∀ i, MFair api.call api.legal api.operands api.changes owner next s i)
    {c : Conf Th L A R B Out} (G : Good api owner next s c) (i : Th) (e : Env) :
    GoodOut api owner next s (Conf.tick api.prog next i e c) := by
  obtain ⟨pv, S, M⟩ := G
  have Mi := M i
  unfold Conf.tick
  cases hc : (c.th i).cur with
  | none =>
    simp only [Mid, hc] at Mi
    cases hn : next i (c.th i).log with
    | none => exact ⟨pv, S, M⟩
    | some o =>
      have hl := hF i _ _ _ Mi hn
      have K := kept_start hok S (alone_ok hok (hF i) Mi)
      refine ⟨Verif.upd pv i ((pv i).enter e), S.keep rfl rfl, Mid.upd M ?_⟩
      refine ⟨pv i, o, e, Mi, hn, ?_, K.keep rfl rfl, rfl, rfl, fun f _ => rfl⟩
      refine api.within _ o rfl ?_ ?_
      · intro z hz
        rcases hl.2 z hz with h | h
        · exact .inl h
        · exact .inr h.1
      · intro z hz
        rcases hl.2 z (api.chg o z hz) with h | h
        · exact h
        · exact absurd hz h.2
  | some m =>
    simp only [Mid, hc] at Mi
    obtain ⟨u, o, e', hal, hn, hw, K, hai, hti, hint⟩ := Mi
    have hsafe := api.safe o e' u (alone_ok hok (hF i) hal) (hF i _ _ _ hal hn).1
    have hcall : api.call o e' u = Prog.interp m (at' (pv i) e') := by
      rw [api.call_eq]; exact hint e' (Agree.refl _ _ _)
    cases m with
    | ret out =>
      refine ⟨Verif.upd pv i (at' (pv i) e'), S.keep rfl rfl, Mid.upd M ?_⟩
      exact .ret o e' out hal hn hcall
    | throw x =>
      refine ⟨Verif.upd pv i (at' (pv i) e'), S.keep rfl rfl, Mid.upd M ?_⟩
      exact .threw o e' x hal hn hcall
    | terminate => exact ⟨i, _, u, o, e', hal, hn, hcall⟩
    | undef b => rw [hcall] at hsafe; exact hsafe
    | act a k =>
      have hub : ∀ b, a.exec (at' (pv i) e') ≠ .error b := by
        intro b hb
        rw [hcall] at hsafe
        simp only [Prog.interp, hb, Safe] at hsafe
      obtain ⟨r, S', P', e'', h1, h2, h4, h5, h6, h7⟩ :=
        act_step (v := c.view i) (e := e') api.raw (S.objs i) (S.blocks i) K hw.1 hai hti hub
      simp only [h1]
      refine ⟨Verif.upd pv i P', S.change h2, Mid.upd M ?_⟩
      refine ⟨u, o, e'', hal, hn, hw.2 r h4, h2.kept K, h5, h6, ?_⟩
      intro f hf
      obtain ⟨g1, g2⟩ := h7 f (by rw [h5, h6]; exact hf)
      rw [hint f (by rw [← hai, ← hti]; exact g1)]
      simp only [Prog.interp, g2]

theorem exec_good (hok : api.Ok s) (hF : ∀ i, MFair api.call api.legal api.operands api.changes owner next s i)
    (sched : List (Th × Env)) {c : Conf Th L A R B Out} (G : Good api owner next s c) :
    GoodOut api owner next s (Conf.exec api.prog next sched c) := by
  induction sched generalizing c with
  | nil => exact G
  | cons x sched ih =>
    have := tick_good hok hF G x.1 x.2
    simp only [Conf.exec]
    cases h : Conf.tick api.prog next x.1 x.2 c with
    | running c' => rw [h] at this; exact ih this
    | terminated => rw [h] at this; exact this
    | ub u => rw [h] at this; exact this

theorem start_good (hok : api.Ok s) : Good api owner next s (Conf.start s : Conf Th L A R B Out) := by
  refine ⟨fun i => part s (Uses owner i), ?_, fun i => .start⟩
  refine ⟨?_, ?_, ?_, ?_, ?_, ?_, fun _ _ => rfl, fun _ _ => rfl⟩
  · intro i z hz; simp [part, hz, Conf.start]
  · intro i z hz; simp [part, hz]
  · intro i p k h
    simp only [part] at h
    split at h
    · exact h
    · cases h
  · intro i j p k k' hne h h'
    simp only [part] at h h'
    split at h
    · rename_i hx
      obtain ⟨z, g, hz, hg, hp⟩ := hx
      split at h'
      · rename_i hx'
        obtain ⟨z', g', hz', hg', hp'⟩ := hx'
        have := api.uniq _ _ _ _ _ _ hok hg hg' hp hp'
        subst this
        refine ⟨z, g, ?_, hg, hp⟩
        rcases hz with h1 | h1
        · rcases hz' with h2 | h2
          · rw [h1] at h2; cases h2; exact absurd rfl hne
          · exact h2
        · exact h1
      · cases h'
    · cases h
  · rintro i p ⟨z, h, hz, hz', hp⟩
    simp only [part, Conf.start]
    rw [if_pos ⟨z, h, .inr hz, hz', hp⟩]
  · intro p k hk
    obtain ⟨z, h, hz, hp⟩ := api.owned _ _ _ hok hk
    cases ho : owner z with
    | none => exact .inl ⟨z, h, ho, hz, hp⟩
    | some i =>
      refine .inr ⟨i, ?_⟩
      simp only [part]
      rw [if_pos ⟨z, h, .inl ho, hz, hp⟩]
      exact hk

/-- No data race. -/
theorem Good.noRace (hok : api.Ok s) (hF : ∀ i, MFair api.call api.legal api.operands api.changes owner next s i)
    {c : Conf Th L A R B Out} (G : Good api owner next s c) : ¬ Race c := by
  obtain ⟨pv, S, M⟩ := G
  rintro ⟨i, j, a, b, x, hne, ha, hb, hta, htb, hro⟩
  have key : ∀ i a, nextAct (c.th i) = some a → ∀ x, touches a x →
      (match x with
        | .obj l => Uses owner i l
        | .block p => (pv i).heap p ≠ none) ∧
      (¬ readOnly a → match x with
        | .obj l => owner l = some i
        | .block p => ¬ Sh owner s p) := by
    intro i a ha x hx
    have Mi := M i
    unfold nextAct at ha
    cases hc : (c.th i).cur with
    | none => rw [hc] at ha; cases ha
    | some m =>
      rw [hc] at ha
      simp only [Mid, hc] at Mi
      obtain ⟨u, o, e', hal, hn, hw, K, hai, hti, hint⟩ := Mi
      have hsafe := api.safe o e' u (alone_ok hok (hF i) hal) (hF i _ _ _ hal hn).1
      cases m with
      | act a' k =>
        cases ha
        have hcall : api.call o e' u = Prog.interp (.act a k) (at' (pv i) e') := by
          rw [api.call_eq]; exact hint e' (Agree.refl _ _ _)
        have hub : ∀ b, a.exec (at' (pv i) e') ≠ .error b := by
          intro b hb
          rw [hcall] at hsafe
          simp only [Prog.interp, hb, Safe] at hsafe
        have hA := hw.1
        cases a with
        | getH l => cases hx; exact ⟨hA, fun h => absurd trivial h⟩
        | setP l p => cases hx; exact ⟨.inl hA.1, fun _ => hA.1⟩
        | setAlloc l p => cases hx; exact ⟨.inl hA, fun _ => hA⟩
        | emplace l p => cases hx; exact ⟨.inl hA.1, fun _ => hA.1⟩
        | endLife l => cases hx; exact ⟨.inl hA, fun _ => hA⟩
        | deallocate r p =>
          cases hx
          exact ⟨fun h => hub .badFree (by simp [Act.exec, at', h]), fun _ => hA⟩
        | readBody p =>
          cases hx
          exact ⟨fun h => hub .deadObject (by simp [Act.exec, at', h]), fun h => absurd trivial h⟩
        | writeBody p b =>
          cases hx
          exact ⟨fun h => hub .deadObject (by simp [Act.exec, at', h]), fun _ => hA.1⟩
        | «begin» p f evs =>
          cases hx
          exact ⟨fun h => hub .notRaw (by simp [Act.exec, at', h]), fun _ => hA.1⟩
        | allocate r => exact absurd hx id
        | emit ev => exact absurd hx id
        | choose => exact absurd hx id
      | ret _ => cases ha
      | throw _ => cases ha
      | terminate => cases ha
      | undef _ => cases ha
  have hA := key i a ha x hta
  have hB := key j b hb x htb
  have hw : ¬ readOnly a ∨ ¬ readOnly b := by
    by_cases h : readOnly a
    · exact .inr fun h' => hro ⟨h, h'⟩
    · exact .inl h
  cases x with
  | obj l =>
    simp only at hA hB
    rcases hw with h | h
    · have h1 := hA.2 h
      rcases hB.1 with h2 | h2 <;> rw [h1] at h2 <;> cases h2
      exact hne rfl
    · have h1 := hB.2 h
      rcases hA.1 with h2 | h2 <;> rw [h1] at h2 <;> cases h2
      exact hne rfl
  | block p =>
    simp only at hA hB
    obtain ⟨k, hk⟩ := Option.ne_none_iff_exists'.1 hA.1
    obtain ⟨k', hk'⟩ := Option.ne_none_iff_exists'.1 hB.1
    have hsh := S.disj i j p k k' hne hk hk'
    rcases hw with h | h
    · exact hA.2 h hsh
    · exact hB.2 h hsh

end Main

/-! ## In terms of values -/

/-- In addition: what the calls mean on plain values. -/
structure VApi (L A R B V N Op : Type) [DecidableEq L] [DecidableEq R] [Body B] extends Api L A R B Op (Verif.Out L A V) where
  abs : St L A R B → Spec.Boxes L A V
  vlegal : Spec.Boxes L A V → Op → Prop
  seed : Env → N
  step : Bool → N → Spec.Boxes L A V → Op → Spec.Result L A V
  legal_eq : ∀ s o, legal s o ↔ vlegal (abs s) o
  refines : ∀ s o e, Ok s → vlegal (abs s) o → match call o e s with
    | .ok out s' => step (available s e) (seed e) (abs s) o = .ret out (abs s')
    | .threw x s' => step (available s e) (seed e) (abs s) o = .threw x (abs s')
    | .terminated => step (available s e) (seed e) (abs s) o = .terminated
    | _ => False
  local_legal : ∀ D σ σ' o, Indirect.Agree D σ σ' → (∀ z ∈ operands o, D z) → (vlegal σ o ↔ vlegal σ' o)
  local_step : ∀ D σ σ' o m n, Indirect.Agree D σ σ' → (∀ z ∈ operands o, D z) →
    Indirect.RAgree D (step m n σ o) (step m n σ' o)
  local_abs : ∀ s s' z, s.hs z = s'.hs z → (∀ h p, s.hs z = some h → h.p = some p → s.heap p = s'.heap p) →
    abs s z = abs s' z

section Values
variable {V N : Type} {api : VApi L A R B V N Op} {owner : L → Option Th}
  {next : Th → List (Seen (Verif.Out L A V)) → Option Op} {s : St L A R B}

/-- What happens alone in memory happens alone on values. -/
theorem alone_values {i : Th} (hok : api.Ok s)
    (hF : Spec.Fair api.step api.vlegal api.operands api.changes owner next (api.abs s) i)
    {log : List (Seen (Verif.Out L A V))} {u : St L A R B}
    (h : MAlone api.call (next i) (part s (Uses owner i)) log u) :
    api.Ok u ∧ ∃ τ, Spec.Alone api.step (next i) (api.abs s) log τ ∧ Indirect.Agree (Uses owner i) τ (api.abs u) := by
  have step : ∀ {log : List (Seen (Verif.Out L A V))} {u : St L A R B} {τ : Spec.Boxes L A V} {o : Op} (e : Env),
      api.Ok u → Spec.Alone api.step (next i) (api.abs s) log τ → Indirect.Agree (Uses owner i) τ (api.abs u) →
      next i log = some o → Safe api.Ok (api.call o e u) ∧ (match api.call o e u with
        | .ok out s' => api.step (available u e) (api.seed e) (api.abs u) o = .ret out (api.abs s')
        | .threw x s' => api.step (available u e) (api.seed e) (api.abs u) o = .threw x (api.abs s')
        | .terminated => api.step (available u e) (api.seed e) (api.abs u) o = .terminated
        | _ => False) ∧
      Indirect.RAgree (Uses owner i) (api.step (available u e) (api.seed e) τ o)
        (api.step (available u e) (api.seed e) (api.abs u) o) := by
    intro log u τ o e hu ha hag hn
    have hl := hF _ _ _ ha hn
    have hops : ∀ z ∈ api.operands o, Uses owner i z := fun z hz => (hl.2 z hz).imp id And.left
    have hlegal := (api.local_legal _ _ _ o hag hops).1 hl.1
    exact ⟨api.safe o e u hu ((api.legal_eq _ _).2 hlegal), api.refines u o e hu hlegal, api.local_step _ _ _ o _ _ hag hops⟩
  induction h with
  | start =>
    refine ⟨api.okPart _ _ hok, _, .start, ?_⟩
    intro z hz
    refine api.local_abs _ _ _ (by simp [part, hz]) ?_
    intro h p hh hp
    simp only [part]
    rw [if_pos ⟨z, h, hz, hh, hp⟩]
  | ret o e out h hn hc ih =>
    obtain ⟨hu, τ, ha, hag⟩ := ih
    obtain ⟨h1, h2, h3⟩ := step e hu ha hag hn
    rw [hc] at h1 h2
    refine ⟨h1, ?_⟩
    simp only at h2
    rw [h2] at h3
    cases hs : api.step (available _ e) (api.seed e) τ o <;> rw [hs] at h3 <;> simp only [Indirect.RAgree] at h3
    rename_i o' τ'
    obtain ⟨rfl, h3⟩ := h3
    exact ⟨τ', .ret o _ _ ha hn hs, h3⟩
  | threw o e x h hn hc ih =>
    obtain ⟨hu, τ, ha, hag⟩ := ih
    obtain ⟨h1, h2, h3⟩ := step e hu ha hag hn
    rw [hc] at h1 h2
    refine ⟨h1, ?_⟩
    simp only at h2
    rw [h2] at h3
    cases hs : api.step (available _ e) (api.seed e) τ o <;> rw [hs] at h3 <;> simp only [Indirect.RAgree] at h3
    rename_i o' τ'
    obtain ⟨rfl, h3⟩ := h3
    exact ⟨τ', .threw o _ _ ha hn hs, h3⟩

theorem mfair (hok : api.Ok s)
    (hF : ∀ i, Spec.Fair api.step api.vlegal api.operands api.changes owner next (api.abs s) i) (i : Th) :
    MFair api.call api.legal api.operands api.changes owner next s i := by
  intro log u o h hn
  obtain ⟨-, τ, ha, hag⟩ := alone_values hok (hF i) h
  have hl := hF i _ _ _ ha hn
  have hops : ∀ z ∈ api.operands o, Uses owner i z := fun z hz => (hl.2 z hz).imp id And.left
  exact ⟨(api.legal_eq _ _).2 ((api.local_legal _ _ _ o hag hops).1 hl.1), hl.2⟩

variable (hok : api.Ok s) (hF : ∀ i, Spec.Fair api.step api.vlegal api.operands api.changes owner next (api.abs s) i)
include hok hF

theorem reached (sched : List (Th × Env)) :
    GoodOut api.toApi owner next s (Conf.exec api.prog next sched (Conf.start s)) :=
  exec_good hok (mfair hok hF) sched (start_good hok)

theorem no_ub (sched : List (Th × Env)) (u : UB) : Conf.exec api.prog next sched (Conf.start s) ≠ .ub u := by
  intro h
  have := reached hok hF sched
  rw [h] at this; exact this

theorem no_race {sched : List (Th × Env)} {c : Conf Th L A R B (Verif.Out L A V)}
    (h : Conf.exec api.prog next sched (Conf.start s) = .running c) : ¬ Race c := by
  have := reached hok hF sched
  rw [h] at this; exact Good.noRace hok (mfair hok hF) this

theorem as_alone {sched : List (Th × Env)} {c : Conf Th L A R B (Verif.Out L A V)}
    (h : Conf.exec api.prog next sched (Conf.start s) = .running c) (i : Th) :
    ∃ τ, Spec.Alone api.step (next i) (api.abs s) (c.th i).log τ ∧
      ((c.th i).cur = none → ∀ z, Uses owner i z → api.abs (c.view i) z = τ z) := by
  have G := reached hok hF sched
  rw [h] at G
  obtain ⟨pv, S, M⟩ := G
  have Mi := M i
  cases hc : (c.th i).cur with
  | some m =>
    simp only [Mid, hc] at Mi
    obtain ⟨u, o, e', hal, -⟩ := Mi
    obtain ⟨-, τ, ha, -⟩ := alone_values hok (hF i) hal
    exact ⟨τ, ha, fun h => by cases h⟩
  | none =>
    simp only [Mid, hc] at Mi
    obtain ⟨hk, τ, ha, hag⟩ := alone_values hok (hF i) Mi
    refine ⟨τ, ha, fun _ z hz => ?_⟩
    rw [hag z hz]
    refine (api.local_abs _ _ _ (S.objs i z hz) ?_).symm
    intro k p hk' hp
    obtain ⟨c', hc'⟩ := Option.ne_none_iff_exists'.1 (api.own _ _ _ _ hk hk' hp)
    rw [hc']; exact (S.blocks i p c' hc').symm

theorem shared_same {sched : List (Th × Env)} {c : Conf Th L A R B (Verif.Out L A V)}
    (h : Conf.exec api.prog next sched (Conf.start s) = .running c) (i : Th) {z : L} (hz : owner z = none) :
    api.abs (c.view i) z = api.abs s z := by
  have G := reached hok hF sched
  rw [h] at G
  obtain ⟨pv, S, -⟩ := G
  refine (api.local_abs _ _ _ (S.hs0 z hz).symm ?_).symm
  intro k p hk hp
  exact (S.heap0 p ⟨z, k, hz, hk, hp⟩).symm

theorem terminated_alone {sched : List (Th × Env)}
    (h : Conf.exec api.prog next sched (Conf.start s) = .terminated) :
    ∃ i log τ o mem n, Spec.Alone api.step (next i) (api.abs s) log τ ∧ next i log = some o ∧
      api.step mem n τ o = .terminated := by
  have G := reached hok hF sched
  rw [h] at G
  obtain ⟨i, log, u, o, e, hal, hn, hc⟩ := G
  obtain ⟨hk, τ, ha, hag⟩ := alone_values hok (hF i) hal
  have hl := hF i _ _ _ ha hn
  have hops : ∀ z ∈ api.operands o, Uses owner i z := fun z hz => (hl.2 z hz).imp id And.left
  have h2 := api.refines u o e hk ((api.local_legal _ _ _ o hag hops).1 hl.1)
  rw [hc] at h2
  have h3 := api.local_step _ _ _ o (available u e) (api.seed e) hag hops
  simp only at h2
  rw [h2] at h3
  refine ⟨i, log, τ, o, available u e, api.seed e, ha, hn, ?_⟩
  cases hs : api.step (available u e) (api.seed e) τ o <;> rw [hs] at h3 <;> simp only [Indirect.RAgree] at h3

theorem owned_once {sched : List (Th × Env)} {c : Conf Th L A R B (Verif.Out L A V)}
    (h : Conf.exec api.prog next sched (Conf.start s) = .running c) (hidle : ∀ i, (c.th i).cur = none) :
    (∀ p k, c.heap p = some k → ∃ z h, c.hs z = some h ∧ h.p = some p) ∧
    (∀ z h p, c.hs z = some h → h.p = some p → c.heap p ≠ none) ∧
    ∀ z z' h h' p, c.hs z = some h → c.hs z' = some h' → h.p = some p → h'.p = some p → z = z' := by
  have G := reached hok hF sched
  rw [h] at G
  obtain ⟨pv, S, M⟩ := G
  have ok : ∀ i, api.Ok (pv i) := by
    intro i
    have Mi := M i
    simp only [Mid, hidle i] at Mi
    exact (alone_values hok (hF i) Mi).1
  have shlive : ∀ p, Sh owner s p → c.heap p ≠ none := by
    rintro p ⟨z, k, hz, hk, hp⟩
    rw [S.heap0 p ⟨z, k, hz, hk, hp⟩]
    exact api.own _ _ _ _ hok hk hp
  have hown : ∀ z h p i, owner z = some i → c.hs z = some h → h.p = some p → (pv i).hs z = some h ∧ (pv i).heap p ≠ none := by
    intro z h p i hz hh hp
    have e1 : (pv i).hs z = some h := by rw [S.objs i z (.inl hz)]; exact hh
    exact ⟨e1, api.own _ _ _ _ (ok i) e1 hp⟩
  have hnsh : ∀ z h p i, owner z = some i → c.hs z = some h → h.p = some p → ¬ Sh owner s p := by
    intro z h p i hz hh hp
    exact (kept_start hok S (ok i)).own z h p hz (hown z h p i hz hh hp).1 hp
  refine ⟨?_, ?_, ?_⟩
  · intro p k hk
    rcases S.cover p k hk with ⟨z, h, hz, hh, hp⟩ | ⟨i, hi⟩
    · exact ⟨z, h, by rw [S.hs0 z hz]; exact hh, hp⟩
    · obtain ⟨z, h, hh, hp⟩ := api.owned _ _ _ (ok i) hi
      refine ⟨z, h, ?_, hp⟩
      have hu : Uses owner i z := Classical.byContradiction fun hn => by rw [S.hsN i z hn] at hh; cases hh
      rw [← S.objs i z hu]; exact hh
  · intro z h p hh hp
    cases hz : owner z with
    | none => exact shlive p ⟨z, h, hz, by rw [← S.hs0 z hz]; exact hh, hp⟩
    | some i =>
      obtain ⟨k, hk⟩ := Option.ne_none_iff_exists'.1 (hown z h p i hz hh hp).2
      rw [S.blocks i p k hk]; simp
  · intro z z' h h' p hh hh' hp hp'
    cases hz : owner z with
    | none =>
      cases hz' : owner z' with
      | none => exact api.uniq _ _ _ _ _ _ hok (by rw [← S.hs0 z hz]; exact hh) (by rw [← S.hs0 z' hz']; exact hh') hp hp'
      | some j => exact absurd ⟨z, h, hz, by rw [← S.hs0 z hz]; exact hh, hp⟩ (hnsh z' h' p j hz' hh' hp')
    | some i =>
      cases hz' : owner z' with
      | none => exact absurd ⟨z', h', hz', by rw [← S.hs0 z' hz']; exact hh', hp'⟩ (hnsh z h p i hz hh hp)
      | some j =>
        obtain ⟨g1, g2⟩ := hown z h p i hz hh hp
        obtain ⟨g3, g4⟩ := hown z' h' p j hz' hh' hp'
        by_cases hij : i = j
        · subst hij; exact api.uniq _ _ _ _ _ _ (ok i) g1 g3 hp hp'
        · obtain ⟨k, hk⟩ := Option.ne_none_iff_exists'.1 g2
          obtain ⟨k', hk'⟩ := Option.ne_none_iff_exists'.1 g4
          exact absurd (S.disj i j p k k' hij hk hk') (hnsh z h p i hz hh hp)

end Values

end Verif.Conc
