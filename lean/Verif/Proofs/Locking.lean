import Verif.Proofs.Synced
import Verif.Spec.Locking

/-!
Threads that follow a proof outline synchronise.
-/

set_option autoImplicit false
set_option linter.unusedSectionVars false
set_option linter.unusedSimpArgs false

namespace Verif.Conc
open Verif.Spec (Serial Conflict MayUse MayChange Outline After Begins)

variable {Th M K L A R B V N Op : Type} [DecidableEq Th] [DecidableEq M] [DecidableEq L] [DecidableEq R] [Body B]

/-! ## Mutexes -/

/-- A mutex that is locked exclusively is not locked by others. -/
def Alone (x : Mutex Th) : Prop := x.writer ≠ none → x.readers = []

theorem Alone.excl {x : Mutex Th} (h : Alone x) {i j : Th} (hi : x.held i = some .exclusive) (hj : x.held j ≠ none) : j = i := by
  unfold Mutex.held at hi hj
  split at hi
  · rename_i hw
    have := h (by rw [hw]; simp)
    rw [hw, this] at hj
    split at hj
    · rename_i e; exact (Option.some.inj e).symm
    · simp at hj
  · split at hi <;> cases hi

theorem held_writer {x : Mutex Th} {i : Th} (h : x.held i = some .exclusive) : x.writer = some i := by
  unfold Mutex.held at h
  split at h
  · assumption
  · split at h <;> cases h

theorem Alone.take {x : Mutex Th} (h : Alone x) {mode : Mode} (ha : x.available mode = true) (i : Th) : Alone (x.take i mode) := by
  cases mode with
  | exclusive =>
    simp only [Mutex.available, Bool.and_eq_true, List.isEmpty_iff] at ha
    intro _; exact ha.2
  | shared =>
    simp only [Mutex.available, Option.isNone_iff_eq_none] at ha
    intro hw; exact absurd ha hw

theorem held_take {x : Mutex Th} {mode : Mode} (ha : x.available mode = true) (i : Th) :
    (x.take i mode).held i = some mode := by
  cases mode with
  | exclusive => simp [Mutex.take, Mutex.held]
  | shared =>
    simp only [Mutex.available, Option.isNone_iff_eq_none] at ha
    simp [Mutex.take, Mutex.held, ha]

theorem held_take_ne {x : Mutex Th} {mode : Mode} (ha : x.available mode = true) {i j : Th} (hj : j ≠ i) :
    (x.take i mode).held j = x.held j := by
  cases mode with
  | exclusive =>
    simp only [Mutex.available, Bool.and_eq_true, List.isEmpty_iff, Option.isNone_iff_eq_none] at ha
    simp [Mutex.take, Mutex.held, ha, Ne.symm hj]
  | shared => simp [Mutex.take, Mutex.held, hj]

theorem Alone.release {x : Mutex Th} (h : Alone x) (i : Th) : Alone (x.release i) := by
  intro hw
  simp only [Mutex.release] at hw ⊢
  split at hw
  · exact absurd rfl hw
  · rw [h hw]; rfl

theorem held_release {x : Mutex Th} (i : Th) : (x.release i).held i = none := by
  simp only [Mutex.release, Mutex.held]
  by_cases h : x.writer = some i <;> simp [h]

theorem held_release_ne {x : Mutex Th} {i j : Th} (hj : j ≠ i) : (x.release i).held j = x.held j := by
  simp only [Mutex.release, Mutex.held, List.mem_filter, decide_eq_true_eq, hj, ne_eq, not_false_eq_true, and_true]
  by_cases h : x.writer = some i
  · simp [h, Ne.symm hj]
  · simp [h]

/-! ## Events -/

theorem exec_append (prog : Op → Prog L A R B (Out L A V)) (evs evs' : List (Event Th Op)) :
    ∀ c : Sys Th L A R B Op (Out L A V), Sys.exec prog (evs ++ evs') c = match Sys.exec prog evs c with
      | .running c' => Sys.exec prog evs' c'
      | .terminated => .terminated
      | .ub u => .ub u := by
  induction evs with
  | nil => intro c; rfl
  | cons ev evs ih =>
    intro c
    simp only [List.cons_append, Sys.exec]
    cases Sys.tick prog ev c with
    | running c' => exact ih c'
    | terminated => rfl
    | ub u => rfl

section
variable {prog : Op → Prog L A R B (Out L A V)} {step : Bool → N → Spec.Boxes L A V → Op → Spec.Result L A V}
  {legal : Spec.Boxes L A V → Op → Prop} {operands changes : Op → List L} {abs : St L A R B → Spec.Boxes L A V} {s : St L A R B}
  {evs : List (Event Th Op)}

theorem serially_append (h : Spec.SynchronisedSerially prog step legal operands changes abs s evs) (ev : Event Th Op)
    (hev : ∀ i o e c, ev = .start i o e → Sys.exec prog evs (Sys.start s) = .running c → c.run i = none →
      (∀ j o', c.run j = some o' → ¬ Conflict operands changes o o') ∧ ∀ σ, Serial step (abs s) c.done σ → legal σ o) :
    Spec.SynchronisedSerially prog step legal operands changes abs s (evs ++ [ev]) := by
  intro before i o e after c he hx hi
  rcases List.eq_nil_or_concat after with rfl | ⟨after, a, rfl⟩
  · obtain ⟨rfl, h2⟩ := List.append_inj' he rfl
    exact hev i o e c (by simpa using h2) hx hi
  · have he' : evs ++ [ev] = (before ++ .start i o e :: after) ++ [a] := by simpa using he
    exact h before i o e after c (List.append_inj' he' rfl).1 hx hi

theorem serial_inv {σ τ : Spec.Boxes L A V} {done : List (Ended Th Op (Out L A V))} {i : Th} {o : Op} {a : Seen (Out L A V)}
    (h : Serial step σ (done ++ [⟨i, o, a⟩]) τ) : ∃ σ' mem n, Serial step σ done σ' ∧
      ((∃ out, a = .ret out ∧ step mem n σ' o = .ret out τ) ∨ ∃ x, a = .exn x ∧ step mem n σ' o = .threw x τ) := by
  generalize hd : done ++ [⟨i, o, a⟩] = d at h
  cases h with
  | start => simp at hd
  | ret i' o' mem n h hc =>
    obtain ⟨rfl, h2⟩ := List.append_inj' hd rfl
    simp only [List.cons.injEq, Ended.mk.injEq, and_true] at h2
    obtain ⟨rfl, rfl, rfl⟩ := h2
    exact ⟨_, mem, n, h, .inl ⟨_, rfl, hc⟩⟩
  | threw i' o' mem n h hc =>
    obtain ⟨rfl, h2⟩ := List.append_inj' hd rfl
    simp only [List.cons.injEq, Ended.mk.injEq, and_true] at h2
    obtain ⟨rfl, rfl, rfl⟩ := h2
    exact ⟨_, mem, n, h, .inr ⟨_, rfl, hc⟩⟩

end

/-! ## The invariant -/

section
variable {api : LApi L A R B V N Op} {act : Th → K → Todo M Op (Out L A V) K} {guard : L → Spec.Guard Th M}
  {inv : M → Spec.Boxes L A V → Prop} {know : Th → K → (M → Option Mode) → Spec.Boxes L A V → Prop} {s : St L A R B}
  {c : LSys Th M K L A R B Op (Out L A V)}

/-- What is known of the objects, if they are as `σ` says. -/
def Known (inv : M → Spec.Boxes L A V → Prop) (know : Th → K → (M → Option Mode) → Spec.Boxes L A V → Prop)
    (c : LSys Th M K L A R B Op (Out L A V)) (σ : Spec.Boxes L A V) : Prop :=
  (∀ i, know i (c.place i) (c.held i) σ) ∧ ∀ m, (c.table m).writer = none → inv m σ

/-- The invariant. -/
structure LInv (api : LApi L A R B V N Op) (act : Th → K → Todo M Op (Out L A V) K)
    (inv : M → Spec.Boxes L A V → Prop) (know : Th → K → (M → Option Mode) → Spec.Boxes L A V → Prop) (s : St L A R B)
    (c : LSys Th M K L A R B Op (Out L A V)) (evs : List (Event Th Op)) : Prop where
  run : Sys.exec api.prog evs (Sys.start s) = .running c.sys
  sync : Spec.SynchronisedSerially api.prog api.step api.vlegal api.operands api.changes api.abs s evs
  alone : ∀ m, Alone (c.table m)
  calls : ∀ i o, c.sys.run i = some o → ∃ k, act i (c.place i) = .call o k
  known : ∀ σ, Serial api.step (api.abs s) c.sys.done σ → Known inv know c σ

/-- What one thread may change no other thread may use. -/
theorem change_use (ha : ∀ m, Alone (c.table m)) {i j : Th} {z : L} (hi : MayChange guard i (c.held i) z)
    (hj : MayUse guard j (c.held j) z) : j = i := by
  unfold MayChange at hi
  unfold MayUse at hj
  cases hg : guard z with
  | mutex m => rw [hg] at hi hj; exact (ha m).excl hi hj
  | thread k => rw [hg] at hi hj; exact hj.symm.trans hi
  | constant => rw [hg] at hi; exact hi.elim

/-- What a thread may change does not belong to a mutex that is not locked exclusively. -/
theorem change_mutex {i : Th} {z : L} {m : M} (hi : MayChange guard i (c.held i) z) (hz : guard z = .mutex m) :
    (c.table m).writer = some i := by
  unfold MayChange at hi
  rw [hz] at hi
  exact held_writer hi

variable (O : Outline api.step api.vlegal api.operands api.changes act guard inv know)
include O

/-- Nobody but the caller sees what a call does before it ends. -/
theorem known_after {evs : List (Event Th Op)} (I : LInv api act inv know s c evs) {i : Th} {o : Op} {k : Seen (Out L A V) → K}
    (hk : act i (c.place i) = .call o k) {a : Seen (Out L A V)} {sys : Sys Th L A R B Op (Out L A V)} {σ : Spec.Boxes L A V}
    (hσ : Serial api.step (api.abs s) (c.sys.done ++ [⟨i, o, a⟩]) σ) :
    Known inv know { c with sys := sys, place := upd c.place i (k a) } σ := by
  obtain ⟨σ', mem, n, hs, hc⟩ := serial_inv hσ
  obtain ⟨k1, k2⟩ := I.known σ' hs
  obtain ⟨-, h2, -, h4⟩ := O.call i _ _ _ _ _ (k1 i) hk
  have hsame : ∀ z, z ∉ api.changes o → σ' z = σ z := by
    intro z hz
    have := api.frame mem n σ' o z hz
    rcases hc with ⟨out, -, hc⟩ | ⟨x, -, hc⟩
    · exact (this.1 _ _ hc).symm
    · exact (this.2 _ _ hc).symm
  refine ⟨fun j => ?_, fun m hm => ?_⟩
  · by_cases hji : j = i
    · subst hji
      have h5 := h4 mem n
      show know j (upd c.place j (k a) j) (c.held j) σ
      rw [upd_same]
      rcases hc with ⟨out, rfl, hc⟩ | ⟨x, rfl, hc⟩
      · rw [hc] at h5; exact h5
      · rw [hc] at h5; exact h5
    · show know j (upd c.place i (k a) j) (c.held j) σ
      rw [upd_other _ _ hji]
      refine O.know_local j _ _ σ' σ (fun z hz => hsame z fun hch => hji ?_) (k1 j)
      exact change_use I.alone (h2 z hch) hz
  · refine O.inv_local m σ' σ (fun z hz => hsame z fun hch => ?_) (k2 m hm)
    have := change_mutex (h2 z hch) hz
    rw [show (c.table m).writer = none from hm] at this
    cases this

/-- What can come of a turn. -/
def LFit (api : LApi L A R B V N Op) (act : Th → K → Todo M Op (Out L A V) K)
    (inv : M → Spec.Boxes L A V → Prop) (know : Th → K → (M → Option Mode) → Spec.Boxes L A V → Prop) (s : St L A R B) :
    LOutcome (LSys Th M K L A R B Op (Out L A V)) → Prop
  | .running c => ∃ evs, LInv api act inv know s c evs
  | .terminated => ∃ (done : List (Ended Th Op (Out L A V))) (σ : Spec.Boxes L A V) (o : Op) (mem : Bool) (n : N),
      Serial api.step (api.abs s) done σ ∧ api.vlegal σ o ∧ api.step mem n σ o = .terminated
  | .ub _ => False
  | .misuse => False

omit O in
theorem exec_snoc {evs : List (Event Th Op)} {c : Sys Th L A R B Op (Out L A V)} (h : Sys.exec api.prog evs (Sys.start s) = .running c)
    (ev : Event Th Op) : Sys.exec api.prog (evs ++ [ev]) (Sys.start s) = Sys.tick api.prog ev c := by
  rw [exec_append, h]
  simp only [Sys.exec]
  cases Sys.tick api.prog ev c <;> rfl

theorem inCall_fit (hok : api.Ok s) {evs : List (Event Th Op)} (I : LInv api act inv know s c evs) {i : Th} {o : Op}
    (hr : c.sys.run i = some o) : LFit api act inv know s (LSys.inCall api.prog act i c) := by
  have hx := exec_snoc I.run (.step i)
  have hS := serially_append I.sync (.step i) (fun _ _ _ _ h => by cases h)
  have hS' := s_serially hok hS
  unfold LSys.inCall
  cases ht : Sys.tick api.prog (.step i) c.sys with
  | terminated => exact s_terminated hok hS' (hx.trans ht)
  | ub u => exact s_no_ub hok hS' u (hx.trans ht)
  | running s' =>
    rw [ht] at hx
    obtain ⟨k, hk⟩ := I.calls i o hr
    have hshape : (∃ a, (c.sys.conf.th i).ending = some a ∧ s'.run = upd c.sys.run i none ∧ s'.done = c.sys.done ++ [⟨i, o, a⟩]) ∨
        ((c.sys.conf.th i).ending = none ∧ s'.run = c.sys.run ∧ s'.done = c.sys.done) := by
      simp only [Sys.tick, hr] at ht
      split at ht
      · split at ht
        · rename_i a ha
          cases ht; exact .inl ⟨a, ha, rfl, rfl⟩
        · rename_i ha
          cases ht; exact .inr ⟨ha, rfl, rfl⟩
      · cases ht
      · cases ht
    rcases hshape with ⟨a, ha, h1, h2⟩ | ⟨ha, h1, h2⟩
    · simp only [ha, hk]
      refine ⟨_, hx, hS, I.alone, ?_, ?_⟩
      · intro j o' hj
        simp only [h1] at hj
        by_cases hji : j = i
        · subst hji; simp at hj
        · rw [upd_other _ _ hji] at hj
          simpa only [upd_other _ _ hji] using I.calls j o' hj
      · intro σ hσ
        simp only [h2] at hσ
        exact known_after O I hk hσ
    · simp only [ha, hk]
      refine ⟨_, hx, hS, I.alone, ?_, ?_⟩
      · intro j o' hj
        simp only [h1] at hj
        exact I.calls j o' hj
      · intro σ hσ
        simp only [h2] at hσ
        exact I.known σ hσ

theorem between_fit (hok : api.Ok s) {evs : List (Event Th Op)} (I : LInv api act inv know s c evs) {i : Th}
    (hr : c.sys.run i = none) (e : Env) : LFit api act inv know s (LSys.between api.prog act i e c) := by
  obtain ⟨σ₀, hσ₀, -⟩ := s_serial hok (s_serially hok I.sync) I.run
  unfold LSys.between
  cases hk : act i (c.place i) with
  | finish => exact ⟨_, I⟩
  | lock m mode k =>
    simp only
    have h0 := (O.lock i _ _ _ _ _ _ ((I.known σ₀ hσ₀).1 i) hk).1
    rw [if_neg (by rw [h0]; simp)]
    split
    case isFalse => exact ⟨_, I⟩
    rename_i ha
    have hw : (c.table m).writer = none := by
      cases mode <;> simp only [Mutex.available, Bool.and_eq_true, Option.isNone_iff_eq_none] at ha
      · exact ha
      · exact ha.1
    refine ⟨_, I.run, I.sync, ?_, ?_, ?_⟩
    · intro m'
      simp only [upd]
      split
      · exact (I.alone m).take ha i
      · exact I.alone m'
    · intro j o hj
      have hji : j ≠ i := by rintro rfl; rw [hr] at hj; cases hj
      simpa only [upd_other _ _ hji] using I.calls j o hj
    · intro σ hσ
      obtain ⟨k1, k2⟩ := I.known σ hσ
      refine ⟨fun j => ?_, fun m' hm' => ?_⟩
      · by_cases hji : j = i
        · subst hji
          have := (O.lock j _ _ _ _ _ _ (k1 j) hk).2 σ (fun _ _ => rfl) (k2 m hw)
          simp only [upd_same]
          have e1 : (LSys.held { c with place := upd c.place j k, table := upd c.table m ((c.table m).take j mode) } j) =
              upd (c.held j) m (some mode) := by
            funext m'
            simp only [LSys.held, upd]
            split
            · exact held_take ha j
            · rfl
          rw [e1]; exact this
        · simp only [upd_other _ _ hji]
          have e1 : (LSys.held { c with place := upd c.place i k, table := upd c.table m ((c.table m).take i mode) } j) =
              c.held j := by
            funext m'
            simp only [LSys.held, upd]
            split
            · rename_i h; rw [h]; exact held_take_ne ha hji
            · rfl
          rw [e1]; exact k1 j
      · simp only [upd] at hm'
        split at hm'
        · rename_i h; rw [h]; exact k2 m hw
        · exact k2 m' hm'
  | unlock m k =>
    simp only
    have h0 := (O.unlock i _ _ _ _ _ ((I.known σ₀ hσ₀).1 i) hk).1
    rw [if_neg h0]
    refine ⟨_, I.run, I.sync, ?_, ?_, ?_⟩
    · intro m'
      simp only [upd]
      split
      · exact (I.alone m).release i
      · exact I.alone m'
    · intro j o hj
      have hji : j ≠ i := by rintro rfl; rw [hr] at hj; cases hj
      simpa only [upd_other _ _ hji] using I.calls j o hj
    · intro σ hσ
      obtain ⟨k1, k2⟩ := I.known σ hσ
      obtain ⟨-, u2, u3⟩ := O.unlock i _ _ _ _ _ (k1 i) hk
      refine ⟨fun j => ?_, fun m' hm' => ?_⟩
      · by_cases hji : j = i
        · subst hji
          simp only [upd_same]
          have e1 : (LSys.held { c with place := upd c.place j k, table := upd c.table m ((c.table m).release j) } j) =
              upd (c.held j) m none := by
            funext m'
            simp only [LSys.held, upd]
            split
            · exact held_release j
            · rfl
          rw [e1]; exact u3
        · simp only [upd_other _ _ hji]
          have e1 : (LSys.held { c with place := upd c.place i k, table := upd c.table m ((c.table m).release i) } j) =
              c.held j := by
            funext m'
            simp only [LSys.held, upd]
            split
            · rename_i h; rw [h]; exact held_release_ne hji
            · rfl
          rw [e1]; exact k1 j
      · simp only [upd] at hm'
        split at hm'
        · rename_i h
          rw [h]
          by_cases hw : (c.table m).writer = some i
          · exact u2 (by simp [LSys.held, Mutex.held, hw])
          · simp only [Mutex.release, hw, if_false] at hm'
            exact k2 m hm'
        · exact k2 m' hm'
  | call o k =>
    simp only
    have hready : ∀ i' o' e' c', (Event.start i o e : Event Th Op) = .start i' o' e' →
        Sys.exec api.prog evs (Sys.start s) = .running c' → c'.run i' = none →
        (∀ j o'', c'.run j = some o'' → ¬ Conflict api.operands api.changes o' o'') ∧
          ∀ σ, Serial api.step (api.abs s) c'.done σ → api.vlegal σ o' := by
      intro i' o' e' c' he hx' hi'
      cases he
      rw [I.run] at hx'
      cases hx'
      obtain ⟨m1, m2, -, -⟩ := O.call i _ _ _ _ _ ((I.known σ₀ hσ₀).1 i) hk
      refine ⟨fun j o' hj => ?_, fun σ hσ => ?_⟩
      · obtain ⟨k', hk'⟩ := I.calls j o' hj
        obtain ⟨n1, n2, -, -⟩ := O.call j _ _ _ _ _ ((I.known σ₀ hσ₀).1 j) hk'
        have hji : j ≠ i := by rintro rfl; rw [hr] at hj; cases hj
        rintro ⟨z, ⟨hz, hz'⟩ | ⟨hz, hz'⟩⟩
        · exact hji (change_use I.alone (n2 z hz') (m1 z hz)).symm
        · exact hji (change_use I.alone (m2 z hz) (n1 z hz'))
      · exact (O.call i _ _ _ _ _ ((I.known σ hσ).1 i) hk).2.2.1
    have hx := exec_snoc I.run (.start i o e)
    have hS := serially_append I.sync (.start i o e) hready
    cases ht : Sys.tick api.prog (.start i o e) c.sys with
    | terminated => exact s_terminated hok (s_serially hok hS) (hx.trans ht)
    | ub u => exact s_no_ub hok (s_serially hok hS) u (hx.trans ht)
    | running s' =>
      rw [ht] at hx
      simp only [Sys.tick, hr] at ht
      cases ht
      refine ⟨_, hx, hS, I.alone, ?_, ?_⟩
      · intro j o' hj
        by_cases hji : j = i
        · subst hji
          simp only [upd_same] at hj
          cases hj
          exact ⟨k, hk⟩
        · simp only [upd_other _ _ hji] at hj
          exact I.calls j o' hj
      · intro σ hσ
        exact I.known σ hσ

theorem locked_fit (hok : api.Ok s) (sched : List (Th × Env)) : ∀ {c : LSys Th M K L A R B Op (Out L A V)} {evs : List (Event Th Op)},
    LInv api act inv know s c evs → LFit api act inv know s (LSys.exec api.prog act sched c) := by
  induction sched with
  | nil => intro c evs I; exact ⟨_, I⟩
  | cons t sched ih =>
    obtain ⟨i, e⟩ := t
    intro c evs I
    have h : LFit api act inv know s (LSys.tick api.prog act i e c) := by
      unfold LSys.tick
      cases hr : c.sys.run i with
      | some o => exact inCall_fit O hok I hr
      | none => exact between_fit O hok I hr e
    simp only [LSys.exec]
    cases ht : LSys.tick api.prog act i e c with
    | running c' =>
      rw [ht] at h
      obtain ⟨evs', I'⟩ := h
      exact ih I'
    | terminated => rw [ht] at h; exact h
    | ub u => rw [ht] at h; exact h
    | misuse => rw [ht] at h; exact h

/-- From the start. -/
theorem locked (hok : api.Ok s) {place : Th → K} (hb : Begins inv know place (api.abs s)) (sched : List (Th × Env)) :
    LFit api act inv know s (LSys.exec api.prog act sched (LSys.start s place)) := by
  refine locked_fit O hok sched (evs := []) ⟨rfl, ?_, ?_, ?_, ?_⟩
  · intro before i o e after c he
    cases before <;> cases he
  · intro m h; exact absurd rfl h
  · intro i o h; cases h
  · intro σ hσ
    have : σ = api.abs s := by
      have hd : (LSys.start s place : LSys Th M K L A R B Op (Out L A V)).sys.done = [] := rfl
      rw [hd] at hσ
      generalize hl : ([] : List (Ended Th Op (Out L A V))) = l at hσ
      cases hσ with
      | start => rfl
      | ret => simp at hl
      | threw => simp at hl
    subst this
    exact ⟨hb.1, fun m _ => hb.2 m⟩

variable (hok : api.Ok s) {place : Th → K} (hb : Begins inv know place (api.abs s)) (sched : List (Th × Env))
include hok hb

theorem l_no_ub : (∀ u, LSys.exec api.prog act sched (LSys.start s place) ≠ .ub u) ∧
    LSys.exec api.prog act sched (LSys.start s place) ≠ .misuse := by
  have := locked O hok hb sched
  constructor
  · intro u h; rw [h] at this; exact this
  · intro h; rw [h] at this; exact this

variable {sched}

theorem l_no_race (h : LSys.exec api.prog act sched (LSys.start s place) = .running c) : ¬ Spec.Race c.sys.conf := by
  have := locked O hok hb sched
  rw [h] at this
  obtain ⟨evs, I⟩ := this
  exact s_no_race hok (s_serially hok I.sync) I.run

theorem l_serial (h : LSys.exec api.prog act sched (LSys.start s place) = .running c) :
    ∃ σ, Serial api.step (api.abs s) c.sys.done σ ∧
      (∀ i z, (∀ j o, c.sys.run j = some o → z ∉ api.changes o) → api.abs (c.sys.conf.view i) z = σ z) ∧
      (∀ i, know i (c.place i) (c.held i) σ) ∧ ∀ m, (∀ i, c.held i m ≠ some .exclusive) → inv m σ := by
  have := locked O hok hb sched
  rw [h] at this
  obtain ⟨evs, I⟩ := this
  obtain ⟨σ, hσ, hv⟩ := s_serial hok (s_serially hok I.sync) I.run
  obtain ⟨h1, h2⟩ := I.known σ hσ
  refine ⟨σ, hσ, hv, h1, fun m hm => h2 m ?_⟩
  cases hw : (c.table m).writer with
  | none => rfl
  | some i => exact absurd (by simp [LSys.held, Mutex.held, hw]) (hm i)

theorem l_exclusive (h : LSys.exec api.prog act sched (LSys.start s place) = .running c) {i j : Th} {m : M}
    (hi : c.held i m = some .exclusive) (hj : c.held j m ≠ none) : i = j := by
  have := locked O hok hb sched
  rw [h] at this
  obtain ⟨evs, I⟩ := this
  exact ((I.alone m).excl hi hj).symm

theorem l_terminated (h : LSys.exec api.prog act sched (LSys.start s place) = .terminated) :
    ∃ (done : List (Ended Th Op (Out L A V))) (σ : Spec.Boxes L A V) (o : Op) (mem : Bool) (n : N),
      Serial api.step (api.abs s) done σ ∧ api.vlegal σ o ∧ api.step mem n σ o = .terminated := by
  have := locked O hok hb sched
  rw [h] at this; exact this

theorem l_owned_once (h : LSys.exec api.prog act sched (LSys.start s place) = .running c) (hidle : ∀ i, c.sys.run i = none) (i : Th) :
    (∀ p k, c.sys.conf.heap p = some k → ∃ z h, c.sys.conf.hs z = some h ∧ h.p = some p) ∧
    (∀ z h p, c.sys.conf.hs z = some h → h.p = some p → c.sys.conf.heap p ≠ none) ∧
    ∀ z z' h h' p, c.sys.conf.hs z = some h → c.sys.conf.hs z' = some h' → h.p = some p → h'.p = some p → z = z' := by
  have := locked O hok hb sched
  rw [h] at this
  obtain ⟨evs, I⟩ := this
  exact s_owned_once hok (s_serially hok I.sync) I.run hidle i

end
end Verif.Conc
