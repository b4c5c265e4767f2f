import Verif.Proofs.Client
import Verif.Proofs.IndirectEffects

/-!
Insertion sort with `swap`.
-/

set_option autoImplicit false
set_option linter.unusedSectionVars false
set_option linter.unusedSimpArgs false

namespace Verif.Sorting
open Verif Spec

section
variable {L A R V : Type} [DecidableEq L]

theorem asymm {less : V → V → Bool} (W : StrictWeak less) {a b : V} (h : less a b = true) : less b a = false := by
  cases hb : less b a with
  | false => rfl
  | true => have := W.trans _ _ _ h hb; rw [W.irrefl] at this; cases this

theorem ntrans {less : V → V → Bool} (W : StrictWeak less) {u v w : V} (h1 : less v u = false) (h2 : less w v = false) :
    less w u = false := by
  cases h : less w u with
  | false => rfl
  | true =>
    cases h3 : less u v with
    | true => rw [W.trans _ _ _ h h3] at h2; cases h2
    | false =>
      cases h4 : less v w with
      | true => rw [W.trans _ _ _ h4 h] at h1; cases h1
      | false => rw [(W.incomp u v w h3 h1 h4 h2).2] at h; cases h

theorem before_asymm {less : V → V → Bool} (W : StrictWeak less) {a b : Option V} (h : before less a b = true) :
    before less b a = false := by
  cases a <;> cases b <;> simp only [before] at h ⊢ <;> first | exact asymm W h | cases h

theorem before_ntrans {less : V → V → Bool} (W : StrictWeak less) {a b c : Option V} (h1 : before less b a = false)
    (h2 : before less c b = false) : before less c a = false := by
  cases a <;> cases b <;> cases c <;> simp only [before] at h1 h2 ⊢ <;> first | exact ntrans W h1 h2 | cases h1 | cases h2

/-- The objects after a swap. -/
def swapped (tr : ATraits A R) (σ : Boxes L A V) (x y : L) : Boxes L A V :=
  match Spec.swap tr σ x y with
  | .ret _ σ' => σ'
  | _ => σ

variable {tr : ATraits A R} {σ : Boxes L A V} {x y : L} {xs : List L}

theorem swap_eq (hs : Swappable tr σ xs) (hx : x ∈ xs) (hy : y ∈ xs) :
    LegalSwap tr σ x y ∧ Spec.swap tr σ x y = .ret .unit (swapped tr σ x y) := by
  obtain ⟨b, hb, h⟩ := hs x hx
  obtain ⟨c, hc, -⟩ := hs y hy
  refine ⟨⟨b, c, hb, hc, h y hy c hc⟩, ?_⟩
  unfold swapped
  simp only [Spec.swap, hb, hc]
  split <;> rfl

/-- What the objects look like after a swap. -/
structure Swapped (tr : ATraits A R) (σ τ : Boxes L A V) (x y : L) : Prop where
  fst : valueOf τ x = valueOf σ y
  snd : valueOf τ y = valueOf σ x
  others : ∀ z, z ≠ x → z ≠ y → τ z = σ z
  allocs : tr.pocs = false → ∀ z, (τ z).map (·.alloc) = (σ z).map (·.alloc)
  live : ∀ z, (τ z).isSome = (σ z).isSome

theorem swapped_spec (hs : Swappable tr σ xs) (hx : x ∈ xs) (hy : y ∈ xs) (hne : x ≠ y) :
    Swapped tr σ (swapped tr σ x y) x y := by
  obtain ⟨b, hb, -⟩ := hs x hx
  obtain ⟨c, hc, -⟩ := hs y hy
  unfold swapped
  simp only [Spec.swap, hb, hc]
  by_cases hp : tr.pocs = true
  · simp only [hp, if_true]
    constructor
    · simp [valueOf, put, hne, hc]
    · simp [valueOf, put, hb]
    · intro z h1 h2; simp [put, h1, h2]
    · intro h; rw [hp] at h; cases h
    · intro z
      simp only [put]
      split
      · rename_i h; subst h; simp [hc]
      · split
        · rename_i h; subst h; simp [hb]
        · rfl
  · simp only [hp, Bool.false_eq_true, if_false]
    constructor
    · simp [valueOf, put, hne, hc]
    · simp [valueOf, put, hb]
    · intro z h1 h2; simp [put, h1, h2]
    · intro _ z
      simp only [put]
      split
      · rename_i h; subst h; simp [hc]
      · split
        · rename_i h; subst h; simp [hb]
        · rfl
    · intro z
      simp only [put]
      split
      · rename_i h; subst h; simp [hc]
      · split
        · rename_i h; subst h; simp [hb]
        · rfl

theorem Swapped.swappable {τ : Boxes L A V} (h : Swapped tr σ τ x y) (hs : Swappable tr σ xs) : Swappable tr τ xs := by
  intro z hz
  obtain ⟨b, hb, hsb⟩ := hs z hz
  have hl := h.live z
  rw [hb] at hl
  obtain ⟨b', hb'⟩ := Option.isSome_iff_exists.1 hl
  refine ⟨b', hb', fun w hw c hc => ?_⟩
  by_cases hp : tr.pocs = true
  · exact .inl hp
  · have hp : tr.pocs = false := by simpa using hp
    have e1 := h.allocs hp z
    have e2 := h.allocs hp w
    obtain ⟨d, hd, -⟩ := hs w hw
    rw [hb, hb'] at e1
    rw [hd, hc] at e2
    simp only [Option.map_some, Option.some.injEq] at e1 e2
    rw [e1, e2]
    exact hsb w hw d hd

theorem Swapped.perm {τ : Boxes L A V} {l r : List L} (h : Swapped tr σ τ x y) (hn : (l ++ x :: y :: r).Nodup) :
    ((l ++ x :: y :: r).map (valueOf τ)).Perm ((l ++ x :: y :: r).map (valueOf σ)) := by
  have e : ∀ z ∈ l ++ r, valueOf τ z = valueOf σ z := by
    intro z hz
    have := h.others z ?_ ?_
    · simp [valueOf, this]
    · rintro rfl; simp at hz hn; grind
    · rintro rfl; simp at hz hn; grind
  have el : l.map (valueOf τ) = l.map (valueOf σ) := List.map_congr_left fun z hz => e z (by simp [hz])
  have er : r.map (valueOf τ) = r.map (valueOf σ) := List.map_congr_left fun z hz => e z (by simp [hz])
  simp only [List.map_append, List.map_cons, h.fst, h.snd, el, er]
  exact List.Perm.append_left _ (List.Perm.swap _ _ _)

end

/-! ## On values -/

section
variable {L A R V C N : Type} [DecidableEq L]

/-- What the calls of a sort do. -/
structure Does (tr : ATraits A R) (step : Bool → N → Boxes L A V → C → Result L A V) (legal : Boxes L A V → C → Prop)
    (q : Ask C (Out L A V) L) : Prop where
  less_legal : ∀ σ x y, Live σ x → Live σ y → legal σ (q.less x y)
  less : ∀ m n σ x y, Live σ x → Live σ y → (∃ o, step m n σ (q.less x y) = .ret o σ) ∨ ∃ e, step m n σ (q.less x y) = .threw e σ
  swap_legal : ∀ σ x y, LegalSwap tr σ x y → legal σ (q.swap x y)
  swap : ∀ m n σ x y, step m n σ (q.swap x y) = Spec.swap tr σ x y

/-- The comparison answers by `before less`. -/
def Answers (step : Bool → N → Boxes L A V → C → Result L A V) (q : Ask C (Out L A V) L) (less : V → V → Bool) : Prop :=
  ∀ m n σ x y, Live σ x → Live σ y →
    ∃ o, step m n σ (q.less x y) = .ret o σ ∧ q.yes o = before less (valueOf σ x) (valueOf σ y)

variable {tr : ATraits A R} {step : Bool → N → Boxes L A V → C → Result L A V} {legal : Boxes L A V → C → Prop}
  {q : Ask C (Out L A V) L}

theorem Swappable.live {σ : Boxes L A V} {xs : List L} (h : Swappable tr σ xs) {x : L} (hx : x ∈ xs) : Live σ x := by
  obtain ⟨b, hb, -⟩ := h x hx
  exact ⟨b, hb⟩

/-- What may have changed. -/
structure Kept (tr : ATraits A R) (xs : List L) (σ τ : Boxes L A V) : Prop where
  perm : (xs.map (valueOf τ)).Perm (xs.map (valueOf σ))
  others : ∀ z, z ∉ xs → τ z = σ z
  allocs : tr.pocs = false → ∀ z, (τ z).map (·.alloc) = (σ z).map (·.alloc)

theorem Kept.refl {xs : List L} {σ : Boxes L A V} : Kept tr xs σ σ := ⟨.refl _, fun _ _ => rfl, fun _ _ => rfl⟩

theorem Kept.trans {xs : List L} {σ τ υ : Boxes L A V} (h : Kept tr xs σ τ) (h' : Kept tr xs τ υ) : Kept tr xs σ υ :=
  ⟨h'.perm.trans h.perm, fun z hz => (h'.others z hz).trans (h.others z hz),
    fun hp z => (h'.allocs hp z).trans (h.allocs hp z)⟩

/-- A property of all ways a client may end on values, if it never violates a precondition and is never terminated. -/
def Ends (step : Bool → N → Boxes L A V → C → Result L A V) (legal : Boxes L A V → C → Prop) {α : Type}
    (Q : α → Boxes L A V → Prop) : Client C (Out L A V) α → Boxes L A V → Prop
  | .ret a, σ => Q a σ
  | .call c k, σ => legal σ c ∧ ∀ mem n, match step mem n σ c with
    | .ret o σ' => Ends step legal Q (k (.ret o)) σ'
    | .threw e σ' => Ends step legal Q (k (.exn e)) σ'
    | .terminated => False
    | .illegal => False

theorem ends_careful {α : Type} {Q : α → Boxes L A V → Prop} (p : Client C (Out L A V) α) :
    ∀ (σ : Boxes L A V), Ends step legal Q p σ → Careful step legal p σ := by
  induction p with
  | ret a => intros; trivial
  | call c k ih =>
    intro σ h
    refine ⟨h.1, fun m n => ?_⟩
    have := h.2 m n
    cases hs : step m n σ c <;> rw [hs] at this <;> simp only at this ⊢
    · exact ih _ _ this
    · exact ih _ _ this

theorem ends_run {α : Type} {Q : α → Boxes L A V → Prop} (p : Client C (Out L A V) α) :
    ∀ (luck : Nat → Bool × N) (σ : Boxes L A V), Ends step legal Q p σ →
      ∃ a σ', runOn step p luck σ = .done a σ' ∧ Q a σ' := by
  induction p with
  | ret a => intro luck σ h; exact ⟨a, σ, rfl, h⟩
  | call c k ih =>
    intro luck σ h
    have := h.2 (luck 0).1 (luck 0).2
    simp only [runOn]
    cases hs : step (luck 0).1 (luck 0).2 σ c <;> rw [hs] at this <;> simp only at this ⊢
    · exact ih _ _ _ this
    · exact ih _ _ _ this

/-- While `x` sinks, all but `x` is sorted, and what is between `x` and the rest `r` does not come before `x`. -/
theorem ends_sink (D : Does tr step legal q) {all : List L} (hn : all.Nodup) {α : Type} {Q : α → Boxes L A V → Prop}
    {less : V → V → Bool} {srt : Prop} (hA : srt → Answers step q less ∧ StrictWeak less)
    (f : Option Exn → Client C (Out L A V) α) :
    ∀ (ys : List L) (x : L) (b r : List L) (σ : Boxes L A V), all = ys.reverse ++ x :: (b ++ r) → Swappable tr σ all →
      (srt → Sorted less ((ys.reverse ++ b).map (valueOf σ)) ∧ ∀ z ∈ b, before less (valueOf σ z) (valueOf σ x) = false) →
      (∀ o τ, Swappable tr τ all → Kept tr all σ τ →
        (srt → o = none ∧ Sorted less ((ys.reverse ++ x :: b).map (valueOf τ))) → Ends step legal Q (f o) τ) →
      Ends step legal Q ((sink q x ys).bind f) σ := by
  intro ys
  induction ys with
  | nil =>
    intro x b r σ ha hs hi hf
    refine hf none σ hs .refl fun h => ⟨rfl, ?_⟩
    obtain ⟨h1, h2⟩ := hi h
    simp only [List.reverse_nil, List.nil_append, List.map_cons, Sorted, List.pairwise_cons, List.mem_map,
      forall_exists_index, and_imp, forall_apply_eq_imp_iff₂] at h1 ⊢
    exact ⟨h2, h1⟩
  | cons y ys ih =>
    intro x b r σ ha hs hi hf
    have hx : x ∈ all := by simp [ha]
    have hy : y ∈ all := by simp [ha]
    have hnd := hn
    rw [ha] at hnd
    have hne : y ≠ x := by
      rintro rfl; simp at hnd; grind
    simp only [sink, Client.bind, Ends]
    refine ⟨D.less_legal σ x y (Swappable.live hs hx) (Swappable.live hs hy), fun m n => ?_⟩
    have hans : srt → ∃ o, step m n σ (q.less x y) = .ret o σ ∧ q.yes o = before less (valueOf σ x) (valueOf σ y) :=
      fun h => (hA h).1 m n σ x y (Swappable.live hs hx) (Swappable.live hs hy)
    rcases D.less m n σ x y (Swappable.live hs hx) (Swappable.live hs hy) with ⟨o, ho⟩ | ⟨e, he⟩
    · rw [ho] at hans ⊢
      have hans : srt → q.yes o = before less (valueOf σ x) (valueOf σ y) := by
        intro h
        obtain ⟨o', h1, h2⟩ := hans h
        cases h1; exact h2
      simp only
      split
      · rename_i hyes
        simp only [Client.bind, Ends]
        obtain ⟨h1, h2⟩ := swap_eq hs hx hy
        refine ⟨D.swap_legal σ x y h1, fun m n => ?_⟩
        rw [D.swap, h2]
        simp only
        have hw := swapped_spec hs hx hy (Ne.symm hne)
        have hk : Kept tr all σ (swapped tr σ x y) := by
          refine ⟨?_, fun z hz => hw.others z (by rintro rfl; exact hz hx) (by rintro rfl; exact hz hy), hw.allocs⟩
          have : Swapped tr σ (swapped tr σ x y) y x :=
            ⟨hw.snd, hw.fst, fun z a b => hw.others z b a, hw.allocs, hw.live⟩
          have ha' : all = ys.reverse ++ y :: x :: (b ++ r) := by simp [ha]
          rw [ha']
          exact this.perm (by rw [← ha']; exact hn)
        have hsame : ∀ z, z ∈ ys ∨ z ∈ b → valueOf (swapped tr σ x y) z = valueOf σ z := by
          intro z hz
          have : swapped tr σ x y z = σ z := by
            refine hw.others z ?_ ?_
            · rintro rfl; simp at hnd; grind
            · rintro rfl; simp at hnd; grind
          simp [valueOf, this]
        have ey : ys.map (valueOf (swapped tr σ x y)) = ys.map (valueOf σ) :=
          List.map_congr_left fun z hz => hsame z (.inl hz)
        have eb : b.map (valueOf (swapped tr σ x y)) = b.map (valueOf σ) :=
          List.map_congr_left fun z hz => hsame z (.inr hz)
        refine ih y (x :: b) r _ (by simp [ha]) (hw.swappable hs) (fun h => ?_) fun o τ h3 h4 h5 =>
          hf o τ h3 (hk.trans h4) fun h => by simpa using h5 h
        obtain ⟨i1, i2⟩ := hi h
        have hlt := hans h
        rw [hyes] at hlt
        constructor
        · simp only [List.map_append, List.map_reverse, List.map_cons, ey, eb, hw.fst]
          simpa using i1
        · intro z hz
          rw [hw.snd]
          rcases List.mem_cons.1 hz with rfl | hz
          · rw [hw.fst]; exact before_asymm (hA h).2 hlt.symm
          · rw [hsame z (.inr hz)]; exact i2 z hz
      · rename_i hno
        refine hf none σ hs .refl fun h => ⟨rfl, ?_⟩
        obtain ⟨i1, i2⟩ := hi h
        have hle : before less (valueOf σ x) (valueOf σ y) = false := by rw [← hans h]; simpa using hno
        simp only [Sorted, List.map_append, List.map_cons, List.pairwise_append, List.pairwise_cons,
          List.map_reverse, List.reverse_cons, List.mem_cons, List.mem_append, List.mem_reverse, List.mem_map,
          List.map_nil, List.Pairwise.nil, List.not_mem_nil] at i1 ⊢
        have hu : ∀ z, z ∈ ys → before less (valueOf σ y) (valueOf σ z) = false := fun z hz =>
          i1.1.2.2 _ ⟨z, hz, rfl⟩ _ (.inl rfl)
        refine ⟨⟨i1.1.1, by simp, ?_⟩, ⟨?_, i1.2.1⟩, ?_⟩
        · rintro _ ⟨z, hz, rfl⟩ _ (rfl | h)
          · exact hu z hz
          · exact h.elim
        · rintro _ ⟨z, hz, rfl⟩; exact i2 z hz
        · rintro a ha' c (rfl | hc)
          · rcases ha' with ⟨z, hz, rfl⟩ | rfl | h
            · exact before_ntrans (hA h).2 (hu z hz) hle
            · exact hle
            · exact h.elim
          · exact i1.2.2 a ha' c hc
    · rw [he] at hans ⊢
      refine hf (some e) σ hs .refl fun h => ?_
      obtain ⟨o, ho, -⟩ := hans h
      cases ho

theorem ends_sort (D : Does tr step legal q) {all : List L} (hn : all.Nodup) {less : V → V → Bool} {srt : Prop}
    (hA : srt → Answers step q less ∧ StrictWeak less) {σ₀ : Boxes L A V} :
    ∀ (xs done : List L) (σ : Boxes L A V), all = done.reverse ++ xs → Swappable tr σ all → Kept tr all σ₀ σ →
      (srt → Sorted less (done.reverse.map (valueOf σ))) →
      Ends step legal (fun o τ => Kept tr all σ₀ τ ∧ (srt → o = none ∧ Sorted less (all.map (valueOf τ))))
        (sort q done xs) σ := by
  intro xs
  induction xs with
  | nil =>
    intro done σ ha _ h hi
    rw [List.append_nil] at ha
    exact ⟨h, fun hs => ⟨rfl, ha ▸ hi hs⟩⟩
  | cons x xs ih =>
    intro done σ ha hs hk hi
    refine ends_sink D hn hA _ done x [] xs σ (by simpa using ha) hs (fun h => ⟨by simpa using hi h, by simp⟩)
      fun o τ h h' h'' => ?_
    cases o with
    | none => exact ih (x :: done) τ (by simp [ha]) h (hk.trans h') fun hs => by simpa using (h'' hs).2
    | some e => exact ⟨hk.trans h', fun hs => by cases (h'' hs).1⟩

/-- All calls of a client. -/
def Only {O α : Type} (P : C → Prop) : Client C O α → Prop
  | .ret _ => True
  | .call c k => P c ∧ ∀ o, Only P (k o)

theorem only_bind {O α β : Type} {P : C → Prop} (p : Client C O α) {f : α → Client C O β} (hp : Only P p)
    (hf : ∀ a, Only P (f a)) : Only P (p.bind f) := by
  induction p with
  | ret a => exact hf a
  | call c k ih => exact ⟨hp.1, fun o => ih o (hp.2 o)⟩

theorem only_sink {O : Type} {P : C → Prop} {q : Ask C O L} (h1 : ∀ x y, P (q.less x y)) (h2 : ∀ x y, P (q.swap x y)) :
    ∀ (ys : List L) (x : L), Only P (sink q x ys) := by
  intro ys
  induction ys with
  | nil => intro x; trivial
  | cons y ys ih =>
    intro x
    refine ⟨h1 x y, fun o => ?_⟩
    cases o with
    | exn e => trivial
    | ret o =>
      simp only
      split
      · refine ⟨h2 x y, fun o => ?_⟩
        cases o with
        | exn e => trivial
        | ret o => exact ih y
      · trivial

theorem only_sort {O : Type} {P : C → Prop} {q : Ask C O L} (h1 : ∀ x y, P (q.less x y)) (h2 : ∀ x y, P (q.swap x y)) :
    ∀ (xs done : List L), Only P (sort q done xs) := by
  intro xs
  induction xs with
  | nil => intro _; trivial
  | cons x xs ih =>
    intro done
    refine only_bind _ (only_sink h1 h2 done x) fun o => ?_
    cases o with
    | none => exact ih _
    | some e => trivial

end

/-! ## In memory -/

section
variable {L A R B V N C : Type} [DecidableEq L] [DecidableEq R] [Body B]
open Conc

/-- No storage changes, and nothing is done by the allocator or by the owned type that would leave a trace. -/
def Quiet {α : Type} (s : St L A R B) : Res (St L A R B) α → Prop
  | .ok _ s' => s'.heap = s.heap ∧ s'.trace = s.trace
  | .threw _ s' => s'.heap = s.heap ∧ s'.trace = s.trace
  | _ => True

theorem quiet_run (api : VApi L A R B V N C) {P : C → Prop}
    (hP : ∀ c e s, api.Ok s → api.legal s c → P c → Quiet s (api.call c e s)) {α : Type} (p : Client C (Out L A V) α) :
    ∀ (es : Nat → Env) (s : St L A R B), api.Ok s → Careful api.step api.vlegal p (api.abs s) → Only P p →
      Quiet s (p.run api.call es s) := by
  induction p with
  | ret a => intros; exact ⟨rfl, rfl⟩
  | call c k ih =>
    intro es s ok hc ho
    obtain ⟨hl, hk⟩ := hc
    have hl' := (api.legal_eq s c).2 hl
    have h1 := api.safe c (es 0) s ok hl'
    have h2 := api.refines s c (es 0) ok hl
    have h3 := hk (available s (es 0)) (api.seed (es 0))
    have h4 := hP c (es 0) s ok hl' ho.1
    have next : ∀ (o : Seen (Out L A V)) (s' : St L A R B), api.Ok s' → Careful api.step api.vlegal (k o) (api.abs s') →
        s'.heap = s.heap ∧ s'.trace = s.trace → Quiet s ((k o).run api.call (fun i => es (i + 1)) s') := by
      intro o s' ok' hc' hs
      have := ih o (fun i => es (i + 1)) s' ok' hc' (ho.2 o)
      cases hr : (k o).run api.call (fun i => es (i + 1)) s' <;> rw [hr] at this <;> simp only [Quiet] at this ⊢
      · exact ⟨this.1.trans hs.1, this.2.trans hs.2⟩
      · exact ⟨this.1.trans hs.1, this.2.trans hs.2⟩
    simp only [Client.run]
    cases hr : api.call c (es 0) s with
    | ok o s' =>
      rw [hr] at h1 h2 h4
      simp only at h2
      rw [h2] at h3
      exact next _ _ h1 h3 h4
    | threw x s' =>
      rw [hr] at h1 h2 h4
      simp only at h2
      rw [h2] at h3
      exact next _ _ h1 h3 h4
    | terminated => trivial
    | ub u => trivial
    | diverged => trivial

/-- What a sort does, with any library. -/
theorem sort_run (api : VApi L A R B V N C) {tr : ATraits A R} {q : Ask C (Out L A V) L} (D : Does tr api.step api.vlegal q)
    (h1 : ∀ x y e s, api.Ok s → api.legal s (q.less x y) → Quiet s (api.call (q.less x y) e s))
    (h2 : ∀ x y e s, api.Ok s → api.legal s (q.swap x y) → Quiet s (api.call (q.swap x y) e s))
    {less : V → V → Bool} {srt : Prop} (hA : srt → Answers api.step q less ∧ StrictWeak less) {xs : List L} (hn : xs.Nodup)
    (es : Nat → Env) {s : St L A R B} (ok : api.Ok s) (hs : Swappable tr (api.abs s) xs) :
    ∃ o s', (sort q [] xs).run api.call es s = .ok o s' ∧
      (srt → o = none ∧ Sorted less (xs.map (valueOf (api.abs s')))) ∧
      Kept tr xs (api.abs s) (api.abs s') ∧ s'.heap = s.heap ∧ s'.trace = s.trace ∧ OwnedOnce s' := by
  have E := ends_sort D hn hA xs [] (api.abs s) (by simp) hs .refl (fun _ => List.Pairwise.nil)
  have hc := ends_careful _ _ E
  obtain ⟨o, τ, hr, hk, ho⟩ := ends_run _ (luckOf api.call api.seed (sort q [] xs) es s) _ E
  have hm := (client_run api (sort q [] xs) es s ok hc).1
  rw [hr] at hm
  have hq := quiet_run api (P := fun c => (∃ x y, c = q.less x y) ∨ ∃ x y, c = q.swap x y)
    (fun c e s ok hl hP => by
      rcases hP with ⟨x, y, rfl⟩ | ⟨x, y, rfl⟩
      · exact h1 x y e s ok hl
      · exact h2 x y e s ok hl) (sort q [] xs) es s ok hc
    (only_sort (fun x y => .inl ⟨x, y, rfl⟩) (fun x y => .inr ⟨x, y, rfl⟩) xs [])
  cases hrun : (sort q [] xs).run api.call es s with
  | ok o' s' =>
    have hown := client_owned api (sort q [] xs) ok hc hrun
    rw [hrun] at hm hq
    obtain ⟨rfl, rfl⟩ := hm
    exact ⟨_, s', rfl, ho, hk, hq.1, hq.2, hown⟩
  | threw x s' => rw [hrun] at hm; exact hm.elim
  | terminated => rw [hrun] at hm; exact hm.elim
  | ub u => rw [hrun] at hm; exact hm.elim
  | diverged => rw [hrun] at hm; exact hm.elim

end

section
variable {L A R V X : Type} [DecidableEq L] [DecidableEq R]
open Conc

theorem does20 (tr : ATraits A R) (T : TSpec V X) (C : TCmp V) :
    Does (L := L) tr (estep tr T C) (ELegal tr) ask20 where
  less_legal σ x y hx hy := by
    intro z hz
    simp only [qoperands, List.mem_cons, List.not_mem_nil, or_false] at hz
    rcases hz with rfl | rfl <;> assumption
  less m n σ x y hx hy := by
    obtain ⟨b, hb⟩ := hx
    obtain ⟨c, hc⟩ := hy
    simp only [ask20, estep, qstep, hb, hc]
    cases qcmp C n b.val c.val with
    | ok a => exact .inl ⟨_, rfl⟩
    | error e => exact .inr ⟨_, rfl⟩
  swap_legal σ x y h := h
  swap m n σ x y := rfl

theorem answers20 (tr : ATraits A R) (T : TSpec V X) {C : TCmp V} {less : V → V → Bool} (h : Compares C less) :
    Answers (L := L) (estep tr T C) ask20 less := by
  intro m n σ x y hx hy
  obtain ⟨b, hb⟩ := hx
  obtain ⟨c, hc⟩ := hy
  simp only [ask20, estep, qstep, hb, hc, valueOf, Option.bind_some]
  cases b.val with
  | none => cases c.val <;> exact ⟨_, rfl, rfl⟩
  | some v =>
    cases c.val with
    | none => exact ⟨_, rfl, rfl⟩
    | some w =>
      obtain ⟨a, ha, hl⟩ := h n v w
      simp only [qcmp, ha, answer, before]
      refine ⟨_, rfl, ?_⟩
      cases hw : less v w with
      | true => rw [hl.2 hw]; rfl
      | false =>
        cases a <;> first | rfl | (have := hl.1 rfl; rw [hw] at this; cases this)

theorem quiet_cmp20 (tr : ATraits A R) (T : TSpec V X) (C : TCmp V) {s : St L A R (Obj V)} (I : Indirect.IInv tr s)
    (q : Query L V) (h : AllLive (Indirect.abs s) (qoperands q)) (e : Env) :
    Quiet s (Conc.call tr T C (.query q) e s) := by
  have := query_replies C q (s := s.enter e) I h
  show Quiet s (Indirect.query C q (s.enter e))
  cases hc : Indirect.query C q (s.enter e) <;> rw [hc] at this <;> simp only [Replies] at this <;> try trivial
  · exact this.2.2
  · exact this.2.2

theorem quiet_swap (tr : ATraits A R) (T : TSpec V X) {s : St L A R (Obj V)} {x y : L}
    (h : LegalSwap tr (Indirect.abs s) x y) (e : Env) : Quiet s (Indirect.call tr (plain T) (.swap x y) e s) := by
  obtain ⟨k, l, hx, hy, hq⟩ := h
  obtain ⟨t, ht, hta, htv⟩ := Verif.abs_some hx
  obtain ⟨o, ho, hoa, hov⟩ := Verif.abs_some hy
  rw [show Indirect.call tr (plain T) (.swap x y) e s = _ from
    Indirect.swap_eval (s := s.enter e) ht ho (by rw [← hta, ← hoa]; exact hq)]
  exact ⟨rfl, rfl⟩

theorem does14 (tr : ATraits A R) (T : TSpec V X) (C : TCmp V) :
    Does (L := L) tr (estep14 tr T C) (ELegal14 tr) ask14 where
  less_legal σ x y hx hy := by
    intro z hz
    simp only [qoperands14, List.mem_cons, List.not_mem_nil, or_false] at hz
    rcases hz with rfl | rfl <;> assumption
  less m n σ x y hx hy := by
    obtain ⟨b, hb⟩ := hx
    obtain ⟨c, hc⟩ := hy
    simp only [ask14, estep14, qstep14, hb, hc]
    cases qrel C .lt n b.val c.val with
    | ok a => exact .inl ⟨_, rfl⟩
    | error e => exact .inr ⟨_, rfl⟩
  swap_legal σ x y h := h
  swap m n σ x y := rfl

theorem answers14 (tr : ATraits A R) (T : TSpec V X) {C : TCmp V} {less : V → V → Bool} (h : Compares14 C less) :
    Answers (L := L) (estep14 tr T C) ask14 less := by
  intro m n σ x y hx hy
  obtain ⟨b, hb⟩ := hx
  obtain ⟨c, hc⟩ := hy
  simp only [ask14, estep14, qstep14, hb, hc, valueOf, Option.bind_some]
  cases b.val with
  | none => cases c.val <;> exact ⟨_, rfl, rfl⟩
  | some v =>
    cases c.val with
    | none => exact ⟨_, rfl, rfl⟩
    | some w =>
      simp only [qrel, valueRel, h v w, answer, before]
      exact ⟨_, rfl, rfl⟩

theorem quiet_cmp14 (tr : ATraits A R) (T : TSpec V X) (C : TCmp V) {s : St L A R (Obj V)} (I : Indirect.IInv tr s)
    (q : Query14 L V) (h : AllLive (Indirect.abs s) (qoperands14 q)) (e : Env) :
    Quiet s (Conc.call14 tr T C (.query q) e s) := by
  have := query14_replies C q (s := s.enter e) I h
  show Quiet s (Indirect14.query C q (s.enter e))
  cases hc : Indirect14.query C q (s.enter e) <;> rw [hc] at this <;> simp only [Replies] at this <;> try trivial
  · exact this.2.2
  · exact this.2.2

theorem quiet_swap14 (tr : ATraits A R) (T : TSpec V X) {s : St L A R (Obj V)} {x y : L}
    (h : LegalSwap tr (Indirect.abs s) x y) (e : Env) : Quiet s (Indirect14.call tr (plain T) (.swap x y) e s) := by
  rw [Indirect14.call_eq]
  exact quiet_swap tr _ h e

end
end Verif.Sorting
