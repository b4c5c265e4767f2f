import Verif.Proofs.Sorting
import Verif.Proofs.SpecFacts
import Verif.Spec.Sets

/-!
Sets and hash tables with keys of type `indirect`.
-/

set_option autoImplicit false
set_option linter.unusedSectionVars false
set_option linter.unusedSimpArgs false

namespace Verif.Sets
open Verif Spec
open _root_.Verif.Sorting (Ends ends_careful ends_run before_asymm before_ntrans)

/-! ## Orders -/

section
variable {V : Type} {less : V → V → Bool} (W : StrictWeak less)
include W

theorem before_trans {a b c : Option V} (h1 : before less a b = true) (h2 : before less b c = true) : before less a c = true := by
  cases h : before less a c with
  | true => rfl
  | false => rw [before_ntrans W (before_asymm W h2) h] at h1; cases h1

theorem before_right {a b c : Option V} (h : before less a b = true) (e : Equivalent less b c) : before less a c = true := by
  cases hc : before less a c with
  | true => rfl
  | false => rw [before_ntrans W e.2 hc] at h; cases h

theorem before_left {a b c : Option V} (h : before less b a = true) (e : Equivalent less b c) : before less c a = true := by
  cases hc : before less c a with
  | true => rfl
  | false => rw [before_ntrans W hc e.1] at h; cases h

end

theorem Equivalent.symm {V : Type} {less : V → V → Bool} {a b : Option V} (e : Equivalent less a b) : Equivalent less b a := ⟨e.2, e.1⟩

/-! ## Clients -/

section
variable {L A V C N α β : Type} {step : Bool → N → Boxes L A V → C → Result L A V} {legal : Boxes L A V → C → Prop}

theorem ends_bind {Q : β → Boxes L A V → Prop} {f : α → Client C (Out L A V) β} (p : Client C (Out L A V) α) :
    ∀ {σ : Boxes L A V}, Ends step legal (fun a τ => Ends step legal Q (f a) τ) p σ → Ends step legal Q (p.bind f) σ := by
  induction p with
  | ret a => exact fun h => h
  | call c k ih =>
    intro σ h
    refine ⟨h.1, fun m n => ?_⟩
    have := h.2 m n
    cases hs : step m n σ c <;> rw [hs] at this <;> simp only at this ⊢
    · exact ih _ this
    · exact ih _ this

theorem ends_mono {Q Q' : α → Boxes L A V → Prop} (p : Client C (Out L A V) α) : ∀ {σ : Boxes L A V},
    Ends step legal Q p σ → (∀ a τ, Q a τ → Q' a τ) → Ends step legal Q' p σ := by
  induction p with
  | ret a => exact fun h hq => hq _ _ h
  | call c k ih =>
    intro σ h hq
    refine ⟨h.1, fun m n => ?_⟩
    have := h.2 m n
    cases hs : step m n σ c <;> rw [hs] at this <;> simp only at this ⊢
    · exact ih _ this hq
    · exact ih _ this hq

/-- A call that answers or throws and changes nothing. -/
theorem ends_query {Q : α → Boxes L A V → Prop} {c : C} {k : Seen (Out L A V) → Client C (Out L A V) α} {σ : Boxes L A V} (hl : legal σ c)
    (hs : ∀ m n, (∃ o, step m n σ c = .ret o σ) ∨ ∃ e, step m n σ c = .threw e σ)
    (hr : ∀ m n o, step m n σ c = .ret o σ → Ends step legal Q (k (.ret o)) σ)
    (ht : ∀ m n e, step m n σ c = .threw e σ → Ends step legal Q (k (.exn e)) σ) : Ends step legal Q (.call c k) σ := by
  refine ⟨hl, fun m n => ?_⟩
  rcases hs m n with ⟨o, ho⟩ | ⟨e, he⟩
  · have := hr m n o ho
    rw [ho]; exact this
  · have := ht m n e he
    rw [he]; exact this

end

/-! ## On values -/

section
variable {L A V C N : Type} [DecidableEq L] {step : Bool → N → Boxes L A V → C → Result L A V} {legal : Boxes L A V → C → Prop}

/-- A value, or none, is made from one that is related. -/
def Lift (R : V → V → Prop) : Option V → Option V → Prop
  | none, none => True
  | some v, some w => R v w
  | _, _ => False

/-- What the constructor of a new key does. -/
def Adds (al : Way A → A → A) (R : V → V → Prop) (how : Way A) (n y : L) (σ : Boxes L A V) : Result L A V → Prop
  | .ret _ τ => (∃ b, τ n = some b ∧ Lift R (valueOf σ y) b.val) ∧ Allocated al how σ τ n y ∧ ∀ z, z ≠ n → Leaves how y σ τ z ∧ (Live σ z → Live τ z)
  | .threw _ τ => ∀ z, Leaves how y σ τ z ∧ (Live σ z → Live τ z)
  | _ => False

/-- What the calls of both kinds of sets do that make and destroy keys. -/
structure Makes (step : Bool → N → Boxes L A V → C → Result L A V) (legal : Boxes L A V → C → Prop) (add : Way A → L → L → C)
    (remove : L → C) (al : Way A → A → A) (R : V → V → Prop) : Prop where
  add_legal : ∀ how σ n y, Dead σ n → Live σ y → legal σ (add how n y)
  add : ∀ how m i σ n y, Dead σ n → Live σ y → Adds al R how n y σ (step m i σ (add how n y))
  remove_legal : ∀ σ x, Live σ x → legal σ (remove x)
  remove : ∀ m i σ x, ∃ o, step m i σ (remove x) = .ret o (drop σ x)

/-- What comparisons do. -/
structure Does (step : Bool → N → Boxes L A V → C → Result L A V) (legal : Boxes L A V → C → Prop) (q : Sets.Ask C (Out L A V) L) : Prop where
  less_legal : ∀ σ x y, Live σ x → Live σ y → legal σ (q.less x y)
  less : ∀ σ x y, Live σ x → Live σ y → ∀ m n, (∃ o, step m n σ (q.less x y) = .ret o σ) ∨ ∃ e, step m n σ (q.less x y) = .threw e σ

/-- The comparison answers by `before less`. -/
def Answers (step : Bool → N → Boxes L A V → C → Result L A V) (q : Sets.Ask C (Out L A V) L) (less : V → V → Bool) : Prop :=
  ∀ m n σ x y, Live σ x → Live σ y → ∃ o, step m n σ (q.less x y) = .ret o σ ∧ q.yes o = before less (valueOf σ x) (valueOf σ y)

variable {q : Sets.Ask C (Out L A V) L} {less : V → V → Bool} {σ : Boxes L A V} {y : L} {srt : Prop}

/-- The comparisons are those of an order, and the keys are sorted. -/
structure Order (step : Bool → N → Boxes L A V → C → Result L A V) (q : Sets.Ask C (Out L A V) L) (less : V → V → Bool) (σ : Boxes L A V)
    (ks : List L) : Prop where
  answers : Answers step q less
  weak : StrictWeak less
  sorted : ks.Pairwise fun a b => before less (valueOf σ a) (valueOf σ b) = true

theorem ends_less {α : Type} {Q : α → Boxes L A V → Prop} (D : Does step legal q) (hA : srt → Answers step q less) {x y : L} (hx : Live σ x)
    (hy : Live σ y) {k : Seen (Out L A V) → Client C (Out L A V) α}
    (hr : ∀ o, (srt → q.yes o = before less (valueOf σ x) (valueOf σ y)) → Ends step legal Q (k (.ret o)) σ)
    (ht : ∀ e, ¬ srt → Ends step legal Q (k (.exn e)) σ) : Ends step legal Q (.call (q.less x y) k) σ := by
  refine ends_query (D.less_legal σ x y hx hy) (D.less σ x y hx hy) (fun m n o ho => hr o fun h => ?_) (fun m n e he => ht e fun h => ?_)
  · obtain ⟨o', h1, h2⟩ := hA h m n σ x y hx hy
    rw [ho] at h1; cases h1; exact h2
  · obtain ⟨o', h1, -⟩ := hA h m n σ x y hx hy
    rw [he] at h1; cases h1

theorem ends_seek (D : Does step legal q) (hy : Live σ y) : ∀ (t : Tree L) (c : Option L), (∀ k ∈ t.keys, Live σ k) →
    (srt → Order step q less σ t.keys) →
    Ends step legal (fun r τ => τ = σ ∧ (∀ k, r ≠ .found k) ∧ (∀ k, r = .absent (some k) → k ∈ t.keys ∨ c = some k) ∧
      (srt → r = .absent ((t.keys.find? fun k => !before less (valueOf σ k) (valueOf σ y)).or c))) (seek q y t c) σ := by
  intro t
  induction t with
  | leaf =>
    intro c _ _
    exact ⟨rfl, nofun, fun k h => .inr (by cases h; rfl), fun _ => by simp [Tree.keys]⟩
  | node l k r ihl ihr =>
    intro c hl ho
    simp only [seek]
    simp only [Tree.keys, List.mem_append, List.mem_cons] at hl
    refine ends_less D (srt := srt) (less := less) (fun h => (ho h).answers) (hl k (.inr (.inl rfl))) hy (fun o hyes => ?_)
      (fun e hn => ⟨rfl, nofun, nofun, fun h => absurd h hn⟩)
    dsimp only
    split
    · rename_i hb
      refine ends_mono _ (ihr c (fun k hk => hl k (.inr (.inr hk))) fun h => ⟨(ho h).answers, (ho h).weak, ?_⟩) ?_
      · have := (ho h).sorted
        simp only [Tree.keys, List.pairwise_append, List.pairwise_cons] at this
        exact this.2.1.2
      · rintro a τ ⟨rfl, h0, h1, h2⟩
        refine ⟨rfl, h0, fun k hk => ?_, fun h => ?_⟩
        · simp only [Tree.keys, List.mem_append, List.mem_cons]
          exact (h1 k hk).imp (fun h => .inr (.inr h)) id
        · rw [h2 h]
          have hky : before less (valueOf τ k) (valueOf τ y) = true := by rw [← hyes h]; exact hb
          have hs := (ho h).sorted
          simp only [Tree.keys, List.pairwise_append, List.pairwise_cons, List.mem_cons] at hs
          have hlk : l.keys.find? (fun k => !before less (valueOf τ k) (valueOf τ y)) = none := by
            rw [List.find?_eq_none]
            intro x hx
            simp [before_trans (ho h).weak (hs.2.2 x hx k (.inl rfl)) hky]
          simp only [Tree.keys, List.find?_append, hlk, List.find?_cons, hky, Bool.not_true, Option.none_or]
    · rename_i hb
      refine ends_mono _ (ihl (some k) (fun k hk => hl k (.inl hk)) fun h => ⟨(ho h).answers, (ho h).weak, ?_⟩) ?_
      · have := (ho h).sorted
        simp only [Tree.keys, List.pairwise_append] at this
        exact this.1
      · rintro a τ ⟨rfl, h0, h1, h2⟩
        refine ⟨rfl, h0, fun k' hk => ?_, fun h => ?_⟩
        · simp only [Tree.keys, List.mem_append, List.mem_cons]
          rcases h1 k' hk with h | h
          · exact .inl (.inl h)
          · exact .inl (.inr (.inl (Option.some.inj h).symm))
        · rw [h2 h]
          have hky : before less (valueOf τ k) (valueOf τ y) = false := by rw [← hyes h]; simpa using hb
          simp only [Tree.keys, List.find?_append, List.find?_cons, hky, Bool.not_false, Option.or_assoc, Option.some_or]

/-- Where a key is or belongs. -/
def Loc (less : V → V → Bool) (σ : Boxes L A V) (ks : List L) (y : L) : Outcome L → Prop
  | .found k => k ∈ ks ∧ Equivalent less (valueOf σ k) (valueOf σ y)
  | .absent c => ∃ p s, ks = p ++ s ∧ c = s.head? ∧ (∀ k ∈ p, before less (valueOf σ k) (valueOf σ y) = true) ∧
      ∀ k ∈ s, before less (valueOf σ y) (valueOf σ k) = true
  | .threw _ => False

theorem find?_split {α : Type} {p : α → Bool} {a : α} : ∀ {l : List α}, l.find? p = some a →
    ∃ x s, l = x ++ a :: s ∧ p a = true ∧ ∀ b ∈ x, p b = false := by
  intro l h
  obtain ⟨h1, as, bs, rfl, h2⟩ := List.find?_eq_some_iff_append.1 h
  exact ⟨as, bs, rfl, h1, fun b hb => by simpa using h2 b hb⟩

theorem ends_find (D : Does step legal q) (hy : Live σ y) (t : Tree L) (hl : ∀ k ∈ t.keys, Live σ k)
    (ho : srt → Order step q less σ t.keys) :
    Ends step legal (fun r τ => τ = σ ∧ (∀ k, r = .found k → k ∈ t.keys) ∧ (srt → Loc less σ t.keys y r)) (find q y t) σ := by
  refine ends_bind _ (ends_mono _ (ends_seek D hy t none hl ho) ?_)
  rintro r τ ⟨rfl, h0, h1, h2⟩
  cases r with
  | found k => exact absurd rfl (h0 k)
  | threw e =>
    exact ⟨rfl, nofun, fun h => by have := h2 h; cases this⟩
  | absent c =>
    simp only [Option.or_none, Outcome.absent.injEq] at h2
    cases c with
    | none =>
      refine ⟨rfl, nofun, fun h => ⟨t.keys, [], by simp, rfl, fun k hk => ?_, by simp⟩⟩
      have := List.find?_eq_none.1 (h2 h).symm k hk
      simpa using this
    | some k =>
      have hk : k ∈ t.keys := (h1 k rfl).resolve_right nofun
      refine ends_less D (srt := srt) (less := less) (fun h => (ho h).answers) hy (hl k hk) (fun o hyes => ?_)
        (fun e hn => ⟨rfl, nofun, fun h => absurd h hn⟩)
      dsimp only
      split
      · rename_i hb
        refine ⟨rfl, nofun, fun h => ?_⟩
        obtain ⟨x, s, hks, hp, hx⟩ := find?_split (h2 h).symm
        have hyk : before less (valueOf τ y) (valueOf τ k) = true := by rw [← hyes h]; exact hb
        refine ⟨x, k :: s, hks, rfl, fun b hb => by simpa using hx b hb, fun b hb => ?_⟩
        rcases List.mem_cons.1 hb with rfl | hb
        · exact hyk
        · have hs := (ho h).sorted
          rw [hks, List.pairwise_append, List.pairwise_cons] at hs
          exact before_trans (ho h).weak hyk (hs.2.1.1 b hb)
      · rename_i hb
        refine ⟨rfl, fun k' h => by cases h; exact hk, fun h => ⟨hk, ?_, ?_⟩⟩
        · obtain ⟨x, s, hks, hp, hx⟩ := find?_split (h2 h).symm
          simpa using hp
        · rw [← hyes h]; simpa using hb

theorem loc_finds {ks : List L} {r : Outcome L} (h : Loc less σ ks y r) : Finds less σ ks y r := by
  cases r with
  | found k => exact h
  | threw e => exact h
  | absent c =>
    obtain ⟨p, s, rfl, -, hp, hs⟩ := h
    intro k hk e
    rcases List.mem_append.1 hk with hk | hk
    · have := hp k hk; rw [e.1] at this; cases this
    · have := hs k hk; rw [e.2] at this; cases this

theorem link_append {n : L} {p s : List L} (h : ∀ k ∈ p, s.head? ≠ some k) : link n s.head? (p ++ s) = p ++ n :: s := by
  induction p with
  | nil =>
    cases s with
    | nil => rfl
    | cons k s => simp [link]
  | cons k p ih =>
    simp only [List.cons_append, link]
    rw [if_neg (h k (by simp)), ih fun k hk => h k (by simp [hk])]

theorem mem_link {n k : L} {c : Option L} {ks : List L} : k ∈ link n c ks ↔ k = n ∨ k ∈ ks := by
  induction ks with
  | nil => simp [link]
  | cons a ks ih =>
    simp only [link]
    split
    · simp
    · simp only [List.mem_cons, ih]
      constructor
      · rintro (h | h | h) <;> simp [h]
      · rintro (h | h | h) <;> simp [h]

theorem nodup_link {n : L} {c : Option L} {ks : List L} (hn : n ∉ ks) (h : ks.Nodup) : (link n c ks).Nodup := by
  induction ks with
  | nil => simp [link]
  | cons a ks ih =>
    simp only [List.mem_cons, not_or] at hn
    simp only [List.nodup_cons] at h
    simp only [link]
    split
    · simp [hn, h]
    · simp only [List.nodup_cons, mem_link, not_or]
      exact ⟨⟨fun e => hn.1 e.symm, h.1⟩, ih hn.2 h.2⟩

theorem sorted_congr {τ : Boxes L A V} {ks : List L} (h : ∀ k ∈ ks, τ k = σ k)
    (hs : ks.Pairwise fun a b => before less (valueOf σ a) (valueOf σ b) = true) :
    ks.Pairwise fun a b => before less (valueOf τ a) (valueOf τ b) = true := by
  refine hs.imp_of_mem fun ha hb hab => ?_
  rw [valueOf, valueOf, h _ ha, h _ hb]; exact hab

theorem lift_equivalent {a b : Option V} (h : Lift (fun v w => less v w = false ∧ less w v = false) a b) : Equivalent less b a := by
  cases a <;> cases b <;> simp only [Lift] at h
  · exact ⟨rfl, rfl⟩
  · exact ⟨h.2, h.1⟩

variable {add : Way A → L → L → C} {al : Way A → A → A} {R : V → V → Prop} {how : Way A} {n : L}

theorem ends_insert (D : Does step legal q) (K : Makes step legal add q.remove al R) (hy : Live σ y) (t : Tree L) (hk : KeysAlive σ t.keys)
    (ho : srt → Order step q less σ t.keys) (hR : srt → R = fun v w => less v w = false ∧ less w v = false)
    (hn : Dead σ n) (hm : how.moves = true → y ∉ t.keys) :
    Ends step legal (fun r τ => KeysAlive τ (inserted n t.keys r) ∧
      (srt → Inserts al less how σ τ t.keys n y r ∧ IsSet less τ (inserted n t.keys r))) (insert q (add how) n y t) σ := by
  have hnk : n ∉ t.keys := by
    intro h
    obtain ⟨b, hb⟩ := hk.2 n h
    rw [hn] at hb; cases hb
  have hny : n ≠ y := by
    rintro rfl
    obtain ⟨b, hb⟩ := hy
    rw [hn] at hb; cases hb
  have hlk : ∀ k ∈ t.keys, how.moves = false ∨ k ≠ y := by
    intro k h
    cases hb : how.moves with
    | false => exact .inl rfl
    | true => right; rintro rfl; exact hm hb h
  refine ends_bind _ (ends_mono _ (ends_find D hy t hk.2 ho) ?_)
  rintro r τ ⟨rfl, h1, h2⟩
  cases r with
  | found k => exact ⟨hk, fun h => ⟨⟨(h2 h).1, (h2 h).2, rfl⟩, hk.1, hk.2, (ho h).sorted⟩⟩
  | threw e => exact ⟨hk, fun h => (h2 h).elim⟩
  | absent c =>
    refine ⟨K.add_legal how τ n y hn hy, fun m i => ?_⟩
    have ha := K.add how m i τ n y hn hy
    cases hs : step m i τ (add how n y) <;> rw [hs] at ha <;> simp only [Adds] at ha ⊢
    · rename_i o τ'
      obtain ⟨⟨b, hb, hbv⟩, hal, hz⟩ := ha
      have same : ∀ k ∈ t.keys, τ' k = τ k := fun k h => (hz k (by rintro rfl; exact hnk h)).1 (hlk k h)
      have alive : KeysAlive τ' (link n c t.keys) := by
        refine ⟨nodup_link hnk hk.1, fun k h => ?_⟩
        rcases mem_link.1 h with rfl | h
        · exact ⟨b, hb⟩
        · obtain ⟨d, hd⟩ := hk.2 k h
          exact ⟨d, (same k h).trans hd⟩
      refine ⟨alive, fun h => ?_⟩
      have hv : valueOf τ' n = b.val := by simp [valueOf, hb]
      have he : Equivalent less (valueOf τ' n) (valueOf τ y) := by
        rw [hv]
        rw [hR h] at hbv
        exact lift_equivalent hbv
      refine ⟨⟨loc_finds (h2 h), he, hal, fun z hz' => (hz z hz').1⟩, alive.1, alive.2, ?_⟩
      obtain ⟨p, s, hks, rfl, hp, hq⟩ := h2 h
      have hW := (ho h).weak
      have hso := sorted_congr same (ho h).sorted
      have hnd := hk.1
      show (link n s.head? t.keys).Pairwise _
      rw [hks] at hso hnd ⊢
      rw [link_append]
      · rw [List.pairwise_append] at hso
        rw [List.pairwise_append, List.pairwise_cons]
        have hpn : ∀ k ∈ p, before less (valueOf τ' k) (valueOf τ' n) = true := by
          intro k hk'
          rw [valueOf, same k (by rw [hks]; simp [hk'])]
          exact before_right hW (hp k hk') he.symm
        refine ⟨hso.1, ⟨fun k hk' => ?_, hso.2.1⟩, fun a ha' k hk' => ?_⟩
        · have : valueOf τ' k = valueOf τ k := by rw [valueOf, same k (by rw [hks]; simp [hk'])]; rfl
          rw [this]
          exact before_left hW (hq k hk') he.symm
        · rcases List.mem_cons.1 hk' with rfl | hk'
          · exact hpn a ha'
          · exact hso.2.2 a ha' k hk'
      · intro k hk' hh
        cases s with
        | nil => cases hh
        | cons a s =>
          cases hh
          rw [List.nodup_append] at hnd
          exact hnd.2.2 k hk' k (by simp) rfl
    · rename_i e τ'
      have same : ∀ k ∈ t.keys, τ' k = τ k := fun k h => (ha k).1 (hlk k h)
      have alive : KeysAlive τ' t.keys := ⟨hk.1, fun k h => (ha k).2 (hk.2 k h)⟩
      exact ⟨alive, fun h => ⟨⟨loc_finds (h2 h), fun z => (ha z).1⟩, alive.1, alive.2, sorted_congr same (ho h).sorted⟩⟩

theorem ends_erase (D : Does step legal q) (K : Makes step legal add q.remove al R) (hy : Live σ y) (t : Tree L) (hk : KeysAlive σ t.keys)
    (ho : srt → Order step q less σ t.keys) :
    Ends step legal (fun r τ => KeysAlive τ (erased t.keys r) ∧
      (srt → Erases less σ τ t.keys y r ∧ IsSet less τ (erased t.keys r))) (erase q y t) σ := by
  refine ends_bind _ (ends_mono _ (ends_find D hy t hk.2 ho) ?_)
  rintro r τ ⟨rfl, h1, h2⟩
  cases r with
  | threw e => exact ⟨hk, fun h => (h2 h).elim⟩
  | absent c => exact ⟨hk, fun h => ⟨⟨loc_finds (h2 h), rfl⟩, hk.1, hk.2, (ho h).sorted⟩⟩
  | found k =>
    refine ⟨K.remove_legal τ k (hk.2 k (h1 k rfl)), fun m i => ?_⟩
    obtain ⟨o, hs⟩ := K.remove m i τ k
    rw [hs]
    have same : ∀ a ∈ t.keys.filter (· ≠ k), drop τ k a = τ a := by
      intro a ha
      have : a ≠ k := by simpa using (List.mem_filter.1 ha).2
      simp [drop, this]
    have alive : KeysAlive (drop τ k) (t.keys.filter (· ≠ k)) := by
      refine ⟨hk.1.filter _, fun a ha => ?_⟩
      obtain ⟨b, hb⟩ := hk.2 a (List.mem_filter.1 ha).1
      exact ⟨b, (same a ha).trans hb⟩
    exact ⟨alive, fun h => ⟨⟨(h2 h).1, (h2 h).2, rfl⟩, alive.1, alive.2, sorted_congr same ((ho h).sorted.filter _)⟩⟩

end

/-! ## Hash tables, on values -/

section
variable {V : Type} {eq : V → V → Bool} {hash : V → Nat} {npos : Nat}

theorem same_symm (H : HashLaws eq hash) {a b : Option V} (h : same eq a b = true) : same eq b a = true := by
  cases a <;> cases b <;> simp only [same] at h ⊢ <;> first | exact H.symm _ _ h | cases h

theorem same_trans (H : HashLaws eq hash) {a b c : Option V} (h : same eq a b = true) (h' : same eq b c = true) : same eq a c = true := by
  cases a <;> cases b <;> cases c <;> simp only [same] at h h' ⊢ <;> first | exact H.trans _ _ _ h h' | (cases h; done) | (cases h'; done)

theorem same_hash (H : HashLaws eq hash) {a b : Option V} (h : same eq a b = true) : hashOf hash npos a = hashOf hash npos b := by
  cases a <;> cases b <;> simp only [same] at h <;> first | exact H.hash _ _ h | rfl | cases h

end

section
variable {L A V C N : Type} [DecidableEq L] {step : Bool → N → Boxes L A V → C → Result L A V} {legal : Boxes L A V → C → Prop}

/-- What comparisons and hashes do. -/
structure HDoes (step : Bool → N → Boxes L A V → C → Result L A V) (legal : Boxes L A V → C → Prop) (q : Sets.HAsk C (Out L A V) L) : Prop where
  eq_legal : ∀ σ x y, Live σ x → Live σ y → legal σ (q.eq x y)
  eq : ∀ σ x y, Live σ x → Live σ y → ∀ m n, (∃ o, step m n σ (q.eq x y) = .ret o σ) ∨ ∃ e, step m n σ (q.eq x y) = .threw e σ
  hash_legal : ∀ σ x, Live σ x → legal σ (q.hash x)
  hash : ∀ σ x, Live σ x → ∀ m n, (∃ o, step m n σ (q.hash x) = .ret o σ) ∨ ∃ e, step m n σ (q.hash x) = .threw e σ

/-- They answer by `same eq` and `hashOf hash npos`. -/
structure HAnswers (step : Bool → N → Boxes L A V → C → Result L A V) (q : Sets.HAsk C (Out L A V) L) (eq : V → V → Bool) (hash : V → Nat)
    (npos : Nat) : Prop where
  eq : ∀ m n σ x y, Live σ x → Live σ y → ∃ o, step m n σ (q.eq x y) = .ret o σ ∧ q.yes o = same eq (valueOf σ x) (valueOf σ y)
  hash : ∀ m n σ x, Live σ x → ∃ o, step m n σ (q.hash x) = .ret o σ ∧ q.code o = hashOf hash npos (valueOf σ x)

variable {q : Sets.HAsk C (Out L A V) L} {eq : V → V → Bool} {hash : V → Nat} {npos : Nat} {σ : Boxes L A V} {y : L} {srt : Prop}

theorem ends_scan (D : HDoes step legal q) (hA : srt → HAnswers step q eq hash npos) (hy : Live σ y) (h : Nat) :
    ∀ (ks : List L), (∀ k ∈ ks, Live σ k) →
    Ends step legal (fun r τ => τ = σ ∧ (∀ k, r = .found k → k ∈ ks) ∧ (∀ h', r = .absent h' → h' = h) ∧
      (srt → match r with
        | .found k => same eq (valueOf σ y) (valueOf σ k) = true
        | .absent _ => ∀ k ∈ ks, same eq (valueOf σ y) (valueOf σ k) = false
        | .threw _ => False)) (scan q y h ks) σ := by
  intro ks
  induction ks with
  | nil => intro _; exact ⟨rfl, nofun, fun h' e => by cases e; rfl, fun _ => by simp⟩
  | cons k ks ih =>
    intro hl
    have hk := hl k (by simp)
    refine ends_query (D.eq_legal σ y k hy hk) (D.eq σ y k hy hk) (fun m n o ho => ?_) (fun m n e he => ?_)
    · have hyes : srt → q.yes o = same eq (valueOf σ y) (valueOf σ k) := by
        intro hs
        obtain ⟨o', h1, h2⟩ := (hA hs).eq m n σ y k hy hk
        rw [ho] at h1; cases h1; exact h2
      dsimp only
      split
      · rename_i hb
        exact ⟨rfl, fun k' e => by cases e; simp, nofun, fun hs => by show same eq _ _ = true; rw [← hyes hs]; exact hb⟩
      · rename_i hb
        refine ends_mono _ (ih fun k hk => hl k (by simp [hk])) ?_
        rintro r τ ⟨rfl, h1, h2, h3⟩
        refine ⟨rfl, fun k' e => by simp [h1 k' e], h2, fun hs => ?_⟩
        have := h3 hs
        cases r with
        | found k => exact this
        | threw e => exact this
        | absent c =>
          intro k' hk'
          rcases List.mem_cons.1 hk' with rfl | hk'
          · rw [← hyes hs]; simpa using hb
          · exact this k' hk'
    · refine ⟨rfl, nofun, nofun, fun hs => ?_⟩
      obtain ⟨o', h1, -⟩ := (hA hs).eq m n σ y k hy hk
      rw [he] at h1; cases h1

/-- The laws, and the table is one. -/
structure Lawful (step : Bool → N → Boxes L A V → C → Result L A V) (q : Sets.HAsk C (Out L A V) L) (eq : V → V → Bool) (hash : V → Nat)
    (npos : Nat) (σ : Boxes L A V) (t : List (Sets.Node L)) : Prop where
  answers : HAnswers step q eq hash npos
  laws : HashLaws eq hash
  codes : ∀ n ∈ t, n.1 = hashOf hash npos (valueOf σ n.2)
  distinct : t.Pairwise fun a b => same eq (valueOf σ a.2) (valueOf σ b.2) = false

theorem mem_bucket {m : Nat} {codes : Bool} {h : Nat} {t : List (Sets.Node L)} {k : L} (hk : k ∈ bucket m codes h t) : ∃ n ∈ t, n.2 = k := by
  obtain ⟨n, hn, rfl⟩ := List.mem_map.1 hk
  exact ⟨n, (List.mem_filter.1 hn).1, rfl⟩

theorem ends_hfind (D : HDoes step legal q) (hy : Live σ y) (t : List (Sets.Node L)) (m : Nat) (codes : Bool) (hl : ∀ n ∈ t, Live σ n.2)
    (ho : srt → Lawful step q eq hash npos σ t) :
    Ends step legal (fun r τ => τ = σ ∧ (∀ k, r = .found k → ∃ n ∈ t, n.2 = k) ∧
      (srt → TFinds eq σ t y r ∧ ∀ h, r = .absent h → h = hashOf hash npos (valueOf σ y))) (hfind q m codes y t) σ := by
  refine ends_query (D.hash_legal σ y hy) (D.hash σ y hy) (fun m' n o ho' => ?_) (fun m' n e he => ?_)
  · have hcode : srt → q.code o = hashOf hash npos (valueOf σ y) := by
      intro hs
      obtain ⟨o', h1, h2⟩ := (ho hs).answers.hash m' n σ y hy
      rw [ho'] at h1; cases h1; exact h2
    refine ends_mono _ (ends_scan D (fun h => (ho h).answers) hy (q.code o) (bucket m codes (q.code o) t) ?_) ?_
    · intro k hk
      obtain ⟨n, hn, rfl⟩ := mem_bucket hk
      exact hl n hn
    · rintro r τ ⟨rfl, h1, h2, h3⟩
      refine ⟨rfl, fun k e => mem_bucket (h1 k e), fun hs => ⟨?_, fun h e => (h2 h e).trans (hcode hs)⟩⟩
      have h3 := h3 hs
      cases r with
      | found k => exact ⟨mem_bucket (h1 k rfl), h3⟩
      | threw e => exact h3
      | absent h =>
        intro n hn
        cases hsame : same eq (valueOf τ y) (valueOf τ n.2) with
        | false => rfl
        | true =>
          have hc : n.1 = q.code o := by rw [(ho hs).codes n hn, hcode hs, same_hash (ho hs).laws hsame]
          have : n.2 ∈ bucket m codes (q.code o) t :=
            List.mem_map.2 ⟨n, List.mem_filter.2 ⟨hn, by simp [hc]⟩, rfl⟩
          rw [h3 _ this] at hsame; cases hsame
  · refine ⟨rfl, nofun, fun hs => ?_⟩
    obtain ⟨o', h1, -⟩ := (ho hs).answers.hash m' n σ y hy
    rw [he] at h1; cases h1

theorem table_congr {τ : Boxes L A V} {t : List (Sets.Node L)} (h : ∀ n ∈ t, τ n.2 = σ n.2)
    (hc : ∀ n ∈ t, n.1 = hashOf hash npos (valueOf σ n.2))
    (hs : t.Pairwise fun a b => same eq (valueOf σ a.2) (valueOf σ b.2) = false) :
    (∀ n ∈ t, n.1 = hashOf hash npos (valueOf τ n.2)) ∧ t.Pairwise fun a b => same eq (valueOf τ a.2) (valueOf τ b.2) = false := by
  constructor
  · intro n hn
    rw [valueOf, h n hn]; exact hc n hn
  · refine hs.imp_of_mem fun ha hb hab => ?_
    rw [valueOf, valueOf, h _ ha, h _ hb]; exact hab

variable {add : Way A → L → L → C} {al : Way A → A → A} {R : V → V → Prop} {how : Way A} {n : L}

theorem lift_same {a b : Option V} (h : Lift (fun v w => eq v w = true) a b) : same eq a b = true := by
  cases a <;> cases b <;> simp only [Lift] at h
  · rfl
  · exact h

theorem ends_hinsert (D : HDoes step legal q) (K : Makes step legal add q.remove al R) (hy : Live σ y) (t : List (Sets.Node L)) (m : Nat)
    (codes : Bool) (hk : KeysAlive σ (t.map (·.2))) (ho : srt → Lawful step q eq hash npos σ t)
    (hR : srt → R = fun v w => eq v w = true) (hn : Dead σ n) (hm : how.moves = true → ∀ n ∈ t, n.2 ≠ y) :
    Ends step legal (fun r τ => KeysAlive τ ((hinserted n t r).map (·.2)) ∧
      (srt → TInserts al eq how σ τ t n y r ∧ IsTable eq hash npos τ (hinserted n t r))) (hinsert q (add how) m codes n y t) σ := by
  have hl : ∀ n ∈ t, Live σ n.2 := fun n hn => hk.2 _ (List.mem_map_of_mem hn)
  have hnk : ∀ a ∈ t, a.2 ≠ n := by
    intro a ha e
    obtain ⟨b, hb⟩ := hl a ha
    rw [e, hn] at hb; cases hb
  have hlk : ∀ a ∈ t, how.moves = false ∨ a.2 ≠ y := by
    intro a ha
    cases hb : how.moves with
    | false => exact .inl rfl
    | true => exact .inr (hm hb a ha)
  refine ends_bind _ (ends_mono _ (ends_hfind D hy t m codes hl ho) ?_)
  rintro r τ ⟨rfl, h1, h2⟩
  cases r with
  | found k => exact ⟨hk, fun h => ⟨⟨(h2 h).1.1, (h2 h).1.2, rfl⟩, hk.1, hl, (ho h).codes, (ho h).distinct⟩⟩
  | threw e => exact ⟨hk, fun h => (h2 h).1.elim⟩
  | absent c =>
    refine ⟨K.add_legal how τ n y hn hy, fun m i => ?_⟩
    have ha := K.add how m i τ n y hn hy
    cases hs : step m i τ (add how n y) <;> rw [hs] at ha <;> simp only [Adds] at ha ⊢
    · rename_i o τ'
      obtain ⟨⟨b, hb, hbv⟩, hal, hz⟩ := ha
      have keep : ∀ a ∈ t, τ' a.2 = τ a.2 := fun a h => (hz a.2 (hnk a h)).1 (hlk a h)
      have alive : KeysAlive τ' (((c, n) :: t).map (·.2)) := by
        refine ⟨?_, fun k h => ?_⟩
        · simp only [List.map_cons, List.nodup_cons]
          refine ⟨fun h => ?_, hk.1⟩
          obtain ⟨a, ha', e⟩ := List.mem_map.1 h
          exact hnk a ha' e
        · simp only [List.map_cons, List.mem_cons] at h
          rcases h with rfl | h
          · exact ⟨b, hb⟩
          · obtain ⟨a, ha', rfl⟩ := List.mem_map.1 h
            obtain ⟨d, hd⟩ := hl a ha'
            exact ⟨d, (keep a ha').trans hd⟩
      refine ⟨alive, fun h => ?_⟩
      obtain ⟨hf, hcode⟩ := h2 h
      have hv : valueOf τ' n = b.val := by simp [valueOf, hb]
      have he : same eq (valueOf τ y) (valueOf τ' n) = true := by
        rw [hv]
        rw [hR h] at hbv
        exact lift_same hbv
      obtain ⟨hc', hd'⟩ := table_congr keep (ho h).codes (ho h).distinct
      refine ⟨⟨hf, he, hal, fun z hz' => (hz z hz').1⟩, alive.1, fun a ha' => alive.2 a.2 (List.mem_map_of_mem ha'), ?_, ?_⟩
      · intro a ha'
        rcases List.mem_cons.1 ha' with rfl | ha'
        · rw [hcode c rfl]
          exact same_hash (ho h).laws he
        · exact hc' a ha'
      · refine List.pairwise_cons.2 ⟨fun a ha' => ?_, hd'⟩
        cases hsame : same eq (valueOf τ' n) (valueOf τ' a.2) with
        | false => rfl
        | true =>
          have hv : valueOf τ' a.2 = valueOf τ a.2 := by rw [valueOf, keep a ha']; rfl
          rw [hv] at hsame
          have := hf a ha'
          rw [same_trans (ho h).laws he hsame] at this; cases this
    · rename_i e τ'
      have keep : ∀ a ∈ t, τ' a.2 = τ a.2 := fun a h => (ha a.2).1 (hlk a h)
      have alive : KeysAlive τ' (t.map (·.2)) := ⟨hk.1, fun k h => (ha k).2 (hk.2 k h)⟩
      refine ⟨alive, fun h => ?_⟩
      obtain ⟨hc', hd'⟩ := table_congr keep (ho h).codes (ho h).distinct
      exact ⟨⟨(h2 h).1, fun z => (ha z).1⟩, alive.1, fun a ha' => alive.2 a.2 (List.mem_map_of_mem ha'), hc', hd'⟩

theorem ends_herase (D : HDoes step legal q) (K : Makes step legal add q.remove al R) (hy : Live σ y) (t : List (Sets.Node L)) (m : Nat)
    (codes : Bool) (hk : KeysAlive σ (t.map (·.2))) (ho : srt → Lawful step q eq hash npos σ t) :
    Ends step legal (fun r τ => KeysAlive τ ((herased t r).map (·.2)) ∧
      (srt → TErases eq σ τ t y r ∧ IsTable eq hash npos τ (herased t r))) (herase q m codes y t) σ := by
  have hl : ∀ n ∈ t, Live σ n.2 := fun n hn => hk.2 _ (List.mem_map_of_mem hn)
  refine ends_bind _ (ends_mono _ (ends_hfind D hy t m codes hl ho) ?_)
  rintro r τ ⟨rfl, h1, h2⟩
  cases r with
  | threw e => exact ⟨hk, fun h => (h2 h).1.elim⟩
  | absent c => exact ⟨hk, fun h => ⟨⟨(h2 h).1, rfl⟩, hk.1, hl, (ho h).codes, (ho h).distinct⟩⟩
  | found k =>
    obtain ⟨n, hn, rfl⟩ := h1 k rfl
    refine ⟨K.remove_legal τ n.2 (hl n hn), fun m i => ?_⟩
    obtain ⟨o, hs⟩ := K.remove m i τ n.2
    rw [hs]
    have keep : ∀ a ∈ t.filter (·.2 ≠ n.2), drop τ n.2 a.2 = τ a.2 := by
      intro a ha
      have : a.2 ≠ n.2 := by simpa using (List.mem_filter.1 ha).2
      simp [drop, this]
    have hsub : (t.filter (·.2 ≠ n.2)).map (·.2) = (t.map (·.2)).filter (· ≠ n.2) := by
      rw [List.filter_map]; rfl
    have alive : KeysAlive (drop τ n.2) ((t.filter (·.2 ≠ n.2)).map (·.2)) := by
      refine ⟨by rw [hsub]; exact hk.1.filter _, fun k hk' => ?_⟩
      obtain ⟨a, ha, rfl⟩ := List.mem_map.1 hk'
      obtain ⟨b, hb⟩ := hl a (List.mem_filter.1 ha).1
      exact ⟨b, (keep a ha).trans hb⟩
    refine ⟨alive, fun h => ?_⟩
    obtain ⟨hc', hd'⟩ := table_congr keep (fun a ha => (ho h).codes a (List.mem_filter.1 ha).1) ((ho h).distinct.filter _)
    exact ⟨⟨(h2 h).1.1, (h2 h).1.2, rfl⟩, alive.1, fun a ha' => alive.2 a.2 (List.mem_map_of_mem ha'), hc', hd'⟩

end

/-! ## With the headers -/

section
variable {L A R V X : Type} [DecidableEq L] [DecidableEq R]

theorem adds_put {al : Way A → A → A} {Q : V → V → Prop} {how : Way A} {n y : L} {σ : Boxes L A V} {o : Out L A V} {b : Box A V} (h : Lift Q (valueOf σ y) b.val)
    (ha : ∀ c, σ y = some c → b.alloc = al how c.alloc) : Adds al Q how n y σ (.ret o (put σ n b)) := by
  refine ⟨⟨b, by simp [put], h⟩, fun d c hd hc => ?_, fun z hz => ⟨fun _ => by simp [put, hz], fun h => ?_⟩⟩
  · have : d = b := by simpa [put, eq_comm] using hd
    rw [this]; exact ha c hc
  · simpa [Live, put, hz] using h

theorem adds_copyA {al : Way A → A → A} {T : TSpec V X} {Q : V → V → Prop} (hp : Preserves T Q) {how : Way A} (m : Bool) (i : Nat) {σ : Boxes L A V} {n y : L} (a : A)
    (hy : Live σ y) (hal : ∀ c, σ y = some c → a = al how c.alloc) : Adds al Q how n y σ (Spec.copyA T m i σ n a y) := by
  obtain ⟨b, hb⟩ := hy
  simp only [Spec.copyA, hb]
  cases hv : b.val with
  | none =>
    refine adds_put ?_ hal
    simp [valueOf, hb, hv, Lift]
  | some v =>
    simp only [store]
    split
    · rename_i w hw
      refine adds_put ?_ hal
      simp only [build] at hw
      split at hw
      · simpa [valueOf, hb, hv, Lift] using (hp v i w).1 hw
      · cases hw
    · exact fun z => ⟨fun _ => rfl, id⟩

theorem adds_moveA {al : Way A → A → A} {tr : ATraits A R} {T : TSpec V X} {Q : V → V → Prop} (hp : Preserves T Q) (hr : ∀ v, Q v v) {how : Way A}
    (hm : how.moves = true) (m : Bool) (i : Nat) {σ : Boxes L A V} {n y : L} (a : A) (hn : Dead σ n) (hy : Live σ y)
    (hal : ∀ c, σ y = some c → a = al how c.alloc) : Adds al Q how n y σ (noexceptIf tr.alwaysEqual (Spec.moveA tr T m i σ n a y)) := by
  obtain ⟨b, hb⟩ := hy
  have hny : n ≠ y := by
    rintro rfl
    rw [hn] at hb; cases hb
  have hrefl : Lift Q b.val b.val := by
    cases b.val with
    | none => trivial
    | some v => exact hr v
  have hv : valueOf σ y = b.val := by simp [valueOf, hb]
  have mid : ∀ (c d : Box A V) z, z ≠ n → Leaves how y σ (put (put σ y c) n d) z ∧ (Live σ z → Live (put (put σ y c) n d) z) := by
    intro c d z hz
    refine ⟨fun h => ?_, fun h => ?_⟩
    · have hzy : z ≠ y := h.resolve_left (by simp [hm])
      simp [put, hz, hzy]
    · by_cases hzy : z = y
      · subst hzy
        exact ⟨c, by simp [put, hz]⟩
      · obtain ⟨d, hd⟩ := h
        exact ⟨d, by simp [put, hz, hzy, hd]⟩
  have new : ∀ (τ : Boxes L A V) w, Allocated al how σ (put τ n ⟨a, w⟩) n y := by
    intro τ w d c hd hc
    have : d = ⟨a, w⟩ := by simpa [put, eq_comm] using hd
    rw [this]; exact hal c hc
  simp only [Spec.moveA, hb]
  split
  · refine ⟨⟨⟨a, b.val⟩, by simp [put], ?_⟩, new _ _, mid _ _⟩
    rw [hv]; exact hrefl
  · rename_i hne
    have ha : tr.alwaysEqual = false := by
      cases h : tr.alwaysEqual with
      | false => rfl
      | true => simp [h] at hne
    cases hbv : b.val with
    | none =>
      simp only [noexceptIf]
      refine adds_put ?_ hal
      rw [hv, hbv]; trivial
    | some v =>
      have hset : ∀ w, setVal σ y w = put σ y ⟨b.alloc, w⟩ := by
        intro w; funext z
        simp only [setVal, put, hb, Option.map_some]
      simp only [hset]
      split
      · cases hmv : (T.move v i).1 with
        | ok w =>
          simp only [store, noexceptIf]
          refine ⟨⟨⟨a, some w⟩, by simp [put], ?_⟩, new _ _, mid _ _⟩
          rw [hv, hbv]; exact (hp v i w).2 hmv
        | error e =>
          simp only [store, noexceptIf, ha, Bool.false_eq_true, if_false]
          intro z
          refine ⟨fun h => ?_, fun h => ?_⟩
          · have hzy : z ≠ y := h.resolve_left (by simp [hm])
            simp [put, hzy]
          · by_cases hzy : z = y
            · subst hzy
              exact ⟨⟨b.alloc, some (T.move v i).2⟩, by simp [put]⟩
            · obtain ⟨d, hd⟩ := h
              exact ⟨d, by simp [put, hzy, hd]⟩
      · simp only [noexceptIf, ha, Bool.false_eq_true, if_false]
        exact fun z => ⟨fun _ => rfl, id⟩

theorem adds_op {tr : ATraits A R} {T : TSpec V X} {Q : V → V → Prop} (hp : Preserves T Q) (hr : ∀ v, Q v v) (how : Way A) (m : Bool) (i : Nat)
    {σ : Boxes L A V} {n y : L} (hn : Dead σ n) (hy : Live σ y) : Adds (keyAlloc tr) Q how n y σ (Spec.step tr T m i σ (how.op n y)) := by
  have hy' := hy
  obtain ⟨b, hb⟩ := hy'
  have hal : ∀ (f : A → A) c, σ y = some c → f b.alloc = f c.alloc := by
    intro f c hc
    rw [hb] at hc; cases hc; rfl
  cases how <;> simp only [Way.op, Spec.step, hb]
  · exact adds_copyA hp _ _ _ hy (hal tr.socc)
  · exact adds_moveA hp hr rfl _ _ _ hn hy (hal id)
  · exact adds_copyA hp _ _ _ hy (fun _ _ => rfl)
  · exact adds_moveA hp hr rfl _ _ _ hn hy (fun _ _ => rfl)

theorem op_legal {tr : ATraits A R} (how : Way A) {σ : Boxes L A V} {n y : L} (hn : Dead σ n) (hy : Live σ y) :
    Legal tr σ (how.op n y : Op L A V X) := by
  cases how <;> exact ⟨hn, hy⟩

theorem makes20 (tr : ATraits A R) {T : TSpec V X} (C : TCmp V) {Q : V → V → Prop} (hp : Preserves T Q) (hr : ∀ v, Q v v) :
    Makes (L := L) (estep tr T C) (ELegal tr) (fun how n y => .call (how.op n y)) (fun x => .call (.destroy x)) (keyAlloc tr) Q where
  add_legal how _ _ _ hn hy := op_legal how hn hy
  add how m i _ _ _ hn hy := adds_op hp hr how m (i 0) hn hy
  remove_legal _ _ h := h
  remove _ _ _ _ := ⟨_, rfl⟩

theorem makes14 (tr : ATraits A R) {T : TSpec V X} (C : TCmp V) {Q : V → V → Prop} (hp : Preserves T Q) (hr : ∀ v, Q v v) :
    Makes (L := L) (estep14 tr T C) (ELegal14 tr) (fun how n y => .call (how.op n y)) (fun x => .call (.destroy x)) (keyAlloc tr) Q where
  add_legal how _ _ _ hn hy := op_legal how hn hy
  add how m i _ _ _ hn hy := adds_op (T := T.cxx14) hp hr how m (i 0) hn hy
  remove_legal _ _ h := h
  remove _ _ _ _ := ⟨_, rfl⟩

theorem setDoes20 (tr : ATraits A R) (T : TSpec V X) (C : TCmp V) : Does (L := L) (estep tr T C) (ELegal tr) ask20 where
  less_legal := (Sorting.does20 tr T C).less_legal
  less σ x y hx hy m n := (Sorting.does20 tr T C).less m n σ x y hx hy

theorem setDoes14 (tr : ATraits A R) (T : TSpec V X) (C : TCmp V) : Does (L := L) (estep14 tr T C) (ELegal14 tr) ask14 where
  less_legal := (Sorting.does14 tr T C).less_legal
  less σ x y hx hy m n := (Sorting.does14 tr T C).less m n σ x y hx hy

theorem hashDoes20 (tr : ATraits A R) (T : TSpec V X) (C : TCmp V) : HDoes (L := L) (estep tr T C) (ELegal tr) hask20 where
  eq_legal σ x y hx hy := by
    intro z hz
    simp only [qoperands, List.mem_cons, List.not_mem_nil, or_false] at hz
    rcases hz with rfl | rfl <;> assumption
  eq σ x y hx hy m n := by
    obtain ⟨b, hb⟩ := hx
    obtain ⟨c, hc⟩ := hy
    simp only [hask20, estep, qstep, hb, hc]
    cases qeq C n b.val c.val with
    | ok a => exact .inl ⟨_, rfl⟩
    | error e => exact .inr ⟨_, rfl⟩
  hash_legal σ x hx := by
    intro z hz
    simp only [qoperands, List.mem_cons, List.not_mem_nil, or_false] at hz
    subst hz; assumption
  hash σ x hx m n := by
    obtain ⟨b, hb⟩ := hx
    simp only [hask20, estep, qstep, hb]
    cases qhash C n b.val with
    | ok a => exact .inl ⟨_, rfl⟩
    | error e => exact .inr ⟨_, rfl⟩

theorem hashDoes14 (tr : ATraits A R) (T : TSpec V X) (C : TCmp V) : HDoes (L := L) (estep14 tr T C) (ELegal14 tr) hask14 where
  eq_legal σ x y hx hy := by
    intro z hz
    simp only [qoperands14, List.mem_cons, List.not_mem_nil, or_false] at hz
    rcases hz with rfl | rfl <;> assumption
  eq σ x y hx hy m n := by
    obtain ⟨b, hb⟩ := hx
    obtain ⟨c, hc⟩ := hy
    simp only [hask14, estep14, qstep14, hb, hc]
    cases qrel C .eq n b.val c.val with
    | ok a => exact .inl ⟨_, rfl⟩
    | error e => exact .inr ⟨_, rfl⟩
  hash_legal σ x hx := by
    intro z hz
    simp only [qoperands14, List.mem_cons, List.not_mem_nil, or_false] at hz
    subst hz; assumption
  hash σ x hx m n := by
    obtain ⟨b, hb⟩ := hx
    simp only [hask14, estep14, qstep14, hb]
    cases qhash C n b.val with
    | ok a => exact .inl ⟨_, rfl⟩
    | error e => exact .inr ⟨_, rfl⟩

theorem hashAnswers20 (tr : ATraits A R) (T : TSpec V X) {C : TCmp V} {eq : V → V → Bool} {hash : V → Nat} (h : Hashes C eq hash) :
    HAnswers (L := L) (estep tr T C) hask20 eq hash C.npos where
  eq m n σ x y hx hy := by
    obtain ⟨b, hb⟩ := hx
    obtain ⟨c, hc⟩ := hy
    simp only [hask20, estep, qstep, hb, hc, valueOf, Option.bind_some]
    cases b.val <;> cases c.val <;> simp only [qeq, h.1, answer] <;> exact ⟨_, rfl, rfl⟩
  hash m n σ x hx := by
    obtain ⟨b, hb⟩ := hx
    simp only [hask20, estep, qstep, hb, valueOf, Option.bind_some]
    cases b.val <;> simp only [qhash, h.2, answer] <;> exact ⟨_, rfl, rfl⟩

theorem hashAnswers14 (tr : ATraits A R) (T : TSpec V X) {C : TCmp V} {eq : V → V → Bool} {hash : V → Nat} (h : Hashes C eq hash) :
    HAnswers (L := L) (estep14 tr T C) hask14 eq hash C.npos where
  eq m n σ x y hx hy := by
    obtain ⟨b, hb⟩ := hx
    obtain ⟨c, hc⟩ := hy
    simp only [hask14, estep14, qstep14, hb, hc, valueOf, Option.bind_some]
    cases b.val <;> cases c.val <;> simp only [qrel, valueRel, h.1, answer] <;> exact ⟨_, rfl, rfl⟩
  hash m n σ x hx := by
    obtain ⟨b, hb⟩ := hx
    simp only [hask14, estep14, qstep14, hb, valueOf, Option.bind_some]
    cases b.val <;> simp only [qhash, h.2, answer] <;> exact ⟨_, rfl, rfl⟩

/-- Calls leave the objects alone that they do not name as changed. -/
def Framed {C N : Type} (step : Bool → N → Boxes L A V → C → Result L A V) (changes : C → List L) : Prop :=
  ∀ m n σ c z, z ∉ changes c → Indirect.FrameAt z σ (step m n σ c)

theorem frame_answer {α : Type} {σ : Boxes L A V} {out : α → Out L A V} {r : Except Exn α} {z : L} : Indirect.FrameAt z σ (answer σ out r) := by
  cases r <;> simp [Indirect.FrameAt, answer] <;> rintro _ _ _ rfl <;> rfl

theorem framed20 (tr : ATraits A R) (T : TSpec V X) (C : TCmp V) : Framed (L := L) (estep tr T C) (echanges changes) := by
  intro m n σ c z hz
  cases c with
  | call o => exact Indirect.spec_frame hz
  | query q =>
    cases q <;> simp only [estep, qstep] <;> split <;> first | exact frame_answer | simp [Indirect.FrameAt]

theorem framed14 (tr : ATraits A R) (T : TSpec V X) (C : TCmp V) : Framed (L := L) (estep14 tr T C) (echanges changes) := by
  intro m n σ c z hz
  cases c with
  | call o => exact Indirect.spec_frame hz
  | query q =>
    cases q <;> simp only [estep14, qstep14] <;> split <;> first | exact frame_answer | simp [Indirect.FrameAt]

end

/-! ## In memory -/

section
variable {L A R B V N C α : Type} [DecidableEq L] [DecidableEq R] [Body B]
open Conc

theorem run_ends (api : VApi L A R B V N C) {Q : α → Boxes L A V → Prop} (p : Client C (Out L A V) α) (es : Nat → Env) {s : St L A R B}
    (ok : api.Ok s) (E : Ends api.step api.vlegal Q p (api.abs s)) :
    ∃ a s', p.run api.call es s = .ok a s' ∧ Q a (api.abs s') ∧ api.Ok s' ∧ OwnedOnce s' := by
  have hc := ends_careful _ _ E
  obtain ⟨o, τ, hr, hq⟩ := ends_run _ (luckOf api.call api.seed p es s) _ E
  obtain ⟨hm, hok⟩ := client_run api p es s ok hc
  rw [hr] at hm
  cases hrun : p.run api.call es s with
  | ok o' s' =>
    have hown := client_owned api p ok hc hrun
    have hok := hok _ _ hrun
    rw [hrun] at hm
    obtain ⟨rfl, rfl⟩ := hm
    exact ⟨_, s', rfl, hq, hok, hown⟩
  | threw x s' => rw [hrun] at hm; exact hm.elim
  | terminated => rw [hrun] at hm; exact hm.elim
  | ub u => rw [hrun] at hm; exact hm.elim
  | diverged => rw [hrun] at hm; exact hm.elim

/-- A call of the program that leaves the objects `ks` alone. -/
theorem call_keeps (api : VApi L A R B V N C) (F : Framed api.step api.changes) {s : St L A R B} {c : C} (ok : api.Ok s)
    (hl : api.vlegal (api.abs s) c) (e : Env) {s' : St L A R B} (hr : (∃ o, api.call c e s = .ok o s') ∨ ∃ x, api.call c e s = .threw x s') :
    api.Ok s' ∧ ∀ z, z ∉ api.changes c → api.abs s' z = api.abs s z := by
  have h1 := api.safe c e s ok ((api.legal_eq s c).2 hl)
  have h2 := api.refines s c e ok hl
  rcases hr with ⟨o, hr⟩ | ⟨x, hr⟩ <;> rw [hr] at h1 h2
  · exact ⟨h1, fun z hz => (F _ _ _ c z hz).1 _ _ h2⟩
  · exact ⟨h1, fun z hz => (F _ _ _ c z hz).2 _ _ h2⟩

variable {q : Sets.Ask C (Out L A V) L} {add : Way A → L → L → C} {al : Way A → A → A} {Q : V → V → Prop} {start : St L A R B → Prop} {srt : Prop}
  {less : V → V → Bool} {s : St L A R B} {ks : List L}

theorem alive_congr {σ τ : Boxes L A V} {ks : List L} (h : ∀ k ∈ ks, τ k = σ k) (ha : KeysAlive σ ks) : KeysAlive τ ks :=
  ⟨ha.1, fun k hk => by obtain ⟨b, hb⟩ := ha.2 k hk; exact ⟨b, (h k hk).trans hb⟩⟩

/-- The hypotheses of an order. -/
def Orders (api : VApi L A R B V N C) (q : Sets.Ask C (Out L A V) L) (Q : V → V → Prop) (less : V → V → Bool) : Prop :=
  Answers api.step q less ∧ StrictWeak less ∧ Q = fun v w => less v w = false ∧ less w v = false

theorem set_inv (api : VApi L A R B V N C) (F : Framed api.step api.changes) (D : Does api.step api.vlegal q)
    (K : Makes api.step api.vlegal add q.remove al Q) (hA : srt → Orders api q Q less) (hstart : ∀ s, start s → api.Ok s)
    (h : SetReach api.call api.abs api.vlegal api.changes q add start s ks) :
    api.Ok s ∧ KeysAlive (api.abs s) ks ∧ (srt → IsSet less (api.abs s) ks) := by
  have ord : ∀ {s : St L A R B} {ks : List L}, (srt → IsSet less (api.abs s) ks) → srt → Order api.step q less (api.abs s) ks :=
    fun hi h => ⟨(hA h).1, (hA h).2.1, (hi h).sorted⟩
  have keep : ∀ {σ τ : Boxes L A V} {ks : List L}, (∀ k ∈ ks, τ k = σ k) → KeysAlive σ ks → (srt → IsSet less σ ks) →
      KeysAlive τ ks ∧ (srt → IsSet less τ ks) := fun hk ha hi =>
    ⟨alive_congr hk ha, fun h => ⟨ha.1, (alive_congr hk ha).2, sorted_congr hk (hi h).sorted⟩⟩
  induction h with
  | new h => exact ⟨hstart _ h, ⟨.nil, nofun⟩, fun _ => ⟨.nil, nofun, .nil⟩⟩
  | ret _ hl hk hr ih =>
    obtain ⟨ok, ha, hi⟩ := ih
    obtain ⟨ok', h⟩ := call_keeps api F ok hl _ (.inl ⟨_, hr⟩)
    exact ⟨ok', keep (fun k h' => h k (hk k h')) ha hi⟩
  | threw _ hl hk hr ih =>
    obtain ⟨ok, ha, hi⟩ := ih
    obtain ⟨ok', h⟩ := call_keeps api F ok hl _ (.inr ⟨_, hr⟩)
    exact ⟨ok', keep (fun k h' => h k (hk k h')) ha hi⟩
  | find _ hy hr ih =>
    rename_i s s' t y es r _
    obtain ⟨ok, ha, hi⟩ := ih
    obtain ⟨a, s'', h1, h2, h3, -⟩ := run_ends api _ es ok (ends_find D hy t ha.2 (ord hi))
    rw [hr] at h1; cases h1
    rw [h2.1]; exact ⟨h3, ha, hi⟩
  | insert _ hn hy hm hr ih =>
    rename_i s s' t n y how es r _
    obtain ⟨ok, ha, hi⟩ := ih
    obtain ⟨a, s'', h1, h2, h3, -⟩ := run_ends api _ es ok (ends_insert D K hy t ha (ord hi) (fun h => (hA h).2.2) hn hm)
    rw [hr] at h1; cases h1
    exact ⟨h3, h2.1, fun h => (h2.2 h).2⟩
  | erase _ hy hr ih =>
    rename_i s s' t y es r _
    obtain ⟨ok, ha, hi⟩ := ih
    obtain ⟨a, s'', h1, h2, h3, -⟩ := run_ends api _ es ok (ends_erase D K hy t ha (ord hi))
    rw [hr] at h1; cases h1
    exact ⟨h3, h2.1, fun h => (h2.2 h).2⟩

variable {p : Sets.HAsk C (Out L A V) L} {eq : V → V → Bool} {hash : V → Nat} {npos : Nat} {t : List (Sets.Node L)}

/-- The hypotheses of a hash table. -/
def Lawfully (api : VApi L A R B V N C) (p : Sets.HAsk C (Out L A V) L) (Q : V → V → Prop) (eq : V → V → Bool) (hash : V → Nat)
    (npos : Nat) : Prop :=
  HAnswers api.step p eq hash npos ∧ HashLaws eq hash ∧ Q = fun v w => eq v w = true

theorem table_inv (api : VApi L A R B V N C) (F : Framed api.step api.changes) (D : HDoes api.step api.vlegal p)
    (K : Makes api.step api.vlegal add p.remove al Q) (hA : srt → Lawfully api p Q eq hash npos) (hstart : ∀ s, start s → api.Ok s)
    (h : TableReach api.call api.abs api.vlegal api.changes p add start s t) :
    api.Ok s ∧ KeysAlive (api.abs s) (t.map (·.2)) ∧ (srt → IsTable eq hash npos (api.abs s) t) := by
  have ord : ∀ {s : St L A R B} {t : List (Sets.Node L)}, (srt → IsTable eq hash npos (api.abs s) t) → srt →
      Lawful api.step p eq hash npos (api.abs s) t := fun hi h => ⟨(hA h).1, (hA h).2.1, (hi h).codes, (hi h).distinct⟩
  have keep : ∀ {σ τ : Boxes L A V} {t : List (Sets.Node L)}, (∀ n ∈ t, τ n.2 = σ n.2) → KeysAlive σ (t.map (·.2)) →
      (srt → IsTable eq hash npos σ t) → KeysAlive τ (t.map (·.2)) ∧ (srt → IsTable eq hash npos τ t) := by
    intro σ τ t hk ha hi
    have hal : KeysAlive τ (t.map (·.2)) := alive_congr (fun k hk' => by obtain ⟨n, hn, rfl⟩ := List.mem_map.1 hk'; exact hk n hn) ha
    refine ⟨hal, fun h => ?_⟩
    obtain ⟨h1, h2⟩ := table_congr hk (hi h).codes (hi h).distinct
    exact ⟨hal.1, fun n hn => hal.2 _ (List.mem_map_of_mem hn), h1, h2⟩
  induction h with
  | new h => exact ⟨hstart _ h, ⟨.nil, nofun⟩, fun _ => ⟨.nil, nofun, nofun, .nil⟩⟩
  | ret _ hl hk hr ih =>
    obtain ⟨ok, ha, hi⟩ := ih
    obtain ⟨ok', h⟩ := call_keeps api F ok hl _ (.inl ⟨_, hr⟩)
    exact ⟨ok', keep (fun k h' => h _ (hk k h')) ha hi⟩
  | threw _ hl hk hr ih =>
    obtain ⟨ok, ha, hi⟩ := ih
    obtain ⟨ok', h⟩ := call_keeps api F ok hl _ (.inr ⟨_, hr⟩)
    exact ⟨ok', keep (fun k h' => h _ (hk k h')) ha hi⟩
  | find _ hy hr ih =>
    rename_i s s' t m b y es r _
    obtain ⟨ok, ha, hi⟩ := ih
    obtain ⟨a, s'', h1, h2, h3, -⟩ := run_ends api _ es ok
      (ends_hfind D hy t m b (fun n hn => ha.2 _ (List.mem_map_of_mem hn)) (ord hi))
    rw [hr] at h1; cases h1
    rw [h2.1]; exact ⟨h3, ha, hi⟩
  | insert _ hn hy hm hr ih =>
    rename_i s s' t m b n y how es r _
    obtain ⟨ok, ha, hi⟩ := ih
    obtain ⟨a, s'', h1, h2, h3, -⟩ := run_ends api _ es ok (ends_hinsert D K hy t m b ha (ord hi) (fun h => (hA h).2.2) hn hm)
    rw [hr] at h1; cases h1
    exact ⟨h3, h2.1, fun h => (h2.2 h).2⟩
  | erase _ hy hr ih =>
    rename_i s s' t m b y es r _
    obtain ⟨ok, ha, hi⟩ := ih
    obtain ⟨a, s'', h1, h2, h3, -⟩ := run_ends api _ es ok (ends_herase D K hy t m b ha (ord hi))
    rw [hr] at h1; cases h1
    exact ⟨h3, h2.1, fun h => (h2.2 h).2⟩

end
end Verif.Sets
