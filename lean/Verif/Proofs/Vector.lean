import Verif.Spec.Vector
import Verif.Proofs.CompositeLaws

/-! Vectors of indirects: what each operation does to vectors as lists. -/

set_option autoImplicit false
set_option linter.unusedSectionVars false
set_option linter.unusedSimpArgs false

namespace Verif.Vector
open Verif Spec Composite

section
variable {C S A R W X I J F : Type} [DecidableEq C]
variable {H : Holder (Cell C) S W I F} {mk : C → J → Env → M S Unit} {abs : S → Boxes (Cell C) A W} {Ok : S → Prop}
variable {ρ : Rules A W} {vs : C → Option Vec} {σ σ' : Boxes (Cell C) A W} {V : VState C A W}

/-! ### Cells -/

/-- Slots `i, i+1, …` of buffer `b` become `cs`. -/
def fill (σ : Boxes (Cell C) A W) (b i : Nat) (cs : List (Box A W)) : Boxes (Cell C) A W := fun l =>
  match l with
  | .elem b' j => if b' = b ∧ i ≤ j ∧ j < i + cs.length then cs[j - i]? else σ l
  | .var _ => σ l

/-- Slots `i, …, i+n-1` of buffer `b` become empty. -/
def wipe (σ : Boxes (Cell C) A W) (b i n : Nat) : Boxes (Cell C) A W := fun l =>
  match l with
  | .elem b' j => if b' = b ∧ i ≤ j ∧ j < i + n then none else σ l
  | .var _ => σ l

theorem fill_nil (σ : Boxes (Cell C) A W) (b i : Nat) : fill σ b i [] = σ := by
  funext l
  cases l with
  | elem b' j => simp only [fill, List.length_nil]; rw [if_neg (by omega)]
  | var y => rfl

theorem wipe_zero (σ : Boxes (Cell C) A W) (b i : Nat) : wipe σ b i 0 = σ := by
  funext l
  cases l with
  | elem b' j => simp only [wipe]; rw [if_neg (by omega)]
  | var y => rfl

theorem fill_snoc (σ : Boxes (Cell C) A W) (b i : Nat) (cs : List (Box A W)) (c : Box A W) :
    fill σ b i (cs ++ [c]) = put (fill σ b i cs) (.elem b (i + cs.length)) c := by
  funext l
  cases l with
  | var y => simp [fill, put]
  | elem b' j =>
    simp only [fill, put, List.length_append, List.length_singleton, Cell.elem.injEq]
    by_cases hb : b' = b
    · subst hb
      by_cases h1 : j = i + cs.length
      · subst h1; simp
      · by_cases h2 : i ≤ j ∧ j < i + cs.length
        · rw [if_pos ⟨rfl, by omega, by omega⟩, if_neg (by simp [h1]), if_pos ⟨rfl, h2⟩, List.getElem?_append_left (by omega)]
        · rw [if_neg (by omega), if_neg (by simp [h1]), if_neg (by simp; omega)]
    · simp [hb]

theorem wipe_succ (σ : Boxes (Cell C) A W) (b i n : Nat) :
    wipe σ b i (n + 1) = drop (wipe σ b i n) (.elem b (i + n)) := by
  funext l
  cases l with
  | var y => simp [wipe, drop]
  | elem b' j =>
    simp only [wipe, drop, Cell.elem.injEq]
    by_cases hb : b' = b
    · subst hb
      by_cases h1 : j = i + n
      · subst h1; simp
      · by_cases h2 : i ≤ j ∧ j < i + n
        · rw [if_pos ⟨rfl, by omega, by omega⟩, if_neg (by simp [h1]), if_pos ⟨rfl, h2⟩]
        · rw [if_neg (by omega), if_neg (by simp [h1]), if_neg (by simp; omega)]
    · simp [hb]

theorem fill_in {b i j : Nat} {cs : List (Box A W)} (h : j < cs.length) : fill σ b i cs (.elem b (i + j)) = cs[j]? := by
  simp only [fill]; rw [if_pos ⟨trivial, by omega, by omega⟩]; congr 1; omega

theorem fill_zero {b j : Nat} {cs : List (Box A W)} (h : j < cs.length) : fill σ b 0 cs (.elem b j) = cs[j]? := by
  simp only [fill]; rw [if_pos ⟨trivial, by omega, by omega⟩]; congr 1

theorem fill_out {b i b' j : Nat} {cs : List (Box A W)} (h : ¬ (b' = b ∧ i ≤ j ∧ j < i + cs.length)) :
    fill σ b i cs (.elem b' j) = σ (.elem b' j) := by
  simp only [fill]; rw [if_neg h]

theorem wipe_out {b i n b' j : Nat} (h : ¬ (b' = b ∧ i ≤ j ∧ j < i + n)) : wipe σ b i n (.elem b' j) = σ (.elem b' j) := by
  simp only [wipe]; rw [if_neg h]

theorem wipe_in {b i n j : Nat} (h1 : i ≤ j) (h2 : j < i + n) : wipe σ b i n (.elem b j) = none := by
  simp only [wipe]; rw [if_pos ⟨trivial, h1, h2⟩]

theorem fill_other {b i b' j : Nat} {cs : List (Box A W)} (h : b' ≠ b) : fill σ b i cs (.elem b' j) = σ (.elem b' j) :=
  fill_out (by simp [h])

theorem wipe_other {b i n b' j : Nat} (h : b' ≠ b) : wipe σ b i n (.elem b' j) = σ (.elem b' j) :=
  wipe_out (by simp [h])

theorem fill_var {b i : Nat} {cs : List (Box A W)} (y : C) : fill σ b i cs (.var y) = σ (.var y) := rfl
theorem wipe_var {b i n : Nat} (y : C) : wipe σ b i n (.var y) = σ (.var y) := rfl

/-- Wiping what was filled. -/
theorem wipe_fill {b i : Nat} {cs : List (Box A W)} (h : ∀ j, j < cs.length → σ (.elem b (i + j)) = none) :
    wipe (fill σ b i cs) b i cs.length = σ := by
  funext l
  cases l with
  | var y => rfl
  | elem b' j =>
    by_cases hj : b' = b ∧ i ≤ j ∧ j < i + cs.length
    · obtain ⟨rfl, h1, h2⟩ := hj
      rw [wipe_in h1 h2, ← h (j - i) (by omega)]
      congr 2; omega
    · rw [wipe_out hj, fill_out hj]

/-! ### Loops -/

theorem destroy_range (B : Follows ρ abs Ok H) (b i : Nat) (es : Nat → Env) (n : Nat) {s : S} (hs : Ok s)
    (hl : ∀ j, j < n → ∃ c, abs s (.elem b (i + j)) = some c) :
    Ends (each (fun j => H.destroy (.elem b (i + j)) (es j)) n s)
      (fun s' => Ok s' ∧ abs s' = wipe (abs s) b i n) (fun _ => False) False := by
  refine each_ends (P := fun k s' => Ok s' ∧ abs s' = wipe (abs s) b i k) ⟨hs, (wipe_zero _ _ _).symm⟩ ?_
  rintro k t hk ⟨ht, ha⟩
  obtain ⟨c, hc⟩ := hl k hk
  refine (B.destroy (b := c) (es k) ht ?_).mono ?_ (fun _ h => h) (fun h => h)
  · rw [ha, wipe_out (by omega), hc]
  · rintro t' ⟨ht', ha'⟩
    exact ⟨ht', by rw [ha', ha, wipe_succ]⟩

theorem clear_ends (B : Follows ρ abs Ok H) (b : Nat) (es : Nat → Env) (n : Nat) {s : S} (hs : Ok s)
    (hl : ∀ j, j < n → ∃ c, abs s (.elem b j) = some c) :
    Ends (clear H b es n s) (fun s' => Ok s' ∧ abs s' = wipe (abs s) b 0 n) (fun _ => False) False := by
  have := destroy_range B b 0 es n hs (by simpa using hl)
  simpa [clear] using this

/-- `cs` are copies of the slots `i, i+1, …` of buffer `a`. -/
def CopiesOf (ρ : Rules A W) (σ : Boxes (Cell C) A W) (a i : Nat) (cs : List (Box A W)) : Prop :=
  ∀ j c c', σ (.elem a (i + j)) = some c → cs[j]? = some c' → ρ.Copy c c'

theorem copyRange_ends (B : Follows ρ abs Ok H) {a b i : Nat} (hab : a ≠ b) (es es' : Nat → Env) (n : Nat) {s : S}
    (hs : Ok s) (hsrc : ∀ j, j < n → ∃ c, abs s (.elem a (i + j)) = some c)
    (hdst : ∀ j, j < n → abs s (.elem b (i + j)) = none) :
    Ends (copyRange H a b i es es' n s)
      (fun s' => Ok s' ∧ ∃ cs, cs.length = n ∧ CopiesOf ρ (abs s) a i cs ∧ abs s' = fill (abs s) b i cs)
      (fun s' => Ok s' ∧ abs s' = abs s) False := by
  refine build_ends (P := fun k s' => Ok s' ∧ ∃ cs, cs.length = k ∧ CopiesOf ρ (abs s) a i cs ∧
    abs s' = fill (abs s) b i cs) (PE := fun k s' => Ok s' ∧ ∃ cs : List (Box A W), cs.length = k ∧
    abs s' = fill (abs s) b i cs) ⟨hs, [], rfl, by simp [CopiesOf], (fill_nil _ _ _).symm⟩ ?_ ?_
  · rintro k t hk ⟨ht, cs, hn, hc, ha⟩
    obtain ⟨c, hcs⟩ := hsrc k hk
    refine (B.copy (b := c) (es k) ht ?_ ?_).mono ?_ ?_ (fun h => h)
    · rw [ha, fill_out (by omega), hdst k hk]
    · rw [ha, fill_other hab, hcs]
    · rintro t' ⟨ht', c', hcp, ha'⟩
      refine ⟨ht', cs ++ [c'], by simp [hn], ?_, by rw [ha', ha, fill_snoc, hn]⟩
      intro j d d' hd hd'
      by_cases hj : j < cs.length
      · rw [List.getElem?_append_left hj] at hd'; exact hc j d d' hd hd'
      · have : j = k := by
          have := (List.getElem?_eq_some_iff.1 hd').1
          simp at this; omega
        subst this
        rw [hcs] at hd; cases hd
        rw [← hn] at hd'; simp at hd'; subst hd'; exact hcp
    · rintro t' ⟨ht', ha'⟩
      exact ⟨ht', cs, hn, by rw [ha', ha]⟩
  · rintro k t hk ⟨ht, cs, hn, ha⟩
    refine (destroy_range B b i es' k ht ?_).mono ?_ (fun _ h => h) (fun h => h)
    · intro j hj
      rw [ha, fill_in (by omega)]
      exact ⟨_, List.getElem?_eq_getElem (by omega)⟩
    · rintro t' ⟨ht', ha'⟩
      refine ⟨ht', ?_⟩
      rw [ha', ha, ← hn, wipe_fill]
      intro j hj; exact hdst j (by omega)

/-- `cs` result from relocating the first slots of buffer `a`. -/
def RelocatedFrom (ρ : Rules A W) (H : Holder (Cell C) S W I F) (σ : Boxes (Cell C) A W) (a : Nat)
    (cs : List (Box A W)) : Prop :=
  ∀ j c c', σ (.elem a j) = some c → cs[j]? = some c' → if H.nothrowMove then ∃ r, ρ.Move c c' r else ρ.Copy c c'

/-- Elements relocated to a new buffer, which may already have an element behind them. -/
theorem relocate_ends (B : Follows ρ abs Ok H) {a b : Nat} (hab : a ≠ b) (es es' : Nat → Env) (n : Nat) {s : S}
    (hs : Ok s) (hsrc : ∀ j, j < n → ∃ c, abs s (.elem a j) = some c) (hdst : ∀ j, j < n → abs s (.elem b j) = none) :
    Ends (relocate H a b es es' n s)
      (fun s' => Ok s' ∧ ∃ cs, cs.length = n ∧ RelocatedFrom ρ H (abs s) a cs ∧
        ∃ rs : List (Box A W), rs.length = n ∧ abs s' = fill (fill (abs s) b 0 cs) a 0 rs)
      (fun s' => Ok s' ∧ H.nothrowMove = false ∧ abs s' = abs s) False := by
  unfold relocate
  cases hm : H.nothrowMove with
  | true =>
    simp only [if_true]
    refine each_ends (P := fun k s' => Ok s' ∧ ∃ cs, cs.length = k ∧ RelocatedFrom ρ H (abs s) a cs ∧
      ∃ rs : List (Box A W), rs.length = k ∧ abs s' = fill (fill (abs s) b 0 cs) a 0 rs)
      ⟨hs, [], rfl, by simp [RelocatedFrom], [], rfl, by rw [fill_nil, fill_nil]⟩ ?_
    rintro k t hk ⟨ht, cs, hn, hc, rs, hr, ha⟩
    obtain ⟨c, hcs⟩ := hsrc k hk
    refine (B.move (b := c) (es k) ht ?_ ?_).mono ?_ ?_ (fun h => h)
    · rw [ha, fill_other (Ne.symm hab), fill_out (by omega), hdst k hk]
    · rw [ha, fill_out (by omega), fill_other hab, hcs]
    · rintro t' ⟨ht', c', r, hcp, ha'⟩
      refine ⟨ht', cs ++ [c'], by simp [hn], ?_, rs ++ [r], by simp [hr], ?_⟩
      · intro j d d' hd hd'
        by_cases hj : j < cs.length
        · rw [List.getElem?_append_left hj] at hd'; exact hc j d d' hd hd'
        · have : j = k := by
            have := (List.getElem?_eq_some_iff.1 hd').1
            simp at this; omega
          subst this
          rw [hcs] at hd; cases hd
          rw [← hn] at hd'; simp at hd'; subst hd'; simp only [hm, if_true]; exact ⟨r, hcp⟩
      · rw [ha', ha, fill_snoc, fill_snoc]
        funext l
        simp only [put, hn, hr, Nat.zero_add]
        cases l with
        | var y => simp [fill, put]
        | elem b' j =>
          simp only [fill, Cell.elem.injEq, put, hn, hr, Nat.zero_le, true_and, Nat.zero_add, Nat.sub_zero]
          by_cases hb : b' = b
          · subst hb
            simp [Ne.symm hab]
          · by_cases hba : b' = a
            · subst hba; simp [hb]
            · simp [hb, hba]
    · rintro t' ⟨ht', hno, -⟩
      rw [hm] at hno; cases hno
  | false =>
    simp only [Bool.false_eq_true, if_false]
    refine (copyRange_ends B hab es es' n hs (by simpa using hsrc) (by simpa using hdst)).mono ?_ ?_ (fun h => h)
    · rintro s' ⟨hs', cs, hn, hc, ha⟩
      refine ⟨hs', cs, hn, ?_, (List.range n).filterMap (fun j => abs s (.elem a j)), ?_, ?_⟩
      · intro j c c' h1 h2
        simp only [hm, Bool.false_eq_true, if_false]
        exact hc j c c' (by simpa using h1) h2
      all_goals
        have hL : ∀ n, (∀ j, j < n → ∃ c, abs s (.elem a j) = some c) →
            ((List.range n).filterMap (fun j => abs s (.elem a j))).length = n ∧
            ∀ j, j < n → ((List.range n).filterMap (fun j => abs s (.elem a j)))[j]? = abs s (.elem a j) := by
          intro n
          induction n with
          | zero => simp
          | succ n ih =>
            intro h
            obtain ⟨i1, i2⟩ := ih fun j hj => h j (by omega)
            obtain ⟨c, hc⟩ := h n (by omega)
            rw [List.range_succ, List.filterMap_append]
            simp only [List.filterMap_cons, hc, List.filterMap_nil]
            refine ⟨by simp [i1], fun j hj => ?_⟩
            by_cases e : j = n
            · subst e; rw [List.getElem?_append_right (by omega)]; simp [i1, hc]
            · rw [List.getElem?_append_left (by omega)]; exact i2 j (by omega)
        obtain ⟨h1, h2⟩ := hL n hsrc
        first
        | exact h1
        | rw [ha]
          funext l
          cases l with
          | var y => rfl
          | elem b' j =>
            by_cases e : b' = a ∧ j < n
            · obtain ⟨rfl, hj⟩ := e
              rw [fill_zero (by omega), h2 j hj, fill_other hab]
            · rw [fill_out (σ := fill (abs s) b 0 cs) (by rw [h1]; omega)]
    · rintro s' ⟨hs', ha⟩
      exact ⟨hs', trivial, ha⟩

/-! ### Vectors of a state -/

/-- The cells and vectors of the machine are those of `V`. -/
structure Rep (σ : Boxes (Cell C) A W) (vs : C → Option Vec) (V : VState C A W) : Prop where
  list : ∀ x v, vs x = some v → ∃ bs, V.lists x = some bs ∧ v.size = bs.length ∧ v.size ≤ v.cap ∧
    ∀ i, σ (.elem v.buf i) = bs[i]?
  gone : ∀ x, vs x = none → V.lists x = none
  inj : ∀ x y v w, vs x = some v → vs y = some w → v.buf = w.buf → x = y
  used : ∀ b, (∀ x v, vs x = some v → v.buf ≠ b) → ∀ i, σ (.elem b i) = none
  vars : ∀ y, σ (.var y) = V.vars y

theorem range_get {bs : List (Box A W)} {n : Nat} {f : Nat → Option (Box A W)} (hn : n = bs.length)
    (h : ∀ i, f i = bs[i]?) : (List.range n).filterMap f = bs := by
  subst hn
  have : f = fun i => bs[i]? := funext h
  subst this
  clear h
  suffices h : ∀ m, m ≤ bs.length → (List.range m).filterMap (fun i => bs[i]?) = bs.take m by
    rw [h _ (Nat.le_refl _), List.take_length]
  intro m
  induction m with
  | zero => simp
  | succ m ih =>
    intro hm
    rw [List.range_succ, List.filterMap_append, ih (by omega), List.take_add_one]
    simp [List.getElem?_eq_getElem (show m < bs.length by omega)]

theorem Rep.eq {s : VecS C S} (h : Rep (abs s.1) s.2 V) : vstate abs s = V := by
  obtain ⟨l, v⟩ := V
  simp only [vstate, VState.mk.injEq]
  refine ⟨funext fun x => ?_, funext fun y => h.vars y⟩
  cases hx : s.2 x with
  | none => simp [show l x = none from h.gone x hx]
  | some v =>
    obtain ⟨bs, h1, h2, -, h3⟩ := h.list x v hx
    rw [show l x = some bs from h1]
    simp only [Option.map_some, Option.some.injEq]
    exact range_get h2 h3

theorem Rep.of_list {x : C} {bs : List (Box A W)} (h : Rep σ vs V) (hx : V.lists x = some bs) :
    ∃ v, vs x = some v ∧ v.size = bs.length ∧ v.size ≤ v.cap ∧ ∀ i, σ (.elem v.buf i) = bs[i]? := by
  cases hv : vs x with
  | none => rw [h.gone x hv] at hx; cases hx
  | some v =>
    obtain ⟨bs', h1, h2⟩ := h.list x v hv
    rw [hx] at h1; cases h1
    exact ⟨v, rfl, h2⟩

theorem Rep.of_none {x : C} (h : Rep σ vs V) (hx : V.lists x = none) : vs x = none := by
  cases hv : vs x with
  | none => rfl
  | some v =>
    obtain ⟨bs', h1, h2⟩ := h.list x v hv
    rw [hx] at h1; cases h1

/-- Vector `x` gets a new value, in its old buffer or in one that no other vector has. -/
theorem Rep.replace (R : Rep σ vs V) {x : C} {v' : Vec} {bs' : List (Box A W)}
    (hfresh : ∀ z w, z ≠ x → vs z = some w → w.buf ≠ v'.buf) (hsz : v'.size = bs'.length) (hcap : v'.size ≤ v'.cap)
    (hnew : ∀ i, σ' (.elem v'.buf i) = bs'[i]?)
    (hold : ∀ v, vs x = some v → v.buf ≠ v'.buf → ∀ i, σ' (.elem v.buf i) = none)
    (hsame : ∀ b i, b ≠ v'.buf → (∀ v, vs x = some v → v.buf ≠ b) → σ' (.elem b i) = σ (.elem b i))
    (hvar : ∀ y, σ' (.var y) = σ (.var y)) :
    Rep σ' (upd vs x (some v')) (V.setList x (some bs')) where
  list := by
    intro z w hz
    by_cases e : z = x
    · subst e
      rw [upd_same] at hz; cases hz
      exact ⟨bs', by simp [VState.setList], hsz, hcap, hnew⟩
    · rw [upd_other _ _ e] at hz
      obtain ⟨bs, h1, h2, h3, h4⟩ := R.list z w hz
      refine ⟨bs, by simp [VState.setList, e, h1], h2, h3, fun i => ?_⟩
      rw [hsame _ _ (hfresh z w e hz), h4]
      intro v hv hb
      exact e (R.inj _ _ _ _ hv hz hb).symm
  gone := by
    intro z hz
    by_cases e : z = x
    · subst e; rw [upd_same] at hz; cases hz
    · rw [upd_other _ _ e] at hz
      simp [VState.setList, e, R.gone z hz]
  inj := by
    intro y z v w hy hz hb
    by_cases ey : y = x
    · by_cases ez : z = x
      · rw [ey, ez]
      · subst ey
        rw [upd_same] at hy; rw [upd_other _ _ ez] at hz; cases hy
        exact absurd hb.symm (hfresh z w ez hz)
    · by_cases ez : z = x
      · subst ez
        rw [upd_same] at hz; rw [upd_other _ _ ey] at hy; cases hz
        exact absurd hb (hfresh y v ey hy)
      · rw [upd_other _ _ ey] at hy; rw [upd_other _ _ ez] at hz
        exact R.inj _ _ _ _ hy hz hb
  used := by
    intro b hb i
    have hb' : v'.buf ≠ b := hb x v' (by simp)
    by_cases e : ∃ v, vs x = some v ∧ v.buf = b
    · obtain ⟨v, hv, rfl⟩ := e
      exact hold v hv (Ne.symm hb') i
    · rw [hsame b i (Ne.symm hb') fun v hv hvb => e ⟨v, hv, hvb⟩]
      refine R.used b (fun z w hz => ?_) i
      by_cases e' : z = x
      · subst e'; exact fun h => e ⟨w, hz, h⟩
      · exact hb z w (by rw [upd_other _ _ e']; exact hz)
  vars := fun y => by rw [hvar, R.vars]; rfl

/-- Vector `x` ends. -/
theorem Rep.remove (R : Rep σ vs V) {x : C} {v : Vec} (hx : vs x = some v) (hgone : ∀ i, σ' (.elem v.buf i) = none)
    (hsame : ∀ b i, b ≠ v.buf → σ' (.elem b i) = σ (.elem b i)) (hvar : ∀ y, σ' (.var y) = σ (.var y)) :
    Rep σ' (upd vs x none) (V.setList x none) where
  list := by
    intro z w hz
    by_cases e : z = x
    · subst e; rw [upd_same] at hz; cases hz
    · rw [upd_other _ _ e] at hz
      obtain ⟨bs, h1, h2, h3, h4⟩ := R.list z w hz
      refine ⟨bs, by simp [VState.setList, e, h1], h2, h3, fun i => ?_⟩
      rw [hsame _ _ (fun hb => e (R.inj _ _ _ _ hz hx hb)), h4]
  gone := by
    intro z hz
    by_cases e : z = x
    · subst e; simp [VState.setList]
    · rw [upd_other _ _ e] at hz
      simp [VState.setList, e, R.gone z hz]
  inj := by
    intro y z a w hy hz hb
    by_cases ey : y = x
    · subst ey; rw [upd_same] at hy; cases hy
    · by_cases ez : z = x
      · subst ez; rw [upd_same] at hz; cases hz
      · rw [upd_other _ _ ey] at hy; rw [upd_other _ _ ez] at hz
        exact R.inj _ _ _ _ hy hz hb
  used := by
    intro b hb i
    by_cases e : b = v.buf
    · subst e; exact hgone i
    · rw [hsame b i e]
      refine R.used b (fun z w hz => ?_) i
      by_cases e' : z = x
      · subst e'; rw [hx] at hz; cases hz; exact Ne.symm e
      · exact hb z w (by rw [upd_other _ _ e']; exact hz)
  vars := fun y => by rw [hvar, R.vars]; rfl

/-- Vectors exchange their buffers. -/
theorem Rep.swap (R : Rep σ vs V) (x y : C) :
    Rep σ (upd (upd vs x (vs y)) y (vs x)) ((V.setList x (V.lists y)).setList y (V.lists x)) := by
  let π : C → C := fun z => if z = y then x else if z = x then y else z
  have hv : ∀ z, upd (upd vs x (vs y)) y (vs x) z = vs (π z) := by
    intro z; simp only [upd, π]; (repeat' split) <;> rfl
  have hl : ∀ z, ((V.setList x (V.lists y)).setList y (V.lists x)).lists z = V.lists (π z) := by
    intro z; simp only [VState.setList, π]; (repeat' split) <;> rfl
  have hπ : ∀ z, π (π z) = z := by
    intro z; simp only [π]
    by_cases h1 : z = y
    · subst h1; by_cases h2 : x = z <;> simp [h2]
    · by_cases h2 : z = x
      · subst h2; simp [h1]
      · simp [h1, h2]
  have hi : ∀ a b, π a = π b → a = b := fun a b h => by rw [← hπ a, h, hπ b]
  exact {
    list := fun z v hz => by
      rw [hv] at hz; obtain ⟨bs, h1, h2⟩ := R.list _ v hz
      exact ⟨bs, by rw [hl, h1], h2⟩
    gone := fun z hz => by rw [hv] at hz; rw [hl, R.gone _ hz]
    inj := fun a b v w ha hb h => by rw [hv] at ha hb; exact hi _ _ (R.inj _ _ _ _ ha hb h)
    used := fun b hb => R.used b fun z w hz => hb (π z) w (by rw [hv, hπ]; exact hz)
    vars := R.vars }

/-- The object that an expression refers to. -/
theorem Rep.cell (R : Rep σ vs V) {r : Ref C} {b : Box A W} (h : V.get r = some b) :
    ∃ l, cell vs r = some l ∧ σ l = some b := by
  cases r with
  | var y => exact ⟨_, rfl, by rw [R.vars]; exact h⟩
  | «at» x i =>
    simp only [VState.get, Option.bind_eq_some_iff] at h
    obtain ⟨bs, h1, h2⟩ := h
    obtain ⟨v, hv, -, -, hb⟩ := R.of_list h1
    exact ⟨.elem v.buf i, by simp [Vector.cell, hv], by rw [hb, h2]⟩

/-- What an expression refers to changes. -/
theorem Rep.put (R : Rep σ vs V) {r : Ref C} {l : Cell C} {b₀ : Box A W} (h : V.get r = some b₀)
    (hl : Vector.cell vs r = some l) (b : Box A W) : Rep (Spec.put σ l b) vs (V.set r b) := by
  cases r with
  | var y =>
    cases hl
    exact {
      list := fun x v hv => by
        obtain ⟨bs, h1, h2, h3, h4⟩ := R.list x v hv
        exact ⟨bs, h1, h2, h3, fun i => by simp [Spec.put, h4]⟩
      gone := R.gone
      inj := R.inj
      used := fun c hc i => by simp [Spec.put, R.used c hc i]
      vars := fun z => by
        simp only [Spec.put, VState.set, VState.setVar, Cell.var.injEq]
        split
        · rfl
        · exact R.vars z }
  | «at» x i =>
    simp only [VState.get, Option.bind_eq_some_iff] at h
    obtain ⟨bs, h1, h2⟩ := h
    obtain ⟨v, hv, hn, hc, hb⟩ := R.of_list h1
    simp only [Vector.cell, hv, Option.map_some, Option.some.injEq] at hl
    subst hl
    have hi : i < bs.length := (List.getElem?_eq_some_iff.1 h2).1
    have := R.replace (x := x) (v' := v) (bs' := bs.set i b) (σ' := Spec.put σ (.elem v.buf i) b)
      (fun z w hz hw hbuf => hz (R.inj _ _ _ _ hw hv hbuf)) (by simp [hn]) hc
      (fun j => by
        simp only [Spec.put, Cell.elem.injEq, true_and, List.getElem?_set, hb]
        by_cases e : j = i
        · subst e; simp [hi]
        · simp [e, Ne.symm e])
      (fun w hw hne => by rw [hv] at hw; cases hw; exact absurd rfl hne)
      (fun c j hcb _ => by simp [Spec.put, hcb]) (fun y => by simp [Spec.put])
    rw [show upd vs x (some v) = vs by
      funext z; by_cases e : z = x
      · subst e; simp [hv]
      · rw [upd_other _ _ e]] at this
    simpa [VState.set, h1] using this

/-- A variable begins or ends to live. -/
theorem Rep.var (R : Rep σ vs V) (y : C) (b : Option (Box A W)) (hσ : ∀ l, σ' l = if l = .var y then b else σ l) :
    Rep σ' vs (V.setVar y b) where
  list := fun x v hv => by
    obtain ⟨bs, h1, h2, h3, h4⟩ := R.list x v hv
    exact ⟨bs, h1, h2, h3, fun i => by simp [hσ, h4]⟩
  gone := R.gone
  inj := R.inj
  used := fun c hc i => by simp [hσ, R.used c hc i]
  vars := fun z => by
    simp only [hσ, VState.setVar, Cell.var.injEq]
    split
    · rfl
    · exact R.vars z

/-- Invariant of programs with vectors. -/
structure Inv (abs : S → Boxes (Cell C) A W) (Ok : S → Prop) (s : VecS C S) : Prop where
  ok : Ok s.1
  rep : Rep (abs s.1) s.2 (vstate abs s)

theorem inv_of {s : VecS C S} (h : Ok s.1) (R : Rep (abs s.1) s.2 V) : Inv abs Ok s ∧ vstate abs s = V :=
  ⟨⟨h, by rw [R.eq]; exact R⟩, R.eq⟩

/-! ### Operations -/

theorem call_of {o : VecOp C I J F} {B : Buf} {es : Nat → Nat → Env} {s : VecS C S} {Q E : S → Prop} {D : Prop}
    (h : Ends (body H mk s.2 B es o s.1) Q E D) :
    Ends (call H mk o B es s) (fun s' => s'.2 = after s.2 B o ∧ Q s'.1) (fun s' => s'.2 = s.2 ∧ E s'.1) D := by
  unfold call
  cases hb : body H mk s.2 B es o s.1 with
  | ok u t => rw [hb] at h; exact ⟨rfl, h⟩
  | threw e t => rw [hb] at h; exact ⟨rfl, h⟩
  | terminated => rw [hb] at h; exact h
  | ub u => rw [hb] at h; exact h
  | diverged => rw [hb] at h; exact h

/-- The argument exists. -/
def ArgOk (V : VState C A W) : Arg C I → Prop
  | .make _ => True
  | .copy r => ∃ b, V.get r = some b
  | .move r => ∃ b, V.get r = some b

/-- An element constructed in an empty slot. -/
theorem construct_ends (B : Follows ρ abs Ok H) {s : S} (hs : Ok s) (R : Rep (abs s) vs V) {l : Cell C}
    (hl : abs s l = none) {a : Arg C I} (ha : ArgOk V a) (e : Env) :
    Ends (construct H vs l a e s)
      (fun t => Ok t ∧ ∃ σ₁ b V₁, ArgMade ρ V b V₁ a ∧ Rep σ₁ vs V₁ ∧ σ₁ l = none ∧ abs t = put σ₁ l b)
      (fun t => Ok t ∧ ∃ V₁, ArgThrew ρ V V₁ a ∧ Rep (abs t) vs V₁) False := by
  cases a with
  | make i =>
    refine (B.make i e hs hl).mono ?_ ?_ (fun h => h)
    · rintro t ⟨ht, b, hb, hσ⟩; exact ⟨ht, abs s, b, V, ⟨hb, rfl⟩, R, hl, hσ⟩
    · rintro t ⟨ht, hσ⟩; exact ⟨ht, V, rfl, hσ ▸ R⟩
  | copy r =>
    obtain ⟨c, hc⟩ := ha
    obtain ⟨q, hq, hqc⟩ := R.cell hc
    simp only [construct, hq]
    refine (B.copy e hs hl hqc).mono ?_ ?_ (fun h => h)
    · rintro t ⟨ht, b, hb, hσ⟩; exact ⟨ht, abs s, b, V, ⟨c, hc, hb, rfl⟩, R, hl, hσ⟩
    · rintro t ⟨ht, hσ⟩; exact ⟨ht, V, rfl, hσ ▸ R⟩
  | move r =>
    obtain ⟨c, hc⟩ := ha
    obtain ⟨q, hq, hqc⟩ := R.cell hc
    simp only [construct, hq]
    refine (B.move e hs hl hqc).mono ?_ ?_ (fun h => h)
    · rintro t ⟨ht, b, m, hm, hσ⟩
      refine ⟨ht, put (abs s) q m, b, V.set r m, ⟨c, m, hc, hm, rfl⟩, R.put hc hq m, ?_, hσ⟩
      have : l ≠ q := by rintro rfl; rw [hl] at hqc; cases hqc
      simp [put, this, hl]
    · rintro t ⟨ht, -, m, hm, hσ⟩
      exact ⟨ht, V.set r m, .inr ⟨c, m, hc, hm, rfl⟩, hσ ▸ R.put hc hq m⟩

theorem argThrew_self (ρ : Rules A W) (V : VState C A W) (a : Arg C I) : ArgThrew ρ V V a := by
  cases a with
  | move r => exact .inl rfl
  | _ => rfl

/-- The number of elements does not change if an expression is assigned. -/
theorem argMade_list {x : C} {a : Arg C I} {b : Box A W} {V₁ : VState C A W} {bs : List (Box A W)}
    (h : ArgMade ρ V b V₁ a) (hx : V.lists x = some bs) : ∃ bs₁, V₁.lists x = some bs₁ ∧ bs₁.length = bs.length := by
  cases a with
  | make i => obtain ⟨-, rfl⟩ := h; exact ⟨bs, hx, rfl⟩
  | copy r => obtain ⟨_, _, _, rfl⟩ := h; exact ⟨bs, hx, rfl⟩
  | move r =>
    obtain ⟨_, q, _, _, rfl⟩ := h
    cases r with
    | var y => exact ⟨bs, hx, rfl⟩
    | «at» z i =>
      simp only [VState.set, VState.setList]
      by_cases e : x = z
      · subst e; exact ⟨bs.set i q, by simp [hx], by simp⟩
      · exact ⟨bs, by simp [e, hx], rfl⟩

theorem relocated_of {n : Nat} {a : Nat} {bs cs : List (Box A W)} (hb : ∀ i, i < n → σ (.elem a i) = bs[i]?)
    (hn : bs.length = n) (hc : cs.length = n) (h : RelocatedFrom ρ H σ a cs) : Relocated ρ H bs cs := by
  unfold Relocated
  cases hm : H.nothrowMove <;> simp only [if_true, if_false, Bool.false_eq_true] <;>
    refine ⟨by omega, fun i c c' h1 h2 => ?_⟩ <;>
    have := h i c c' (by rw [hb i (by rw [← hc]; exact (List.getElem?_eq_some_iff.1 h2).1)]; exact h1) h2 <;>
    simpa [hm] using this

/-- Elements relocated to a new buffer, and the old ones destroyed. -/
theorem relocate_clear (B : Follows ρ abs Ok H) {a b n : Nat} (hab : a ≠ b) (es₁ es₂ es₃ : Nat → Env) {s : S}
    (hs : Ok s) {bs : List (Box A W)} (hn : bs.length = n) (hsrc : ∀ j, j < n → abs s (.elem a j) = bs[j]?)
    (hdst : ∀ j, j < n → abs s (.elem b j) = none) :
    Ends (relocate H a b es₁ es₂ n s)
      (fun s' => Ok s' ∧ Ends (clear H a es₃ n s') (fun t => Ok t ∧ ∃ cs, cs.length = n ∧ Relocated ρ H bs cs ∧
        abs t = wipe (fill (abs s) b 0 cs) a 0 n) (fun _ => False) False)
      (fun s' => Ok s' ∧ H.nothrowMove = false ∧ abs s' = abs s) False := by
  have hsrc' : ∀ j, j < n → ∃ c, abs s (.elem a j) = some c := fun j hj =>
    ⟨_, by rw [hsrc j hj]; exact List.getElem?_eq_getElem (by omega)⟩
  refine (relocate_ends B hab es₁ es₂ n hs hsrc' hdst).mono ?_ (fun _ h => h) (fun h => h)
  rintro s' ⟨hs', cs, hc, hr, rs, hrs, hσ⟩
  refine ⟨hs', (clear_ends B a es₃ n hs' ?_).mono ?_ (fun _ h => h) (fun h => h)⟩
  · intro j hj
    rw [hσ, fill_zero (by omega)]
    exact ⟨_, List.getElem?_eq_getElem (by omega)⟩
  · rintro t ⟨ht, hσt⟩
    refine ⟨ht, cs, hc, relocated_of hsrc hn hc hr, ?_⟩
    rw [hσt, hσ]
    funext l
    cases l with
    | var y => rfl
    | elem b' j =>
      by_cases e : b' = a ∧ 0 ≤ j ∧ j < 0 + n
      · simp only [wipe, if_pos e]
      · rw [wipe_out e, wipe_out e, fill_out (by rw [hrs]; exact e)]

theorem push_ends (B : Follows ρ abs Ok H) {s : S} (hs : Ok s) (R : Rep (abs s) vs V) {x : C} {v : Vec}
    (hx : vs x = some v) {a : Arg C I} (ha : ArgOk V a) (N : Buf) (hN : ∀ z w, vs z = some w → w.buf ≠ N.buf)
    (es : Nat → Nat → Env) :
    Ends (push H vs v a N es s)
      (fun t => Ok t ∧ ∃ b V₁ bs₁ bs', ArgMade ρ V b V₁ a ∧ V₁.lists x = some bs₁ ∧
        (if v.size < v.cap then bs' = bs₁ else Relocated ρ H bs₁ bs') ∧
        Rep (abs t) (upd vs x (some (v.push N))) (V₁.setList x (some (bs' ++ [b]))))
      (fun t => Ok t ∧ ∃ V₁, (ArgThrew ρ V V₁ a ∨
        (v.cap ≤ v.size ∧ H.nothrowMove = false ∧ ∃ b, ArgMade ρ V b V₁ a)) ∧ Rep (abs t) vs V₁) False := by
  obtain ⟨bs, hbs, hsz, hcap, hcell⟩ := R.list x v hx
  unfold push
  by_cases hroom : v.size < v.cap
  · rw [if_pos hroom]
    refine (construct_ends B hs R (l := .elem v.buf v.size) ?_ ha (es 0 0)).mono ?_ ?_ (fun h => h)
    · rw [hcell]; simp [hsz]
    · rintro t ⟨ht, σ₁, b, V₁, hm, R₁, hl, hσ⟩
      obtain ⟨bs₁, hbs₁, hlen⟩ := argMade_list hm hbs
      obtain ⟨v₁, hv₁, -, -, hc₁⟩ := R₁.of_list hbs₁
      rw [hx] at hv₁; cases hv₁
      refine ⟨ht, b, V₁, bs₁, bs₁, hm, hbs₁, by simp [hroom], ?_⟩
      rw [hσ]
      have e : v.push N = { v with size := v.size + 1 } := by simp [Vec.push, hroom]
      rw [e]
      refine R₁.replace (fun z w hz hw hb => hz (R₁.inj _ _ _ _ hw hx hb)) (by simp [hlen, hsz]) (by simp only; omega)
        (fun i => ?_) (fun w hw hne => by rw [hx] at hw; cases hw; exact absurd rfl hne)
        (fun c i hc _ => by simp only [Spec.put]; rw [if_neg (by simp; intro h; exact absurd h hc)]) (fun y => by simp [Spec.put])
      simp only [Spec.put, Cell.elem.injEq, true_and, hc₁]
      by_cases h : i = v.size
      · subst h; simp [hsz, ← hlen]
      · rw [if_neg h]
        by_cases h' : i < bs₁.length
        · rw [List.getElem?_append_left h']
        · rw [List.getElem?_eq_none (by omega), List.getElem?_eq_none (by simp; omega)]
    · rintro t ⟨ht, V₁, h, R₁⟩; exact ⟨ht, V₁, .inl h, R₁⟩
  · rw [if_neg hroom]
    by_cases hf : N.fails = true
    · rw [if_pos hf]
      exact ⟨hs, V, .inl (argThrew_self ρ V a), R⟩
    · rw [if_neg hf]
      have hnew : ∀ i, abs s (.elem N.buf i) = none := R.used N.buf hN
      refine Ends.bind (P := fun t => Ok t ∧ ∃ σ₁ b V₁, ArgMade ρ V b V₁ a ∧ Rep σ₁ vs V₁ ∧
        abs t = put σ₁ (.elem N.buf v.size) b)
        ((construct_ends B hs R (l := .elem N.buf v.size) (hnew _) ha (es 0 0)).mono ?_ ?_ (fun h => h)) ?_
      · rintro t ⟨ht, σ₁, b, V₁, hm, R₁, hl, hσ⟩; exact ⟨ht, σ₁, b, V₁, hm, R₁, hσ⟩
      · rintro t ⟨ht, V₁, h, R₁⟩; exact ⟨ht, V₁, .inl h, R₁⟩
      rintro t ⟨ht, σ₁, b, V₁, hm, R₁, hσ⟩
      obtain ⟨bs₁, hbs₁, hlen⟩ := argMade_list hm hbs
      obtain ⟨v₁, hv₁, -, -, hc₁⟩ := R₁.of_list hbs₁
      rw [hx] at hv₁; cases hv₁
      have hne : v.buf ≠ N.buf := hN x v hx
      have hnew₁ : ∀ i, σ₁ (.elem N.buf i) = none := R₁.used N.buf hN
      have hrel := relocate_clear B hne (es 1) (es 2) (es 3) ht (bs := bs₁) (n := v.size) (by omega)
        (fun j hj => by rw [hσ, ← hc₁]; simp [Spec.put, hne])
        (fun j hj => by rw [hσ]; simp only [Spec.put]; rw [if_neg (by simp; omega), hnew₁])
      refine Ends.bind (P := fun t' => Ends (clear H v.buf (es 3) v.size t') _ (fun _ => False) False)
        (Ends.onThrow (P := fun t' => Ok t' ∧ H.nothrowMove = false ∧ abs t' = abs t)
          (hrel.mono (fun _ h => h.2) (fun _ h => h) (fun h => h)) ?_) ?_
      · rintro t' ⟨ht', hnm, he⟩
        refine (B.destroy (b := b) (es 0 1) ht' (by rw [he, hσ]; simp [Spec.put])).mono ?_ (fun _ h => h) (fun h => h)
        rintro u ⟨hu, hd⟩
        refine ⟨hu, V₁, .inr ⟨by omega, hnm, b, hm⟩, ?_⟩
        have : abs u = σ₁ := by
          rw [hd, he, hσ]
          funext l
          simp only [Spec.drop, Spec.put]
          split
          · rename_i h; subst h; exact (hnew₁ _).symm
          · rfl
        rw [this]; exact R₁
      · intro t' ht'
        refine ht'.mono ?_ (fun _ h => h.elim) (fun h => h)
        rintro u ⟨hu, cs, hcs, hrl, hσu⟩
        refine ⟨hu, b, V₁, bs₁, cs, hm, hbs₁, by simp [hroom, hrl], ?_⟩
        have e : v.push N = ⟨N.buf, v.size + 1, max N.cap (v.size + 1)⟩ := by simp [Vec.push, hroom]
        rw [e, hσu, hσ]
        refine R₁.replace (fun z w hz hw => hN z w hw) (by simp [hcs]) (by simp; omega) (fun i => ?_)
          (fun w hw _ i => ?_) (fun c i hc hw => ?_) (fun y => by simp [wipe, fill, Spec.put])
        · simp only
          rw [wipe_other (Ne.symm hne)]
          by_cases h : i < cs.length
          · rw [fill_zero h, List.getElem?_append_left h]
          · rw [fill_out (by omega)]
            by_cases h' : i = v.size
            · subst h'; simp [Spec.put, ← hcs]
            · simp only [Spec.put]
              rw [if_neg (by simp; exact h'), hnew₁, List.getElem?_eq_none (by simp; omega)]
        · rw [hx] at hw; cases hw
          by_cases h : i < v.size
          · exact wipe_in (by omega) (by omega)
          · rw [wipe_out (by omega), fill_other hne]
            simp only [Spec.put]
            rw [if_neg (by simp [hne]), hc₁, List.getElem?_eq_none (by omega)]
        · simp only at hc
          rw [wipe_other (Ne.symm (hw v hx)), fill_other hc]
          simp only [Spec.put]
          rw [if_neg (by simp [hc])]

/-- The slots of the buffer behind the elements. -/
theorem slot_some {n : Nat} {bs : List (Box A W)} {f : Nat → Option (Box A W)} (hn : n = bs.length)
    (h : ∀ i, f i = bs[i]?) (j : Nat) (hj : j < n) : ∃ c, f j = some c :=
  ⟨_, by rw [h]; exact List.getElem?_eq_getElem (by omega)⟩

theorem reserve_ends (B : Follows ρ abs Ok H) {s : S} (hs : Ok s) (R : Rep (abs s) vs V) {x : C} {v : Vec}
    (hx : vs x = some v) (n : Nat) (N : Buf) (hN : ∀ z w, vs z = some w → w.buf ≠ N.buf) (es : Nat → Nat → Env) :
    Ends (reserve H v n N es s)
      (fun t => Ok t ∧ ∃ bs bs', V.lists x = some bs ∧ (if n ≤ v.cap then bs' = bs else Relocated ρ H bs bs') ∧
        Rep (abs t) (upd vs x (some (v.reserve n N))) (V.setList x (some bs')))
      (fun t => Ok t ∧ abs t = abs s) False := by
  obtain ⟨bs, hbs, hsz, hcap, hcell⟩ := R.list x v hx
  unfold reserve
  by_cases hroom : n ≤ v.cap
  · rw [if_pos hroom]
    refine ⟨hs, bs, bs, hbs, by simp [hroom], ?_⟩
    rw [show v.reserve n N = v by simp [Vec.reserve, hroom]]
    exact R.replace (fun z w hz hw hb => hz (R.inj _ _ _ _ hw hx hb)) hsz hcap hcell
      (fun w hw hne => by rw [hx] at hw; cases hw; exact absurd rfl hne) (fun _ _ _ _ => rfl) (fun _ => rfl)
  · rw [if_neg hroom]
    by_cases hf : N.fails = true
    · rw [if_pos hf]; exact ⟨hs, rfl⟩
    · rw [if_neg hf]
      have hnew : ∀ i, abs s (.elem N.buf i) = none := R.used N.buf hN
      have hne : v.buf ≠ N.buf := hN x v hx
      have hrel := relocate_clear B hne (es 1) (es 2) (es 3) hs (bs := bs) (n := v.size) (by omega)
        (fun j hj => hcell j) (fun j hj => hnew j)
      refine Ends.bind (hrel.mono (fun _ h => h.2) (fun _ h => ⟨h.1, h.2.2⟩) (fun h => h)) ?_
      intro t ht
      refine ht.mono ?_ (fun _ h => h.elim) (fun h => h)
      rintro u ⟨hu, cs, hcs, hrl, hσu⟩
      refine ⟨hu, bs, cs, hbs, by simp [hroom, hrl], ?_⟩
      rw [show v.reserve n N = ⟨N.buf, v.size, max N.cap n⟩ by simp [Vec.reserve, hroom], hσu]
      refine R.replace (fun z w hz hw => hN z w hw) (by simp [hcs]) (by simp only; omega) (fun i => ?_)
        (fun w hw _ i => ?_) (fun c i hc hw => ?_) (fun y => rfl)
      · simp only
        rw [wipe_other (Ne.symm hne)]
        by_cases h : i < cs.length
        · rw [fill_zero h]
        · rw [fill_out (by omega), hnew, List.getElem?_eq_none (by omega)]
      · rw [hx] at hw; cases hw
        by_cases h : i < v.size
        · exact wipe_in (by omega) (by omega)
        · rw [wipe_out (by omega), fill_other hne, hcell, List.getElem?_eq_none (by omega)]
      · simp only at hc
        rw [wipe_other (Ne.symm (hw v hx)), fill_other hc]

theorem destroy_ends (B : Follows ρ abs Ok H) {s : S} (hs : Ok s) (R : Rep (abs s) vs V) {x : C} {v : Vec}
    (hx : vs x = some v) (es : Nat → Env) :
    Ends (clear H v.buf es v.size s) (fun t => Ok t ∧ Rep (abs t) (upd vs x none) (V.setList x none))
      (fun _ => False) False := by
  obtain ⟨bs, hbs, hsz, hcap, hcell⟩ := R.list x v hx
  refine (clear_ends B v.buf es v.size hs (slot_some hsz hcell)).mono ?_ (fun _ h => h) (fun h => h)
  rintro t ⟨ht, hσ⟩
  refine ⟨ht, ?_⟩
  rw [hσ]
  refine R.remove hx (fun i => ?_) (fun b i hb => wipe_other hb) (fun y => rfl)
  by_cases h : i < v.size
  · exact wipe_in (by omega) (by omega)
  · rw [wipe_out (by omega), hcell, List.getElem?_eq_none (by omega)]

theorem copyCtor_ends (B : Follows ρ abs Ok H) {s : S} (hs : Ok s) (R : Rep (abs s) vs V) {x y : C} {w : Vec}
    (hx : vs x = none) (hy : vs y = some w) (N : Buf) (hN : ∀ z w, vs z = some w → w.buf ≠ N.buf)
    (es : Nat → Nat → Env) :
    Ends (copyCtor H w N es s)
      (fun t => Ok t ∧ ∃ bs bs', V.lists y = some bs ∧ Each ρ.Copy bs bs' ∧
        Rep (abs t) (upd vs x (some ⟨N.buf, w.size, max N.cap w.size⟩)) (V.setList x (some bs')))
      (fun t => Ok t ∧ abs t = abs s) False := by
  obtain ⟨bs, hbs, hsz, hcap, hcell⟩ := R.list y w hy
  unfold copyCtor
  by_cases hf : N.fails = true
  · rw [if_pos hf]; exact ⟨hs, rfl⟩
  · rw [if_neg hf]
    have hnew : ∀ i, abs s (.elem N.buf i) = none := R.used N.buf hN
    have hne : w.buf ≠ N.buf := hN y w hy
    refine (copyRange_ends B hne (es 1) (es 2) w.size hs (i := 0) ?_ (fun j _ => hnew _)).mono ?_ (fun _ h => h) (fun h => h)
    · intro j hj; rw [Nat.zero_add]; exact slot_some hsz hcell j hj
    · rintro t ⟨ht, cs, hcs, hcp, hσ⟩
      refine ⟨ht, bs, cs, hbs, ⟨by omega, fun i c c' h1 h2 => hcp i c c' (by rw [Nat.zero_add, hcell, h1]) h2⟩, ?_⟩
      rw [hσ]
      refine R.replace (fun z w hz hw => hN z w hw) (by simp [hcs]) (by simp only; omega) (fun i => ?_)
        (fun v hv => by rw [hx] at hv; cases hv) (fun c i hc _ => fill_other hc) (fun y => rfl)
      simp only
      by_cases h : i < cs.length
      · rw [fill_zero h]
      · rw [fill_out (by omega), hnew, List.getElem?_eq_none (by omega)]

/-- Elements assigned one by one. -/
theorem assignRange_ends (B : Follows ρ abs Ok H) {a b : Nat} (hab : a ≠ b) (es : Nat → Env) (n : Nat) {s : S}
    (hs : Ok s) (hdst : ∀ j, j < n → ∃ c, abs s (.elem a j) = some c)
    (hsrc : ∀ j, j < n → ∃ c, abs s (.elem b j) = some c) :
    Ends (each (fun k => H.assignCopy (.elem a k) (.elem b k) (es k)) n s)
      (fun t => Ok t ∧ ∃ cs, cs.length = n ∧ (∀ (j : Nat) c d c', abs s (.elem a j) = some c → abs s (.elem b j) = some d →
        cs[j]? = some c' → ρ.Assign c d c') ∧ abs t = fill (abs s) a 0 cs)
      (fun t => Ok t ∧ ∃ cs : List (Box A W), cs.length ≤ n ∧ (∀ (j : Nat) c d c', abs s (.elem a j) = some c →
        abs s (.elem b j) = some d → cs[j]? = some c' → ρ.Assign c d c' ∨ ρ.AssignThrew c c') ∧
        abs t = fill (abs s) a 0 cs) False := by
  refine each_ends (P := fun k t => Ok t ∧ ∃ cs, cs.length = k ∧ (∀ (j : Nat) c d c', abs s (.elem a j) = some c →
    abs s (.elem b j) = some d → cs[j]? = some c' → ρ.Assign c d c') ∧ abs t = fill (abs s) a 0 cs)
    ⟨hs, [], rfl, by simp, (fill_nil _ _ _).symm⟩ ?_
  rintro k t hk ⟨ht, cs, hn, hc, ha⟩
  obtain ⟨c, hca⟩ := hdst k hk
  obtain ⟨d, hdb⟩ := hsrc k hk
  refine (B.assignCopy (a := c) (b := d) (es k) ht (by simp [hab]) ?_ ?_).mono ?_ ?_ (fun h => h)
  · rw [ha, fill_out (by omega), hca]
  · rw [ha, fill_other (Ne.symm hab), hdb]
  · rintro t' ⟨ht', c', hcp, ha'⟩
    refine ⟨ht', cs ++ [c'], by simp [hn], ?_, by rw [ha', ha, fill_snoc, hn, Nat.zero_add]⟩
    intro j e d' e' h1 h2 h3
    by_cases hj : j < cs.length
    · rw [List.getElem?_append_left hj] at h3; exact hc j e d' e' h1 h2 h3
    · have : j = k := by
        have := (List.getElem?_eq_some_iff.1 h3).1
        simp at this; omega
      subst this
      rw [hca] at h1; cases h1
      rw [hdb] at h2; cases h2
      rw [← hn] at h3; simp at h3; subst h3; exact hcp
  · rintro t' ⟨ht', c', hcp, ha'⟩
    refine ⟨ht', cs ++ [c'], by simp [hn]; omega, ?_, by rw [ha', ha, fill_snoc, hn, Nat.zero_add]⟩
    intro j e d' e' h1 h2 h3
    by_cases hj : j < cs.length
    · rw [List.getElem?_append_left hj] at h3; exact .inl (hc j e d' e' h1 h2 h3)
    · have : j = k := by
        have := (List.getElem?_eq_some_iff.1 h3).1
        simp at this; omega
      subst this
      rw [hca] at h1; cases h1
      rw [← hn] at h3; simp at h3; subst h3; exact .inr hcp

/-- A list with new elements in front. -/
theorem fill_list {b : Nat} {bs cs : List (Box A W)} (h : ∀ i, σ (.elem b i) = bs[i]?) (i : Nat) : fill σ b 0 cs (.elem b i) = (cs ++ bs.drop cs.length)[i]? := by
  by_cases hi : i < cs.length
  · rw [fill_zero hi, List.getElem?_append_left hi]
  · rw [fill_out (by omega), h, List.getElem?_append_right (by omega), List.getElem?_drop]
    congr 1; omega

theorem assignCopy_ends (B : Follows ρ abs Ok H) {s : S} (hs : Ok s) (R : Rep (abs s) vs V) {x y : C} {v w : Vec}
    (hxy : x ≠ y) (hx : vs x = some v) (hy : vs y = some w) (N : Buf) (hN : ∀ z w, vs z = some w → w.buf ≠ N.buf)
    (es : Nat → Nat → Env) :
    Ends (assignCopy H v w N es s)
      (fun t => Ok t ∧ ∃ as bs as', V.lists x = some as ∧ V.lists y = some bs ∧ ListAssigned ρ v.cap as bs as' ∧
        Rep (abs t) (upd vs x (some (v.assign w N))) (V.setList x (some as')))
      (fun t => Ok t ∧ ∃ as bs as', V.lists x = some as ∧ V.lists y = some bs ∧
        (v.cap < bs.length → as' = as) ∧ PartlyAssigned ρ as bs as' ∧
        Rep (abs t) vs (V.setList x (some as'))) False := by
  obtain ⟨as, has, hsza, hcapa, hcella⟩ := R.list x v hx
  obtain ⟨bs, hbs, hszb, hcapb, hcellb⟩ := R.list y w hy
  have hne : v.buf ≠ w.buf := fun h => hxy (R.inj _ _ _ _ hx hy h)
  have hself : V.setList x (some as) = V := by
    cases V; simp only [VState.setList, VState.mk.injEq, and_true]
    funext z; by_cases e : z = x
    · subst e; simp; exact has.symm
    · simp [e]
  unfold assignCopy
  by_cases hc : v.cap < w.size
  · rw [if_pos hc]
    by_cases hf : N.fails = true
    · rw [if_pos hf]
      exact ⟨hs, as, bs, as, has, hbs, fun _ => rfl, ⟨rfl, fun i a a' h1 h2 => .inl (by rw [h1] at h2; cases h2; rfl)⟩, by rw [hself]; exact R⟩
    · rw [if_neg hf]
      have hnew : ∀ i, abs s (.elem N.buf i) = none := R.used N.buf hN
      have hnw : w.buf ≠ N.buf := hN y w hy
      have hnv : v.buf ≠ N.buf := hN x v hx
      refine Ends.bind (P := fun t => Ok t ∧ ∃ cs, cs.length = w.size ∧ CopiesOf ρ (abs s) w.buf 0 cs ∧
        abs t = fill (abs s) N.buf 0 cs)
        ((copyRange_ends B hnw (es 1) (es 2) w.size hs (i := 0) ?_ (fun j _ => hnew _)).mono (fun _ h => h) ?_ (fun h => h)) ?_
      · intro j hj; rw [Nat.zero_add]; exact slot_some hszb hcellb j hj
      · rintro t ⟨ht, he⟩
        exact ⟨ht, as, bs, as, has, hbs, fun _ => rfl, ⟨rfl, fun i a a' h1 h2 => .inl (by rw [h1] at h2; cases h2; rfl)⟩, by rw [hself, he]; exact R⟩
      · rintro t ⟨ht, cs, hcs, hcp, hσ⟩
        refine (clear_ends B v.buf (es 3) v.size ht ?_).mono ?_ (fun _ h => h.elim) (fun h => h)
        · intro j hj; rw [hσ, fill_other hnv]; exact slot_some hsza hcella j hj
        · rintro u ⟨hu, hσu⟩
          refine ⟨hu, as, bs, cs, has, hbs, ⟨by omega, fun i b a' h1 h2 => ?_⟩, ?_⟩
          · have : ρ.Copy b a' := hcp i b a' (by rw [Nat.zero_add, hcellb, h1]) h2
            cases as[i]? with
            | none => exact this
            | some a => simp only; rw [if_pos (by omega)]; exact this
          · rw [show v.assign w N = ⟨N.buf, w.size, max N.cap w.size⟩ by simp [Vec.assign, hc], hσu, hσ]
            refine R.replace (fun z w hz hw => hN z w hw) (by simp [hcs]) (by simp only; omega) (fun i => ?_)
              (fun v' hv' _ i => ?_) (fun c i hc' hw => ?_) (fun y => rfl)
            · simp only
              rw [wipe_other (Ne.symm hnv)]
              by_cases h : i < cs.length
              · rw [fill_zero h]
              · rw [fill_out (by omega), hnew, List.getElem?_eq_none (by omega)]
            · rw [hx] at hv'; cases hv'
              by_cases h : i < v.size
              · exact wipe_in (by omega) (by omega)
              · rw [wipe_out (by omega), fill_other hnv, hcella, List.getElem?_eq_none (by omega)]
            · simp only at hc'
              rw [wipe_other (Ne.symm (hw v hx)), fill_other hc']
  · rw [if_neg hc]
    have hbad : ∀ {t : S} {cs : List (Box A W)}, Ok t → cs.length ≤ v.size → cs.length ≤ w.size →
        (∀ (j : Nat) c d c', abs s (.elem v.buf j) = some c → abs s (.elem w.buf j) = some d → cs[j]? = some c' →
          ρ.Assign c d c' ∨ ρ.AssignThrew c c') → abs t = fill (abs s) v.buf 0 cs →
        Ok t ∧ ∃ as bs as', V.lists x = some as ∧ V.lists y = some bs ∧
        (v.cap < bs.length → as' = as) ∧ PartlyAssigned ρ as bs as' ∧
        Rep (abs t) vs (V.setList x (some as')) := by
      intro t cs ht hle hlw hcp hσ
      refine ⟨ht, as, bs, cs ++ as.drop cs.length, has, hbs, fun h => by omega, ⟨by simp; omega, fun i a a' h1 h2 => ?_⟩, ?_⟩
      · by_cases hi : i < cs.length
        · rw [List.getElem?_append_left hi] at h2
          obtain ⟨b, hb⟩ := slot_some hszb hcellb i (by omega)
          exact .inr ⟨b, by rw [← hcellb, hb], hcp i a b a' (by rw [hcella, h1]) hb h2⟩
        · rw [List.getElem?_append_right (by omega), List.getElem?_drop, show cs.length + (i - cs.length) = i by omega, h1] at h2
          cases h2
          exact .inl rfl
      · rw [hσ]
        have := R.replace (x := x) (v' := v) (bs' := cs ++ as.drop cs.length) (σ' := fill (abs s) v.buf 0 cs)
          (fun z w hz hw hb => hz (R.inj _ _ _ _ hw hx hb)) (by simp; omega) hcapa
          (fill_list hcella) (fun w hw hne => by rw [hx] at hw; cases hw; exact absurd rfl hne)
          (fun c i hc' _ => fill_other hc') (fun y => rfl)
        rw [show upd vs x (some v) = vs by
          funext z; by_cases e : z = x
          · subst e; simp [hx]
          · rw [upd_other _ _ e]] at this
        exact this
    by_cases hle : w.size ≤ v.size
    · rw [if_pos hle]
      refine Ends.bind (P := fun t => Ok t ∧ ∃ cs, cs.length = w.size ∧ (∀ (j : Nat) c d c',
        abs s (.elem v.buf j) = some c → abs s (.elem w.buf j) = some d → cs[j]? = some c' → ρ.Assign c d c') ∧
        abs t = fill (abs s) v.buf 0 cs)
        ((assignRange_ends B hne (es 0) w.size hs (fun j hj => slot_some hsza hcella j (by omega))
          (slot_some hszb hcellb)).mono (fun _ h => h) ?_ (fun h => h)) ?_
      · rintro t ⟨ht, cs, hcs, hcp, hσ⟩; exact hbad ht (by omega) hcs hcp hσ
      · rintro t ⟨ht, cs, hcs, hcp, hσ⟩
        refine (destroy_range B v.buf w.size (es 3) (v.size - w.size) ht ?_).mono ?_ (fun _ h => h.elim) (fun h => h)
        · intro j hj; rw [hσ, fill_out (by omega)]; exact slot_some hsza hcella _ (by omega)
        · rintro u ⟨hu, hσu⟩
          refine ⟨hu, as, bs, cs, has, hbs, ⟨by omega, fun i b a' h1 h2 => ?_⟩, ?_⟩
          · have hi : i < w.size := by rw [← hcs]; exact (List.getElem?_eq_some_iff.1 h2).1
            obtain ⟨a, ha⟩ := slot_some hsza hcella i (by omega)
            rw [hcella] at ha
            rw [ha]; simp only; rw [if_neg (by omega)]
            exact hcp i a b a' (by rw [hcella, ha]) (by rw [hcellb, h1]) h2
          · rw [show v.assign w N = { v with size := w.size } by simp [Vec.assign, hc], hσu, hσ]
            refine R.replace (fun z w hz hw hb => hz (R.inj _ _ _ _ hw hx hb)) (by simp [hcs]) (by simp only; omega)
              (fun i => ?_) (fun w hw hne => by rw [hx] at hw; cases hw; exact absurd rfl hne)
              (fun c i hc' hw => ?_) (fun y => rfl)
            · simp only
              by_cases h : i < cs.length
              · rw [wipe_out (by omega), fill_zero h]
              · rw [List.getElem?_eq_none (by omega)]
                by_cases h' : i < v.size
                · exact wipe_in (by omega) (by omega)
                · rw [wipe_out (by omega), fill_out (by omega), hcella, List.getElem?_eq_none (by omega)]
            · simp only at hc'
              rw [wipe_other hc', fill_other hc']
    · rw [if_neg hle]
      refine Ends.bind (P := fun t => Ok t ∧ ∃ cs, cs.length = v.size ∧ (∀ (j : Nat) c d c',
        abs s (.elem v.buf j) = some c → abs s (.elem w.buf j) = some d → cs[j]? = some c' → ρ.Assign c d c') ∧
        abs t = fill (abs s) v.buf 0 cs)
        ((assignRange_ends B hne (es 0) v.size hs (slot_some hsza hcella)
          (fun j hj => slot_some hszb hcellb j (by omega))).mono (fun _ h => h) ?_ (fun h => h)) ?_
      · rintro t ⟨ht, cs, hcs, hcp, hσ⟩; exact hbad ht (by omega) (by omega) hcp hσ
      · rintro t ⟨ht, cs, hcs, hcp, hσ⟩
        refine (copyRange_ends B (Ne.symm hne) (es 1) (es 2) (w.size - v.size) ht (i := v.size) ?_ ?_).mono ?_ ?_ (fun h => h)
        · intro j hj; rw [hσ, fill_other (Ne.symm hne)]; exact slot_some hszb hcellb _ (by omega)
        · intro j hj; rw [hσ, fill_out (by omega), hcella, List.getElem?_eq_none (by omega)]
        · rintro u ⟨hu, ds, hds, hdp, hσu⟩
          refine ⟨hu, as, bs, cs ++ ds, has, hbs, ⟨by simp; omega, fun i b a' h1 h2 => ?_⟩, ?_⟩
          · by_cases hi : i < v.size
            · obtain ⟨a, ha⟩ := slot_some hsza hcella i hi
              rw [hcella] at ha
              rw [ha]; simp only; rw [if_neg (by omega)]
              rw [List.getElem?_append_left (by omega)] at h2
              exact hcp i a b a' (by rw [hcella, ha]) (by rw [hcellb, h1]) h2
            · rw [List.getElem?_eq_none (l := as) (by omega)]
              rw [List.getElem?_append_right (by omega)] at h2
              refine hdp (i - cs.length) b a' ?_ h2
              rw [hσ, fill_other (Ne.symm hne), hcellb, ← h1]; congr 1; omega
          · rw [show v.assign w N = { v with size := w.size } by simp [Vec.assign, hc], hσu, hσ]
            refine R.replace (fun z w hz hw hb => hz (R.inj _ _ _ _ hw hx hb)) (by simp; omega) (by simp only; omega)
              (fun i => ?_) (fun w hw hne => by rw [hx] at hw; cases hw; exact absurd rfl hne)
              (fun c i hc' hw => ?_) (fun y => rfl)
            · simp only
              by_cases h : i < cs.length
              · rw [fill_out (by omega), fill_zero h, List.getElem?_append_left h]
              · by_cases h' : i < w.size
                · rw [show i = v.size + (i - v.size) by omega, fill_in (by omega), List.getElem?_append_right (by omega)]
                  congr 1; omega
                · rw [fill_out (by omega), fill_out (by omega), hcella, List.getElem?_eq_none (by omega),
                    List.getElem?_eq_none (by simp; omega)]
            · simp only at hc'
              rw [fill_other hc', fill_other hc']
        · rintro u ⟨hu, hσu⟩
          exact hbad (cs := cs) hu (by omega) (by omega) (fun j c d c' h1 h2 h3 => .inl (hcp j c d c' h1 h2 h3)) (by rw [hσu, hσ])

/-- Elements move assigned down. -/
theorem shift_ends (B : Follows ρ abs Ok H) {b i : Nat} (es : Nat → Env) (n : Nat) {s : S} (hs : Ok s)
    {t : Box A W} {bs : List (Box A W)} (hn : bs.length = n) (ht : abs s (.elem b i) = some t)
    (hb : ∀ j, j < n → abs s (.elem b (i + 1 + j)) = bs[j]?) :
    Ends (each (fun k => H.assignMove (.elem b (i + k)) (.elem b (i + k + 1)) (es k)) n s)
      (fun u => Ok u ∧ ∃ res r, Shifted ρ t bs res r ∧ abs u = fill (abs s) b i (res ++ [r]))
      (fun u => Ok u ∧ ∃ res res₀ j a c c', res = res₀ ++ [a, c'] ++ bs.drop (j + 1) ∧ Shifted ρ t (bs.take j) res₀ a ∧
        bs[j]? = some c ∧ ρ.MoveAssignThrew a c c' ∧ res.length = n + 1 ∧ abs u = fill (abs s) b i res)
      (∃ j a c res, j < n ∧ Shifted ρ t (bs.take j) res a ∧ bs[j]? = some c ∧ ρ.Terminates a c) := by
  have key : ∀ k, k ≤ n → Ends (each (fun k => H.assignMove (.elem b (i + k)) (.elem b (i + k + 1)) (es k)) k s)
      (fun u => Ok u ∧ ∃ res r, res.length = k ∧ Shifted ρ t (bs.take k) res r ∧ abs u = fill (abs s) b i (res ++ [r]))
      (fun u => Ok u ∧ ∃ res res₀ j a c c', res = res₀ ++ [a, c'] ++ bs.drop (j + 1) ∧ Shifted ρ t (bs.take j) res₀ a ∧
        bs[j]? = some c ∧ ρ.MoveAssignThrew a c c' ∧ res.length = n + 1 ∧ abs u = fill (abs s) b i res)
      (∃ j a c res, j < n ∧ Shifted ρ t (bs.take j) res a ∧ bs[j]? = some c ∧ ρ.Terminates a c) := by
    intro k
    induction k with
    | zero =>
      intro _
      refine ⟨hs, [], t, rfl, by simpa using Shifted.nil t, ?_⟩
      rw [fill_snoc, fill_nil]
      funext l
      simp only [Spec.put, List.length_nil, Nat.add_zero]
      split
      · rename_i h; subst h; exact ht
      · rfl
    | succ k ih =>
      intro hk
      refine Ends.bind (ih (by omega)) ?_
      rintro u ⟨hu, res, r, hlen, hsh, hσ⟩
      obtain ⟨c, hc⟩ : ∃ c, bs[k]? = some c := ⟨_, List.getElem?_eq_getElem (by omega)⟩
      have hcell : abs u (.elem b (i + k + 1)) = some c := by
        rw [hσ, fill_out (by simp; omega), ← hc, ← hb k (by omega)]; congr 2; omega
      have hdst : abs u (.elem b (i + k)) = some r := by
        rw [hσ, fill_in (by simp; omega)]; simp [← hlen]
      refine (B.assignMove (es k) hu (by simp) hdst hcell).mono ?_ ?_ ?_
      · rintro u' ⟨hu', r', c', hma, hσ'⟩
        refine ⟨hu', res ++ [r'], c', by simp [hlen], ?_, ?_⟩
        · rw [List.take_add_one, hc]
          exact Shifted.snoc hsh hma
        · rw [hσ', hσ, fill_snoc, fill_snoc, fill_snoc]
          funext l
          simp only [Spec.put, List.length_append, List.length_singleton, hlen]
          by_cases h1 : l = .elem b (i + k)
          · subst h1; simp
          · by_cases h2 : l = .elem b (i + (k + 1))
            · subst h2; simp; omega
            · simp only [h1, h2, if_false]; rw [if_neg (by rw [Nat.add_assoc]; exact h2)]
      · rintro u' ⟨hu', c', hma, hσ'⟩
        refine ⟨hu', res ++ [r, c'] ++ bs.drop (k + 1), res, k, r, c, c', rfl, hsh, hc, hma, by simp; omega, ?_⟩
        rw [hσ', hσ]
        funext l
        cases l with
        | var y => simp [Spec.put, fill]
        | elem b' j =>
          by_cases hbb : b' = b
          · subst hbb
            by_cases hj : i ≤ j ∧ j < i + (n + 1)
            · obtain ⟨m, rfl⟩ : ∃ m, j = i + m := ⟨j - i, by omega⟩
              rw [fill_in (σ := abs s) (cs := res ++ [r, c'] ++ bs.drop (k + 1)) (by simp; omega)]
              simp only [Spec.put, Cell.elem.injEq, true_and]
              by_cases h1 : m = k + 1
              · subst h1
                rw [if_pos (by omega), List.append_assoc, List.getElem?_append_right (by omega)]
                simp [hlen]
              · rw [if_neg (by omega)]
                by_cases h2 : m < k + 1
                · rw [fill_in (by simp; omega)]
                  rw [List.append_assoc]
                  by_cases h3 : m < k
                  · rw [List.getElem?_append_left (by omega), List.getElem?_append_left (by omega)]
                  · have : m = k := by omega
                    subst this
                    rw [List.getElem?_append_right (by omega), List.getElem?_append_right (by omega)]
                    simp [hlen]
                · rw [fill_out (by simp; omega), List.getElem?_append_right (by simp; omega), List.getElem?_drop]
                  rw [show i + m = i + 1 + (m - 1) by omega, hb (m - 1) (by omega)]
                  congr 1; simp; omega
            · rw [fill_out (σ := abs s) (cs := res ++ [r, c'] ++ bs.drop (k + 1)) (by simp; omega)]
              simp only [Spec.put, Cell.elem.injEq, true_and]
              rw [if_neg (by omega), fill_out (by simp; omega)]
          · rw [fill_other hbb]
            simp only [Spec.put]
            rw [if_neg (by simp [hbb]), fill_other hbb]
      · intro h
        exact ⟨k, r, c, res, by omega, hsh, hc, h⟩
  refine (key n (Nat.le_refl _)).mono ?_ (fun _ h => h) (fun h => h)
  rintro u ⟨hu, res, r, hlen, hsh, hσ⟩
  rw [List.take_of_length_le (by omega)] at hsh
  exact ⟨hu, res, r, hsh, hσ⟩

theorem _root_.Verif.Spec.Shifted.length {t r : Box A W} {bs res : List (Box A W)} (h : Shifted ρ t bs res r) : res.length = bs.length := by
  induction h with
  | nil => rfl
  | snoc _ _ ih => simp [ih]

theorem erase_ends (B : Follows ρ abs Ok H) {s : S} (hs : Ok s) (R : Rep (abs s) vs V) {x : C} {v : Vec} {i : Nat}
    (hx : vs x = some v) (hi : i < v.size) (es : Nat → Nat → Env) :
    Ends (erase H v i es s)
      (fun u => Ok u ∧ ∃ bs t res r, V.lists x = some bs ∧ bs[i]? = some t ∧ Shifted ρ t (bs.drop (i + 1)) res r ∧
        Rep (abs u) (upd vs x (some { v with size := v.size - 1 })) (V.setList x (some (bs.take i ++ res))))
      (fun u => Ok u ∧ ∃ bs t j a c c' res, V.lists x = some bs ∧ bs[i]? = some t ∧
        Shifted ρ t ((bs.drop (i + 1)).take j) res a ∧ (bs.drop (i + 1))[j]? = some c ∧ ρ.MoveAssignThrew a c c' ∧
        Rep (abs u) vs (V.setList x (some (bs.take i ++ (res ++ [a, c'] ++ bs.drop (i + 1 + (j + 1)))))))
      (∃ bs t j a c res, V.lists x = some bs ∧ bs[i]? = some t ∧ Shifted ρ t ((bs.drop (i + 1)).take j) res a ∧
        (bs.drop (i + 1))[j]? = some c ∧ ρ.Terminates a c) := by
  obtain ⟨bs, hbs, hsz, hcap, hcell⟩ := R.list x v hx
  obtain ⟨t, ht⟩ : ∃ t, bs[i]? = some t := ⟨_, List.getElem?_eq_getElem (by omega)⟩
  unfold erase
  refine Ends.bind (P := fun u => Ok u ∧ ∃ res r, Shifted ρ t (bs.drop (i + 1)) res r ∧
    abs u = fill (abs s) v.buf i (res ++ [r])) ((shift_ends B (es 0) (v.size - 1 - i) hs (bs := bs.drop (i + 1)) (t := t)
    (by simp; omega) (by rw [hcell, ht]) (fun j _ => by rw [hcell, List.getElem?_drop])).mono (fun _ h => h) ?_ ?_) ?_
  · rintro u ⟨hu, res, res₀, k, a, c, c', hres, hsh, hc, hma, hlen, hσ⟩
    refine ⟨hu, bs, t, k, a, c, c', res₀, hbs, ht, hsh, hc, hma, ?_⟩
    rw [← List.drop_drop, ← hres, hσ]
    have := R.replace (x := x) (v' := v) (bs' := bs.take i ++ res) (σ' := fill (abs s) v.buf i res)
      (fun z w hz hw hb => hz (R.inj _ _ _ _ hw hx hb)) (by simp; omega) hcap
      (fun j => ?_) (fun w hw hne => by rw [hx] at hw; cases hw; exact absurd rfl hne)
      (fun c i hc' _ => fill_other hc') (fun y => rfl)
    rw [show upd vs x (some v) = vs by
      funext z; by_cases e : z = x
      · subst e; simp [hx]
      · rw [upd_other _ _ e]] at this
    exact this
    by_cases h1 : j < i
    · rw [fill_out (by omega), hcell, List.getElem?_append_left (by simp; omega), List.getElem?_take_of_lt h1]
    · by_cases h2 : j < v.size
      · rw [show j = i + (j - i) by omega, fill_in (by omega), List.getElem?_append_right (by simp; omega)]
        congr 1; simp; omega
      · rw [fill_out (by omega), hcell, List.getElem?_eq_none (by omega), List.getElem?_eq_none (by simp; omega)]
  · rintro ⟨j, a, c, res, hj, hsh, hc, hT⟩
    exact ⟨bs, t, j, a, c, res, hbs, ht, hsh, hc, hT⟩
  · rintro u ⟨hu, res, r, hsh, hσ⟩
    have hlen := hsh.length
    simp only [List.length_drop] at hlen
    refine (B.destroy (b := r) (es 1 0) hu ?_).mono ?_ (fun _ h => h.elim) (fun h => h.elim)
    · rw [hσ, show v.size - 1 = i + (v.size - 1 - i) by omega, fill_in (by simp; omega),
        List.getElem?_append_right (by omega)]
      simp [show v.size - 1 - i - res.length = 0 by omega]
    · rintro u' ⟨hu', hσ'⟩
      refine ⟨hu', bs, t, res, r, hbs, ht, hsh, ?_⟩
      rw [hσ', hσ]
      refine R.replace (fun z w hz hw hb => hz (R.inj _ _ _ _ hw hx hb)) (by simp; omega) (by simp only; omega)
        (fun j => ?_) (fun w hw hne => by rw [hx] at hw; cases hw; exact absurd rfl hne)
        (fun c j hc' hw => ?_) (fun y => by simp [Spec.drop, fill])
      · simp only [Spec.drop, Cell.elem.injEq, true_and]
        by_cases h0 : j = v.size - 1
        · rw [if_pos h0, List.getElem?_eq_none (by simp; omega)]
        · rw [if_neg h0]
          by_cases h1 : j < i
          · rw [fill_out (by omega), hcell, List.getElem?_append_left (by simp; omega), List.getElem?_take_of_lt h1]
          · by_cases h2 : j < v.size
            · rw [show j = i + (j - i) by omega, fill_in (by simp; omega), List.getElem?_append_left (by omega),
                List.getElem?_append_right (by simp; omega)]
              congr 1; simp; omega
            · rw [fill_out (by simp; omega), hcell, List.getElem?_eq_none (by omega),
                List.getElem?_eq_none (by simp; omega)]
      · simp only at hc'
        simp only [Spec.drop]
        rw [if_neg (by simp [hc']), fill_other hc']

theorem pop_ends (B : Follows ρ abs Ok H) {s : S} (hs : Ok s) (R : Rep (abs s) vs V) {x : C} {v : Vec}
    (hx : vs x = some v) (h0 : 0 < v.size) (e : Env) :
    Ends (H.destroy (.elem v.buf (v.size - 1)) e s)
      (fun u => Ok u ∧ ∃ bs, V.lists x = some bs ∧
        Rep (abs u) (upd vs x (some { v with size := v.size - 1 })) (V.setList x (some bs.dropLast)))
      (fun _ => False) False := by
  obtain ⟨bs, hbs, hsz, hcap, hcell⟩ := R.list x v hx
  obtain ⟨c, hc⟩ := slot_some hsz hcell (v.size - 1) (by omega)
  refine (B.destroy e hs hc).mono ?_ (fun _ h => h) (fun h => h)
  rintro u ⟨hu, hσ⟩
  refine ⟨hu, bs, hbs, ?_⟩
  rw [hσ]
  refine R.replace (fun z w hz hw hb => hz (R.inj _ _ _ _ hw hx hb)) (by simp; omega) (by simp only; omega)
    (fun j => ?_) (fun w hw hne => by rw [hx] at hw; cases hw; exact absurd rfl hne)
    (fun c j hc' hw => ?_) (fun y => by simp [Spec.drop])
  · simp only [Spec.drop, Cell.elem.injEq, true_and, List.getElem?_dropLast, hcell]
    by_cases h : j = v.size - 1
    · subst h; rw [if_pos rfl, if_neg (by omega)]
    · rw [if_neg h]
      split
      · rfl
      · rw [List.getElem?_eq_none (by omega)]
  · simp only at hc'
    simp only [Spec.drop]
    rw [if_neg (by simp [hc'])]

/-! ### Calls -/

section
variable {s : VecS C S} {x y : C} {N : Buf} {as bs : List (Box A W)} {b : Box A W}

theorem call_fin {o : VecOp C I J F} {es : Nat → Nat → Env} {P E : VState C A W → Prop} {D : Prop}
    (h : Ends (body H mk s.2 N es o s.1) (fun t => Ok t ∧ ∃ V', P V' ∧ Rep (abs t) (after s.2 N o) V')
      (fun t => Ok t ∧ ∃ V', E V' ∧ Rep (abs t) s.2 V') D) :
    Ends (call H mk o N es s) (fun s' => Inv abs Ok s' ∧ P (vstate abs s')) (fun s' => Inv abs Ok s' ∧ E (vstate abs s')) D := by
  refine (call_of h).mono ?_ ?_ (fun h => h)
  · rintro s' ⟨he, ht, V', hP, hR⟩
    rw [← he] at hR
    have := inv_of ht hR
    exact ⟨this.1, this.2 ▸ hP⟩
  · rintro s' ⟨he, ht, V', hE, hR⟩
    rw [← he] at hR
    have := inv_of ht hR
    exact ⟨this.1, this.2 ▸ hE⟩

theorem make_call (hmk : Makes abs Ok mk) (K : Inv abs Ok s) (hy : (vstate abs s).vars y = none) (j : J)
    (es : Nat → Nat → Env) :
    Ends (call H mk (.make y j) N es s)
      (fun s' => Inv abs Ok s' ∧ ∃ b, vstate abs s' = (vstate abs s).setVar y (some b))
      (fun s' => Inv abs Ok s' ∧ vstate abs s' = vstate abs s) False := by
  refine call_fin (P := fun V' => ∃ b, V' = (vstate abs s).setVar y (some b)) (E := fun V' => V' = vstate abs s)
    ((hmk j (es 0 0) K.ok hy).mono ?_ ?_ (fun h => h))
  · rintro t ⟨ht, b, hσ⟩
    exact ⟨ht, _, ⟨b, rfl⟩, K.rep.var y (some b) fun l => by rw [hσ]; rfl⟩
  · rintro t ⟨ht, hσ⟩
    exact ⟨ht, _, rfl, hσ ▸ K.rep⟩

theorem destroyVar_call (B : Follows ρ abs Ok H) (K : Inv abs Ok s) (hy : (vstate abs s).vars y = some b)
    (es : Nat → Nat → Env) :
    Ends (call H mk (.destroyVar y) N es s)
      (fun s' => Inv abs Ok s' ∧ vstate abs s' = (vstate abs s).setVar y none) (fun _ => False) False := by
  refine (call_fin (P := fun V' => V' = (vstate abs s).setVar y none) (E := fun _ => False) ?_).mono
    (fun _ h => h) (fun _ h => h.2) (fun h => h)
  refine (B.destroy (es 0 0) K.ok hy).mono ?_ (fun _ h => h.elim) (fun h => h)
  rintro t ⟨ht, hσ⟩
  exact ⟨ht, _, rfl, K.rep.var y none fun l => by rw [hσ]; rfl⟩

/-- A vector without elements in a new buffer. -/
theorem rep_empty (R : Rep σ vs V) (hN : ∀ z w, vs z = some w → w.buf ≠ N.buf) (hx : vs x = none) :
    Rep σ (upd vs x (some ⟨N.buf, 0, 0⟩)) (V.setList x (some [])) :=
  R.replace (fun z w _ hw => hN z w hw) rfl (Nat.le_refl _) (fun i => by simp [R.used N.buf hN i])
    (fun v hv => by rw [hx] at hv; cases hv) (fun _ _ _ _ => rfl) (fun _ => rfl)

theorem empty_call (K : Inv abs Ok s) (hN : FreshBuf s N) (hx : (vstate abs s).lists x = none) (es : Nat → Nat → Env) :
    Ends (call H mk (.empty x) N es s)
      (fun s' => Inv abs Ok s' ∧ vstate abs s' = (vstate abs s).setList x (some [])) (fun _ => False) False := by
  refine (call_fin (P := fun V' => V' = (vstate abs s).setList x (some [])) (E := fun _ => False) ?_).mono
    (fun _ h => h) (fun _ h => h.2) (fun h => h)
  exact ⟨K.ok, _, rfl, rep_empty K.rep hN (K.rep.of_none hx)⟩

theorem copy_call (B : Follows ρ abs Ok H) (K : Inv abs Ok s) (hN : FreshBuf s N) (hx : (vstate abs s).lists x = none)
    (hy : (vstate abs s).lists y = some bs) (es : Nat → Nat → Env) :
    Ends (call H mk (.copy x y) N es s)
      (fun s' => Inv abs Ok s' ∧ ∃ bs', Each ρ.Copy bs bs' ∧ vstate abs s' = (vstate abs s).setList x (some bs'))
      (fun s' => Inv abs Ok s' ∧ vstate abs s' = vstate abs s) False := by
  obtain ⟨w, hw, -⟩ := K.rep.of_list hy
  refine call_fin (P := fun V' => ∃ bs', Each ρ.Copy bs bs' ∧ V' = (vstate abs s).setList x (some bs'))
    (E := fun V' => V' = vstate abs s) ?_
  simp only [body, after, hw, Option.map_some]
  refine (copyCtor_ends B K.ok K.rep (K.rep.of_none hx) hw N hN es).mono ?_ ?_ (fun h => h)
  · rintro t ⟨ht, bs₀, bs', h1, h2, h3⟩
    rw [hy] at h1; cases h1
    exact ⟨ht, _, ⟨bs', h2, rfl⟩, h3⟩
  · rintro t ⟨ht, hσ⟩
    exact ⟨ht, _, rfl, hσ ▸ K.rep⟩

theorem setList_twice (V : VState C A W) (x : C) (l m : Option (List (Box A W))) :
    (V.setList x l).setList x m = V.setList x m := by
  simp only [VState.setList, VState.mk.injEq, and_true]
  funext z
  by_cases h1 : z = x <;> simp [h1]

theorem setList_self (V : VState C A W) (x : C) : V.setList x (V.lists x) = V := by
  cases V
  simp only [VState.setList, VState.mk.injEq, and_true]
  funext z
  by_cases h1 : z = x
  · subst h1; simp
  · simp [h1]

theorem upd_upd {α β : Type} [DecidableEq α] (f : α → β) (x : α) (a b : β) : upd (upd f x a) x b = upd f x b := by
  funext z; by_cases h : z = x
  · subst h; simp
  · simp [upd_other _ _ h]

/-- `x`, which is no vector, takes the buffer of `y`, and `y` becomes empty. -/
theorem rep_steal (R : Rep σ vs V) (hN : ∀ z w, vs z = some w → w.buf ≠ N.buf) (hne : x ≠ y) (hx : vs x = none) :
    Rep σ (upd (upd vs x (vs y)) y (some ⟨N.buf, 0, 0⟩)) ((V.setList x (V.lists y)).setList y (some [])) := by
  have h := R.swap x y
  rw [hx] at h
  have h2 := rep_empty (x := y) (N := N) h (fun z w hz => by
    by_cases e : z = y
    · subst e; simp at hz
    · rw [upd_other _ _ e] at hz
      by_cases e' : z = x
      · subst e'; rw [upd_same] at hz; exact hN y w hz
      · rw [upd_other _ _ e'] at hz; exact hN z w hz) (by simp)
  rwa [upd_upd, setList_twice] at h2

theorem move_call (K : Inv abs Ok s) (hN : FreshBuf s N) (hx : (vstate abs s).lists x = none)
    (hy : (vstate abs s).lists y = some bs) (es : Nat → Nat → Env) :
    Ends (call H mk (.move x y) N es s)
      (fun s' => Inv abs Ok s' ∧ vstate abs s' = ((vstate abs s).setList x (some bs)).setList y (some []))
      (fun _ => False) False := by
  refine (call_fin (P := fun V' => V' = ((vstate abs s).setList x (some bs)).setList y (some [])) (E := fun _ => False) ?_).mono
    (fun _ h => h) (fun _ h => h.2) (fun h => h)
  have hne : x ≠ y := by rintro rfl; rw [hx] at hy; cases hy
  have := rep_steal K.rep hN hne (K.rep.of_none hx)
  rw [hy] at this
  exact ⟨K.ok, _, rfl, this⟩

theorem destroy_call (B : Follows ρ abs Ok H) (K : Inv abs Ok s) (hx : (vstate abs s).lists x = some bs)
    (es : Nat → Nat → Env) :
    Ends (call H mk (.destroy x) N es s) (fun s' => Inv abs Ok s' ∧ vstate abs s' = (vstate abs s).setList x none)
      (fun _ => False) False := by
  obtain ⟨v, hv, -⟩ := K.rep.of_list hx
  refine (call_fin (P := fun V' => V' = (vstate abs s).setList x none) (E := fun _ => False) ?_).mono
    (fun _ h => h) (fun _ h => h.2) (fun h => h)
  simp only [body, hv]
  refine (destroy_ends B K.ok K.rep hv (es 3)).mono ?_ (fun _ h => h.elim) (fun h => h)
  rintro t ⟨ht, hR⟩
  exact ⟨ht, _, rfl, hR⟩

theorem room_iff {v : Vec} (hv : s.2 x = some v) : Room s x ↔ v.size < v.cap :=
  ⟨fun ⟨w, hw, h⟩ => by rw [hv] at hw; cases hw; exact h, fun h => ⟨v, hv, h⟩⟩

theorem push_call (B : Follows ρ abs Ok H) (K : Inv abs Ok s) (hN : FreshBuf s N)
    (hx : (vstate abs s).lists x = some bs) {a : Arg C I} (ha : ArgOk (vstate abs s) a) (es : Nat → Nat → Env) :
    Ends (call H mk (.push x a) N es s)
      (fun s' => Inv abs Ok s' ∧ ∃ b σ₁ bs₁ bs', ArgMade ρ (vstate abs s) b σ₁ a ∧ σ₁.lists x = some bs₁ ∧
        (Room s x → bs' = bs₁) ∧ (¬ Room s x → Relocated ρ H bs₁ bs') ∧ vstate abs s' = σ₁.setList x (some (bs' ++ [b])))
      (fun s' => Inv abs Ok s' ∧ (ArgThrew ρ (vstate abs s) (vstate abs s') a ∨
        (¬ Room s x ∧ H.nothrowMove = false ∧ ∃ b, ArgMade ρ (vstate abs s) b (vstate abs s') a))) False := by
  obtain ⟨v, hv, -⟩ := K.rep.of_list hx
  refine call_fin (P := fun V' => ∃ b σ₁ bs₁ bs', ArgMade ρ (vstate abs s) b σ₁ a ∧ σ₁.lists x = some bs₁ ∧
        (Room s x → bs' = bs₁) ∧ (¬ Room s x → Relocated ρ H bs₁ bs') ∧ V' = σ₁.setList x (some (bs' ++ [b])))
    (E := fun V' => ArgThrew ρ (vstate abs s) V' a ∨
        (¬ Room s x ∧ H.nothrowMove = false ∧ ∃ b, ArgMade ρ (vstate abs s) b V' a)) ?_
  simp only [body, after, hv, Option.map_some]
  refine (push_ends B K.ok K.rep hv ha N hN es).mono ?_ ?_ (fun h => h)
  · rintro t ⟨ht, b, V₁, bs₁, bs', h1, h2, h3, h4⟩
    refine ⟨ht, _, ⟨b, V₁, bs₁, bs', h1, h2, fun hr => ?_, fun hr => ?_, rfl⟩, h4⟩
    · rwa [if_pos ((room_iff hv).1 hr)] at h3
    · rwa [if_neg (fun h => hr ((room_iff hv).2 h))] at h3
  · rintro t ⟨ht, V₁, h1, h2⟩
    refine ⟨ht, V₁, ?_, h2⟩
    rcases h1 with h1 | ⟨h1, h3⟩
    · exact .inl h1
    · exact .inr ⟨fun hr => by have := (room_iff hv).1 hr; omega, h3⟩

theorem pop_call (B : Follows ρ abs Ok H) (K : Inv abs Ok s) (hx : (vstate abs s).lists x = some bs) (h0 : 0 < bs.length)
    (es : Nat → Nat → Env) :
    Ends (call H mk (.pop x) N es s)
      (fun s' => Inv abs Ok s' ∧ vstate abs s' = (vstate abs s).setList x (some bs.dropLast)) (fun _ => False) False := by
  obtain ⟨v, hv, hsz, -⟩ := K.rep.of_list hx
  refine (call_fin (P := fun V' => V' = (vstate abs s).setList x (some bs.dropLast)) (E := fun _ => False) ?_).mono
    (fun _ h => h) (fun _ h => h.2) (fun h => h)
  simp only [body, after, hv, Option.map_some]
  refine (pop_ends B K.ok K.rep hv (by omega) (es 0 0)).mono ?_ (fun _ h => h.elim) (fun h => h)
  rintro t ⟨ht, bs', h1, h2⟩
  rw [hx] at h1; cases h1
  exact ⟨ht, _, rfl, h2⟩

theorem capacity_eq {v : Vec} (hv : s.2 x = some v) : capacity s x = v.cap := by simp [capacity, hv]

theorem reserve_call (B : Follows ρ abs Ok H) (K : Inv abs Ok s) (hN : FreshBuf s N)
    (hx : (vstate abs s).lists x = some bs) (n : Nat) (es : Nat → Nat → Env) :
    Ends (call H mk (.reserve x n) N es s)
      (fun s' => Inv abs Ok s' ∧ ∃ bs', (n ≤ capacity s x → bs' = bs) ∧ (capacity s x < n → Relocated ρ H bs bs') ∧
        vstate abs s' = (vstate abs s).setList x (some bs') ∧ n ≤ capacity s' x)
      (fun s' => Inv abs Ok s' ∧ vstate abs s' = vstate abs s) False := by
  obtain ⟨v, hv, -⟩ := K.rep.of_list hx
  have h : Ends (body H mk s.2 N es (.reserve x n) s.1) (fun t => Ok t ∧ ∃ bs', (n ≤ capacity s x → bs' = bs) ∧
      (capacity s x < n → Relocated ρ H bs bs') ∧ Rep (abs t) (after s.2 N (.reserve x n : VecOp C I J F))
        ((vstate abs s).setList x (some bs')))
      (fun t => Ok t ∧ Rep (abs t) s.2 (vstate abs s)) False := by
    simp only [body, after, hv, Option.map_some]
    refine (reserve_ends B K.ok K.rep hv n N hN es).mono ?_ ?_ (fun h => h)
    · rintro t ⟨ht, bs₀, bs', h1, h2, h3⟩
      rw [hx] at h1; cases h1
      rw [capacity_eq hv]
      refine ⟨ht, bs', fun h => by rwa [if_pos h] at h2, fun h => by rwa [if_neg (by omega)] at h2, h3⟩
    · rintro t ⟨ht, hσ⟩; exact ⟨ht, hσ ▸ K.rep⟩
  refine (call_of h).mono ?_ ?_ (fun h => h)
  · rintro s' ⟨he, ht, bs', h1, h2, hR⟩
    rw [← he] at hR
    have := inv_of ht hR
    refine ⟨this.1, bs', h1, h2, this.2, ?_⟩
    simp only [capacity, he, after, hv, Option.map_some, upd_same, Option.getD_some, Vec.reserve]
    split
    · assumption
    · simp only; omega
  · rintro s' ⟨he, ht, hR⟩
    rw [← he] at hR
    exact inv_of ht hR

theorem erase_call (B : Follows ρ abs Ok H) (K : Inv abs Ok s) {i : Nat} {t : Box A W}
    (hx : (vstate abs s).lists x = some bs) (hi : bs[i]? = some t) (es : Nat → Nat → Env) :
    Ends (call H mk (.erase x i) N es s)
      (fun s' => Inv abs Ok s' ∧ ∃ res r, Shifted ρ t (bs.drop (i + 1)) res r ∧
        vstate abs s' = (vstate abs s).setList x (some (bs.take i ++ res)))
      (fun s' => Inv abs Ok s' ∧ ∃ j a c c' res, Shifted ρ t ((bs.drop (i + 1)).take j) res a ∧
        (bs.drop (i + 1))[j]? = some c ∧ ρ.MoveAssignThrew a c c' ∧
        vstate abs s' = (vstate abs s).setList x (some (bs.take i ++ (res ++ [a, c'] ++ bs.drop (i + 1 + (j + 1))))))
      (∃ j a c res, Shifted ρ t ((bs.drop (i + 1)).take j) res a ∧ (bs.drop (i + 1))[j]? = some c ∧
        ρ.Terminates a c) := by
  obtain ⟨v, hv, hsz, -⟩ := K.rep.of_list hx
  refine call_fin (P := fun V' => ∃ res r, Shifted ρ t (bs.drop (i + 1)) res r ∧
        V' = (vstate abs s).setList x (some (bs.take i ++ res)))
    (E := fun V' => ∃ j a c c' res, Shifted ρ t ((bs.drop (i + 1)).take j) res a ∧
        (bs.drop (i + 1))[j]? = some c ∧ ρ.MoveAssignThrew a c c' ∧
        V' = (vstate abs s).setList x (some (bs.take i ++ (res ++ [a, c'] ++ bs.drop (i + 1 + (j + 1)))))) ?_
  simp only [body, after, hv, Option.map_some]
  have hlt : i < v.size := by rw [hsz]; exact (List.getElem?_eq_some_iff.1 hi).1
  refine (erase_ends B K.ok K.rep hv hlt es).mono ?_ ?_ ?_
  · rintro u ⟨hu, bs₀, t₀, res, r, h1, h2, h3, h4⟩
    rw [hx] at h1; cases h1
    rw [hi] at h2; cases h2
    exact ⟨hu, _, ⟨res, r, h3, rfl⟩, h4⟩
  · rintro u ⟨hu, bs₀, t₀, j, a, c, c', res, h1, h2, h3, h4, h5, h6⟩
    rw [hx] at h1; cases h1
    rw [hi] at h2; cases h2
    exact ⟨hu, _, ⟨j, a, c, c', res, h3, h4, h5, rfl⟩, h6⟩
  · rintro ⟨bs₀, t₀, j, a, c, res, h1, h2, h3, h4, h5⟩
    rw [hx] at h1; cases h1
    rw [hi] at h2; cases h2
    exact ⟨j, a, c, res, h3, h4, h5⟩

theorem assignCopy_call (B : Follows ρ abs Ok H) (K : Inv abs Ok s) (hN : FreshBuf s N) (hne : x ≠ y)
    (hx : (vstate abs s).lists x = some as) (hy : (vstate abs s).lists y = some bs) (es : Nat → Nat → Env) :
    Ends (call H mk (.assignCopy x y) N es s)
      (fun s' => Inv abs Ok s' ∧ ∃ as', ListAssigned ρ (capacity s x) as bs as' ∧
        vstate abs s' = (vstate abs s).setList x (some as'))
      (fun s' => Inv abs Ok s' ∧ ∃ as', (capacity s x < bs.length → as' = as) ∧ PartlyAssigned ρ as bs as' ∧
        vstate abs s' = (vstate abs s).setList x (some as')) False := by
  obtain ⟨v, hv, -⟩ := K.rep.of_list hx
  obtain ⟨w, hw, -⟩ := K.rep.of_list hy
  refine call_fin (P := fun V' => ∃ as', ListAssigned ρ (capacity s x) as bs as' ∧
        V' = (vstate abs s).setList x (some as'))
    (E := fun V' => ∃ as', (capacity s x < bs.length → as' = as) ∧ PartlyAssigned ρ as bs as' ∧
        V' = (vstate abs s).setList x (some as')) ?_
  simp only [body, after, hv, hw, if_neg hne, capacity_eq hv]
  refine (assignCopy_ends B K.ok K.rep hne hv hw N hN es).mono ?_ ?_ (fun h => h)
  · rintro u ⟨hu, as₀, bs₀, as', h1, h2, h3, h4⟩
    rw [hx] at h1; cases h1
    rw [hy] at h2; cases h2
    exact ⟨hu, _, ⟨as', h3, rfl⟩, h4⟩
  · rintro u ⟨hu, as₀, bs₀, as', h1, h2, h3, h4, h5⟩
    rw [hx] at h1; cases h1
    rw [hy] at h2; cases h2
    exact ⟨hu, _, ⟨as', h3, h4, rfl⟩, h5⟩

theorem assignSelf_call (K : Inv abs Ok s) (hx : (vstate abs s).lists x = some as) (es : Nat → Nat → Env) :
    Ends (call H mk (.assignCopy x x) N es s) (fun s' => Inv abs Ok s' ∧ vstate abs s' = vstate abs s)
      (fun _ => False) False := by
  obtain ⟨v, hv, -⟩ := K.rep.of_list hx
  refine (call_fin (P := fun V' => V' = vstate abs s) (E := fun _ => False) ?_).mono
    (fun _ h => h) (fun _ h => h.2) (fun h => h)
  simp only [body, after, hv, if_pos]
  exact ⟨K.ok, _, rfl, K.rep⟩

theorem assignMove_call (B : Follows ρ abs Ok H) (K : Inv abs Ok s) (hN : FreshBuf s N) (hne : x ≠ y)
    (hx : (vstate abs s).lists x = some as) (hy : (vstate abs s).lists y = some bs) (es : Nat → Nat → Env) :
    Ends (call H mk (.assignMove x y) N es s)
      (fun s' => Inv abs Ok s' ∧ vstate abs s' = ((vstate abs s).setList x (some bs)).setList y (some []))
      (fun _ => False) False := by
  obtain ⟨v, hv, -⟩ := K.rep.of_list hx
  refine (call_fin (P := fun V' => V' = ((vstate abs s).setList x (some bs)).setList y (some [])) (E := fun _ => False) ?_).mono
    (fun _ h => h) (fun _ h => h.2) (fun h => h)
  simp only [body, after, hv]
  refine (destroy_ends B K.ok K.rep hv (es 3)).mono ?_ (fun _ h => h.elim) (fun h => h)
  rintro t ⟨ht, hR⟩
  have := rep_steal (N := N) (y := y) hR (fun z w hz => by
    by_cases e : z = x
    · subst e; simp at hz
    · rw [upd_other _ _ e] at hz; exact hN z w hz) hne (by simp)
  rw [upd_other _ _ (Ne.symm hne), upd_upd, setList_twice] at this
  refine ⟨ht, _, rfl, ?_⟩
  have hl : ((vstate abs s).setList x none).lists y = some bs := by
    simp only [VState.setList, if_neg (Ne.symm hne)]; exact hy
  rw [hl] at this
  exact this

theorem swap_call (K : Inv abs Ok s) (hx : (vstate abs s).lists x = some as) (hy : (vstate abs s).lists y = some bs)
    (es : Nat → Nat → Env) :
    Ends (call H mk (.swap x y) N es s)
      (fun s' => Inv abs Ok s' ∧ vstate abs s' = ((vstate abs s).setList x (some bs)).setList y (some as))
      (fun _ => False) False := by
  refine (call_fin (P := fun V' => V' = ((vstate abs s).setList x (some bs)).setList y (some as)) (E := fun _ => False) ?_).mono
    (fun _ h => h) (fun _ h => h.2) (fun h => h)
  have := K.rep.swap x y
  rw [hx, hy] at this
  exact ⟨K.ok, _, rfl, this⟩

theorem modify_call (B : Follows ρ abs Ok H) (K : Inv abs Ok s) {r : Ref C} {a : A} {v : W} (f : F)
    (hr : (vstate abs s).get r = some ⟨a, some v⟩) (es : Nat → Nat → Env) :
    Ends (call H mk (.modify r f) N es s)
      (fun s' => Inv abs Ok s' ∧ vstate abs s' = (vstate abs s).set r ⟨a, some (H.app f v)⟩) (fun _ => False) False := by
  obtain ⟨l, hl, hb⟩ := K.rep.cell hr
  refine (call_fin (P := fun V' => V' = (vstate abs s).set r ⟨a, some (H.app f v)⟩) (E := fun _ => False) ?_).mono
    (fun _ h => h) (fun _ h => h.2) (fun h => h)
  simp only [body, hl]
  refine (B.modify f (es 0 0) K.ok hb).mono ?_ (fun _ h => h.elim) (fun h => h)
  rintro t ⟨ht, hσ⟩
  exact ⟨ht, _, rfl, hσ ▸ K.rep.put hr hl _⟩

/-- Every legal operation ends normally, with an exception or in `std::terminate`, and keeps the invariant. -/
theorem call_inv (B : Follows ρ abs Ok H) (hmk : Makes abs Ok mk) (K : Inv abs Ok s) (o : VecOp C I J F)
    (hN : FreshBuf s N) (hl : VecLegal (vstate abs s) o) (es : Nat → Nat → Env) :
    Ends (call H mk o N es s) (Inv abs Ok) (Inv abs Ok) True := by
  have fin : ∀ {P E : VecS C S → Prop} {D : Prop}, Ends (call H mk o N es s) (fun s' => Inv abs Ok s' ∧ P s')
      (fun s' => Inv abs Ok s' ∧ E s') D → Ends (call H mk o N es s) (Inv abs Ok) (Inv abs Ok) True :=
    fun h => h.mono (fun _ h => h.1) (fun _ h => h.1) (fun _ => trivial)
  have fin' : ∀ {P : VecS C S → Prop}, Ends (call H mk o N es s) (fun s' => Inv abs Ok s' ∧ P s')
      (fun _ => False) False → Ends (call H mk o N es s) (Inv abs Ok) (Inv abs Ok) True :=
    fun h => h.mono (fun _ h => h.1) (fun _ h => h.elim) (fun _ => trivial)
  cases o with
  | make y j => exact fin (make_call hmk K hl j es)
  | destroyVar y => obtain ⟨b, hb⟩ := hl; exact fin' (destroyVar_call B K hb es)
  | empty x => exact fin' (empty_call K hN hl es)
  | copy x y => obtain ⟨hx, bs, hy⟩ := hl; exact fin (copy_call B K hN hx hy es)
  | move x y => obtain ⟨hx, bs, hy⟩ := hl; exact fin' (move_call K hN hx hy es)
  | destroy x => obtain ⟨bs, hx⟩ := hl; exact fin' (destroy_call B K hx es)
  | push x a =>
    cases a with
    | make i => obtain ⟨bs, hx⟩ := hl; exact fin (push_call B K hN hx (a := .make i) trivial es)
    | copy r => obtain ⟨⟨bs, hx⟩, hr⟩ := hl; exact fin (push_call B K hN hx (a := .copy r) hr es)
    | move r => obtain ⟨⟨bs, hx⟩, hr⟩ := hl; exact fin (push_call B K hN hx (a := .move r) hr es)
  | pop x => obtain ⟨bs, hx, h0⟩ := hl; exact fin' (pop_call B K hx h0 es)
  | reserve x n => obtain ⟨bs, hx⟩ := hl; exact fin (reserve_call B K hN hx n es)
  | erase x i =>
    obtain ⟨bs, hx, hi⟩ := hl
    exact fin (erase_call B K hx (List.getElem?_eq_getElem hi) es)
  | assignCopy x y =>
    obtain ⟨⟨as, hx⟩, bs, hy⟩ := hl
    by_cases h : x = y
    · subst h; exact fin' (assignSelf_call K hx es)
    · exact fin (assignCopy_call B K hN h hx hy es)
  | assignMove x y => obtain ⟨hne, ⟨as, hx⟩, bs, hy⟩ := hl; exact fin' (assignMove_call B K hN hne hx hy es)
  | swap x y => obtain ⟨⟨as, hx⟩, bs, hy⟩ := hl; exact fin' (swap_call K hx hy es)
  | modify r f => obtain ⟨a, v, hr⟩ := hl; exact fin' (modify_call B K f hr es)

theorem inv_init {init : S} (h0 : Ok init) (hd : ∀ l, abs init l = none) : Inv abs Ok (init, fun _ => none) where
  ok := h0
  rep := { list := fun x v h => by cases h
           gone := fun x _ => rfl
           inj := fun x y v w h => by cases h
           used := fun b _ i => hd _
           vars := fun y => rfl }

theorem Reach.inv (B : Follows ρ abs Ok H) (hmk : Makes abs Ok mk) {init : S} (h0 : Ok init) (hd : ∀ l, abs init l = none)
    (h : Reach H mk abs init s) : Inv abs Ok s := by
  induction h with
  | init => exact inv_init h0 hd
  | ret o N es _ hl hN hc ih => have := call_inv B hmk ih o hN hl es; rw [hc] at this; exact this
  | threw o N es e _ hl hN hc ih => have := call_inv B hmk ih o hN hl es; rw [hc] at this; exact this

end

end
end Verif.Vector
