import Verif.Spec.Maps
import Verif.Proofs.VectorLaws

/-! Maps with mapped values of type indirect or polymorphic: what each operation does to maps as values. -/

set_option autoImplicit false
set_option linter.unusedSectionVars false
set_option linter.unusedSimpArgs false

namespace Verif.Maps
open Verif Spec

section
variable {C K S A W I_ J F : Type} [DecidableEq C] [DecidableEq K]
variable {H : Holder (Cell C) S W I_ F} {H' : Holder (Cell C) S W J F} {abs : S → Boxes (Cell C) A W} {Ok : S → Prop}
variable {ρ ρ' : Rules A W} {s : MS C K S} {x y : C} {k : K} {n nx : Nat} {b : Box A W} {m o : Map K}
variable {β : Boxes (Cell C) A W} {g : C → Option (Map K)} {σ : KState C K A W} {mx my : K → Option (Box A W)}

/-! ### Maps -/

theorem find_empty (k : K) : (Map.empty : Map K).find k = none := by simp [Map.find, Map.empty]

theorem find_insert (m : Map K) (k : K) (n : Nat) (k' : K) :
    (m.insert k n).find k' = if k' = k then some n else m.find k' := by
  by_cases h : k' = k
  · subst h; simp [Map.find, Map.insert]
  · simp [Map.find, Map.insert, h, upd_other _ _ h]

theorem find_erase (m : Map K) (k k' : K) : (m.erase k).find k' = if k' = k then none else m.find k' := by
  by_cases h : k' = k <;> simp [Map.find, Map.erase, h]

theorem find_merge (m o : Map K) (k : K) : (m.merge o).find k = match m.find k with
    | some n => some n
    | none => o.find k := by
  by_cases h : k ∈ m.keys <;> simp [Map.find, Map.merge, h]

theorem find_left (m o : Map K) (k : K) : (m.left o).find k = match m.find k with
    | some _ => o.find k
    | none => none := by
  by_cases h : k ∈ m.keys <;> simp [Map.find, Map.left, h]

theorem find_none : m.find k = none ↔ k ∉ m.keys := by by_cases h : k ∈ m.keys <;> simp [Map.find, h]

theorem find_some (h : k ∈ m.keys) : m.find k = some (m.node k) := by simp [Map.find, h]

/-! ### Maps and objects -/

/-- The node of key `k` in map `z`. -/
def pos (g : C → Option (Map K)) (z : C) (k : K) : Option Nat := (g z).bind (·.find k)

theorem pos_of (h : g x = some m) (k : K) : pos g x k = m.find k := by simp [pos, h]

theorem pos_upd (g : C → Option (Map K)) (x : C) (m : Option (Map K)) (z : C) (k : K) :
    pos (upd g x m) z k = if z = x then m.bind (·.find k) else pos g z k := by
  by_cases h : z = x
  · subst h; simp [pos]
  · simp [pos, h, upd_other _ _ h]

/-- The objects of the machine are those in the nodes of the maps. -/
structure Rep (β : Boxes (Cell C) A W) (g : C → Option (Map K)) (nx : Nat) : Prop where
  nodup : ∀ {z m}, g z = some m → m.keys.Nodup
  uniq : ∀ {z k z' k' n}, pos g z k = some n → pos g z' k' = some n → z = z' ∧ k = k'
  live : ∀ n, (β (.node n)).isSome = true ↔ ∃ z k, pos g z k = some n
  bound : ∀ {z k n}, pos g z k = some n → n < nx

theorem KState.ext' {σ τ : KState C K A W} (h1 : σ.maps = τ.maps) (h2 : σ.vars = τ.vars) : σ = τ := by
  cases σ; cases τ; cases h1; cases h2; rfl

theorem Rep.fresh (R : Rep β g nx) (h : nx ≤ n) : β (.node n) = none := by
  cases hb : β (.node n) with
  | none => rfl
  | some b =>
    obtain ⟨z, k, hp⟩ := (R.live n).1 (by simp [hb])
    have := R.bound hp
    omega

theorem Rep.bump (R : Rep β g nx) {nx' : Nat} (h : nx ≤ nx') : Rep β g nx' :=
  ⟨R.nodup, R.uniq, R.live, fun hp => Nat.lt_of_lt_of_le (R.bound hp) h⟩

theorem Rep.obj (R : Rep β g nx) (h : pos g x k = some n) : ∃ b, β (.node n) = some b :=
  Option.isSome_iff_exists.1 ((R.live n).2 ⟨x, k, h⟩)

/-- A map as a value. -/
theorem of_map (h : (kview β g).maps x = some mx) :
    ∃ m, g x = some m ∧ ∀ k, mx k = (m.find k).bind fun n => β (.node n) := by
  cases hg : g x with
  | none => simp [kview, hg] at h
  | some m =>
    simp only [kview, hg, Option.map_some, Option.some.injEq] at h
    exact ⟨m, rfl, fun k => by rw [← h]⟩

theorem of_dead (h : (kview β g).maps x = none) : g x = none := by
  cases hg : g x with
  | none => rfl
  | some m => simp [kview, hg] at h

theorem of_elem (R : Rep β g nx) (hg : g x = some m) (hm : ∀ k, mx k = (m.find k).bind fun n => β (.node n)) (k : K) :
    (mx k = none ∧ m.find k = none) ∨ ∃ n b, mx k = some b ∧ m.find k = some n ∧ β (.node n) = some b := by
  cases hf : m.find k with
  | none => exact .inl ⟨by simp [hm, hf], rfl⟩
  | some n =>
    obtain ⟨b, hb⟩ := R.obj (x := x) (k := k) (n := n) (by rw [pos_of hg, hf])
    exact .inr ⟨n, b, by simp [hm, hf, hb], rfl, hb⟩

theorem rep_var (R : Rep β g nx) (y : C) (b : Box A W) :
    Rep (put β (.var y) b) g nx ∧ kview (put β (.var y) b) g = (kview β g).setVar y (some b) := by
  refine ⟨⟨R.nodup, R.uniq, fun n => by simpa [put] using R.live n, R.bound⟩, KState.ext' ?_ ?_⟩
  · funext z; simp [kview, KState.setVar, put]
  · funext z; simp only [kview, KState.setVar, put, Cell.var.injEq]

theorem rep_dropVar (R : Rep β g nx) (y : C) :
    Rep (drop β (.var y)) g nx ∧ kview (drop β (.var y)) g = (kview β g).setVar y none := by
  refine ⟨⟨R.nodup, R.uniq, fun n => by simpa [drop] using R.live n, R.bound⟩, KState.ext' ?_ ?_⟩
  · funext z; simp [kview, KState.setVar, drop]
  · funext z; simp only [kview, KState.setVar, drop, Cell.var.injEq]

theorem rep_elem (R : Rep β g nx) (h : pos g x k = some n) (b : Box A W) :
    Rep (put β (.node n) b) g nx ∧ kview (put β (.node n) b) g = (kview β g).setAt x k (some b) := by
  refine ⟨⟨R.nodup, R.uniq, fun n' => ?_, R.bound⟩, KState.ext' ?_ ?_⟩
  · by_cases hn : n' = n
    · subst hn; simp only [put, if_true, Option.isSome_some, true_iff]; exact ⟨x, k, h⟩
    · simpa [put, hn] using R.live n'
  · funext z
    cases hg : g z with
    | none =>
      by_cases hz : z = x
      · subst hz; simp [pos, hg] at h
      · simp [kview, KState.setAt, hg, hz]
    | some m =>
      by_cases hz : z = x
      · subst hz
        simp only [kview, KState.setAt, hg, Option.map_some, if_true, Option.some.injEq]
        funext k'
        by_cases hk : k' = k
        · subst hk; rw [pos_of hg] at h; simp [h, put]
        · cases hf : m.find k' with
          | none => simp [hf, hk]
          | some n' =>
            have : n' ≠ n := fun e => hk (R.uniq (by rw [pos_of hg, hf, e]) h).2
            simp [hf, hk, put, this]
      · simp only [kview, KState.setAt, hg, Option.map_some, if_neg hz, Option.some.injEq]
        funext k'
        cases hf : m.find k' with
        | none => simp
        | some n' =>
          have : n' ≠ n := fun e => hz (R.uniq (by rw [pos_of hg, hf, e]) h).1
          simp [put, this]
  · funext z; simp [kview, KState.setAt, put]

theorem rep_insert (R : Rep β g nx) (hg : g x = some m) (hf : m.find k = none) (b : Box A W) {nx' : Nat} (hn : nx ≤ n)
    (hn' : n < nx') : Rep (put β (.node n) b) (upd g x (some (m.insert k n))) nx' ∧
      kview (put β (.node n) b) (upd g x (some (m.insert k n))) = (kview β g).setAt x k (some b) := by
  have hp : ∀ z k', pos (upd g x (some (m.insert k n))) z k' = if z = x ∧ k' = k then some n else pos g z k' := by
    intro z k'
    rw [pos_upd]
    by_cases hz : z = x
    · subst hz; simp [find_insert, pos_of hg]
    · simp [hz]
  have hold : ∀ {z k' n'}, pos g z k' = some n' → n' ≠ n := fun h e => by have := R.bound h; omega
  refine ⟨⟨?_, ?_, ?_, ?_⟩, KState.ext' ?_ ?_⟩
  · intro z m' h
    by_cases hz : z = x
    · subst hz
      simp only [upd_same, Option.some.injEq] at h
      subst h
      simp only [Map.insert]
      have := R.nodup hg
      rw [List.nodup_append]
      refine ⟨this, by simp, ?_⟩
      intro a ha b hb
      simp only [List.mem_singleton] at hb
      subst hb
      rintro rfl
      exact find_none.1 hf ha
    · rw [upd_other _ _ hz] at h; exact R.nodup h
  · intro z k1 z' k2 n' h1 h2
    rw [hp] at h1 h2
    split at h1 <;> split at h2
    · rename_i e1 e2; exact ⟨e1.1.trans e2.1.symm, e1.2.trans e2.2.symm⟩
    · cases h1; exact absurd rfl (hold h2)
    · cases h2; exact absurd rfl (hold h1)
    · exact R.uniq h1 h2
  · intro n'
    by_cases he : n' = n
    · subst he; simp only [put, if_true, Option.isSome_some, true_iff]; exact ⟨x, k, by simp [hp]⟩
    · simp only [put, Cell.node.injEq, if_neg he]
      rw [R.live n']
      constructor
      · rintro ⟨z, k', h⟩
        refine ⟨z, k', ?_⟩
        rw [hp, if_neg, h]
        rintro ⟨rfl, rfl⟩
        rw [pos_of hg, hf] at h; cases h
      · rintro ⟨z, k', h⟩
        rw [hp] at h
        split at h
        · cases h; exact absurd rfl he
        · exact ⟨z, k', h⟩
  · intro z k' n' h
    rw [hp] at h
    split at h
    · cases h; exact hn'
    · have := R.bound h; omega
  · funext z
    by_cases hz : z = x
    · subst hz
      simp only [kview, KState.setAt, upd_same, hg, Option.map_some, if_true, Option.some.injEq]
      funext k'
      rw [find_insert]
      by_cases hk : k' = k
      · simp [hk, put]
      · simp only [hk, if_false]
        cases hf' : m.find k' with
        | none => rfl
        | some n' =>
          have : n' ≠ n := hold (z := z) (k' := k') (by rw [pos_of hg, hf'])
          simp [put, this]
    · simp only [kview, KState.setAt, upd_other _ _ hz, if_neg hz]
      cases hg' : g z with
      | none => rfl
      | some m' =>
        simp only [Option.map_some, Option.some.injEq]
        funext k'
        cases hf' : m'.find k' with
        | none => rfl
        | some n' =>
          have : n' ≠ n := hold (z := z) (k' := k') (by rw [pos_of hg', hf'])
          simp [put, this]
  · funext z; simp [kview, KState.setAt, put]

theorem rep_erase (R : Rep β g nx) (hg : g x = some m) (hf : m.find k = some n) :
    Rep (drop β (.node n)) (upd g x (some (m.erase k))) nx ∧
      kview (drop β (.node n)) (upd g x (some (m.erase k))) = (kview β g).setAt x k none := by
  have hp : ∀ z k', pos (upd g x (some (m.erase k))) z k' = if z = x ∧ k' = k then none else pos g z k' := by
    intro z k'
    rw [pos_upd]
    by_cases hz : z = x
    · subst hz; simp [find_erase, pos_of hg]
    · simp [hz]
  have hx : pos g x k = some n := by rw [pos_of hg, hf]
  refine ⟨⟨?_, ?_, ?_, ?_⟩, KState.ext' ?_ ?_⟩
  · intro z m' h
    by_cases hz : z = x
    · subst hz
      simp only [upd_same, Option.some.injEq] at h
      subst h
      exact (R.nodup hg).filter _
    · rw [upd_other _ _ hz] at h; exact R.nodup h
  · intro z k1 z' k2 n' h1 h2
    rw [hp] at h1 h2
    split at h1
    · cases h1
    · split at h2
      · cases h2
      · exact R.uniq h1 h2
  · intro n'
    by_cases he : n' = n
    · subst he
      simp only [drop, if_true, Option.isSome_none, Bool.false_eq_true, false_iff]
      rintro ⟨z, k', h⟩
      rw [hp] at h
      split at h
      · cases h
      · rename_i hne; exact hne (R.uniq h hx)
    · simp only [drop, Cell.node.injEq, if_neg he]
      rw [R.live n']
      constructor
      · rintro ⟨z, k', h⟩
        refine ⟨z, k', ?_⟩
        rw [hp, if_neg, h]
        rintro ⟨rfl, rfl⟩
        rw [hx] at h; cases h; exact he rfl
      · rintro ⟨z, k', h⟩
        rw [hp] at h
        split at h
        · cases h
        · exact ⟨z, k', h⟩
  · intro z k' n' h
    rw [hp] at h
    split at h
    · cases h
    · exact R.bound h
  · funext z
    by_cases hz : z = x
    · subst hz
      simp only [kview, KState.setAt, upd_same, hg, Option.map_some, if_true, Option.some.injEq]
      funext k'
      rw [find_erase]
      by_cases hk : k' = k
      · simp [hk]
      · simp only [hk, if_false]
        cases hf' : m.find k' with
        | none => rfl
        | some n' =>
          have : n' ≠ n := fun e => hk (R.uniq (z := z) (k := k') (by rw [pos_of hg, hf', e]) hx).2
          simp [drop, this]
    · simp only [kview, KState.setAt, upd_other _ _ hz, if_neg hz]
      cases hg' : g z with
      | none => rfl
      | some m' =>
        simp only [Option.map_some, Option.some.injEq]
        funext k'
        cases hf' : m'.find k' with
        | none => rfl
        | some n' =>
          have : n' ≠ n := fun e => hz (R.uniq (z := z) (k := k') (by rw [pos_of hg', hf', e]) hx).1
          simp [drop, this]
  · funext z; simp [kview, KState.setAt, drop]

/-- Nodes change hands: every node is afterwards where `to` says. -/
theorem rep_relink (R : Rep β g nx) {g' : C → Option (Map K)} (hd : ∀ {z m}, g' z = some m → m.keys.Nodup)
    (from_ : ∀ {z k n}, pos g' z k = some n → ∃ z', pos g z' k = some n ∧ ∀ {z₂ k₂}, pos g' z₂ k₂ = some n → z₂ = z)
    (to : ∀ {z k n}, pos g z k = some n → ∃ z', pos g' z' k = some n) : Rep β g' nx where
  nodup := hd
  uniq h1 h2 := by
    obtain ⟨z1, e1, u1⟩ := from_ h1
    obtain ⟨z2, e2, -⟩ := from_ h2
    exact ⟨(u1 h2).symm, (R.uniq e1 e2).2⟩
  live n := by
    rw [R.live n]
    constructor
    · rintro ⟨z, k, h⟩; obtain ⟨z', h'⟩ := to h; exact ⟨z', k, h'⟩
    · rintro ⟨z, k, h⟩; obtain ⟨z', h', -⟩ := from_ h; exact ⟨z', k, h'⟩
  bound h := by obtain ⟨z', h', -⟩ := from_ h; exact R.bound h'

theorem kview_upd (β : Boxes (Cell C) A W) (g : C → Option (Map K)) (x : C) (m : Option (Map K)) :
    kview β (upd g x m) = (kview β g).setMap x (m.map fun m k => (m.find k).bind fun n => β (.node n)) := by
  refine KState.ext' ?_ rfl
  funext z
  by_cases hz : z = x
  · subst hz; simp [kview, KState.setMap]
  · simp [kview, KState.setMap, hz, upd_other _ _ hz]

/-- A map without elements begins or ceases to exist. -/
theorem rep_hollow (R : Rep β g nx) (hx : ∀ k, pos g x k = none) {m : Option (Map K)} (hm : ∀ m', m = some m' → m'.keys = []) :
    Rep β (upd g x m) nx ∧ kview β (upd g x m) = (kview β g).setMap x (m.map fun _ => noElems) := by
  have hp : ∀ z k, pos (upd g x m) z k = pos g z k := by
    intro z k
    rw [pos_upd]
    split
    · subst_vars
      rw [hx]
      cases m with
      | none => rfl
      | some m' => simp [Map.find, hm m' rfl]
    · rfl
  refine ⟨rep_relink R ?_ ?_ ?_, ?_⟩
  · intro z m' h
    by_cases hz : z = x
    · subst hz; rw [upd_same] at h; rw [hm m' h]; exact List.nodup_nil
    · rw [upd_other _ _ hz] at h; exact R.nodup h
  · intro z k n h
    rw [hp] at h
    refine ⟨z, h, ?_⟩
    intro z2 k2 h2
    rw [hp] at h2
    exact (R.uniq h2 h).1
  · intro z k n h
    exact ⟨z, by rw [hp]; exact h⟩
  · rw [kview_upd]
    congr 1
    cases m with
    | none => rfl
    | some m' =>
      simp only [Option.map_some, Option.some.injEq]
      funext k
      simp [Map.find, hm m' rfl, noElems]

theorem setMap_self (σ : KState C K A W) {m : Option (K → Option (Box A W))} (h : σ.maps x = m) : σ.setMap x m = σ := by
  refine KState.ext' ?_ rfl
  funext z; simp only [KState.setMap]; split <;> simp_all

theorem setMap_setMap (σ : KState C K A W) (x : C) (m m' : Option (K → Option (Box A W))) :
    (σ.setMap x m).setMap x m' = σ.setMap x m' := by
  refine KState.ext' ?_ rfl
  funext z; simp only [KState.setMap]; split <;> rfl

theorem setMap_comm (σ : KState C K A W) (h : x ≠ y) (m m' : Option (K → Option (Box A W))) :
    (σ.setMap x m).setMap y m' = (σ.setMap y m').setMap x m := by
  refine KState.ext' ?_ rfl
  funext z; simp only [KState.setMap]
  by_cases h1 : z = x <;> by_cases h2 : z = y <;> simp_all

theorem setAt_eq (h : σ.maps x = some mx) (k : K) (b : Option (Box A W)) :
    σ.setAt x k b = σ.setMap x (some fun k' => if k' = k then b else mx k') := by
  simp only [KState.setAt, KState.setMap, h, Option.map_some]

/-- Two maps exchange their nodes. -/
theorem rep_swap (R : Rep β g nx) (hx : g x = some m) (hy : g y = some o) :
    Rep β (upd (upd g x (some o)) y (some m)) nx := by
  by_cases hne : x = y
  · subst hne
    rw [hx] at hy; cases hy
    rw [upd_upd, upd_id g x _ hx]; exact R
  · have hp : ∀ z k, pos (upd (upd g x (some o)) y (some m)) z k =
        if z = y then pos g x k else if z = x then pos g y k else pos g z k := by
      intro z k
      rw [pos_upd, pos_upd, pos_of hx, pos_of hy]
      rfl
    refine rep_relink R ?_ ?_ ?_
    · intro z m' h
      by_cases hzy : z = y
      · subst hzy; rw [upd_same] at h; cases h; exact R.nodup hx
      · rw [upd_other _ _ hzy] at h
        by_cases hzx : z = x
        · subst hzx; rw [upd_same] at h; cases h; exact R.nodup hy
        · rw [upd_other _ _ hzx] at h; exact R.nodup h
    · intro z k n h
      have h' := h
      rw [hp] at h'
      refine ⟨if z = y then x else if z = x then y else z, by split <;> simp_all <;> split <;> simp_all, ?_⟩
      intro z2 k2 h2
      rw [hp] at h2
      have hyx : y ≠ x := fun e => hne e.symm
      by_cases a1 : z = y <;> by_cases a2 : z2 = y <;> by_cases a3 : z = x <;> by_cases a4 : z2 = x <;>
        simp only [a1, a2, a3, a4, hne, hyx, if_true, if_false] at h' h2 <;> have := (R.uniq h2 h').1 <;> simp_all
    · intro z k n h
      refine ⟨if z = y then x else if z = x then y else z, ?_⟩
      rw [hp]
      by_cases a1 : z = y
      · subst a1; simp [hne, h]
      · by_cases a2 : z = x
        · subst a2; simp [a1, h]
        · simp [a1, a2, h]

/-- `x`, which has none, gets the nodes of `y`. -/
theorem rep_steal (R : Rep β g nx) (hne : x ≠ y) (hx : ∀ k, pos g x k = none) (hy : g y = some o) :
    Rep β (upd (upd g x (some o)) y (some Map.empty)) nx := by
  have hp : ∀ z k, pos (upd (upd g x (some o)) y (some Map.empty)) z k =
      if z = y then none else if z = x then pos g y k else pos g z k := by
    intro z k
    rw [pos_upd, pos_upd, pos_of hy]
    simp only [Option.bind_some, find_empty]
  refine rep_relink R ?_ ?_ ?_
  · intro z m' h
    by_cases hzy : z = y
    · subst hzy; rw [upd_same] at h; cases h; exact List.nodup_nil
    · rw [upd_other _ _ hzy] at h
      by_cases hzx : z = x
      · subst hzx; rw [upd_same] at h; cases h; exact R.nodup hy
      · rw [upd_other _ _ hzx] at h; exact R.nodup h
  · intro z k n h
    rw [hp] at h
    by_cases a1 : z = y
    · simp [a1] at h
    · by_cases a2 : z = x
      · simp only [a2, hne, if_false, if_true] at h
        refine ⟨y, h, ?_⟩
        intro z2 k2 h2
        rw [hp] at h2
        by_cases b1 : z2 = y
        · simp [b1] at h2
        · by_cases b2 : z2 = x
          · exact b2.trans a2.symm
          · simp only [b1, b2, if_false] at h2; exact absurd (R.uniq h2 h).1 b1
      · simp only [a1, a2, if_false] at h
        refine ⟨z, h, ?_⟩
        intro z2 k2 h2
        rw [hp] at h2
        by_cases b1 : z2 = y
        · simp [b1] at h2
        · by_cases b2 : z2 = x
          · simp only [b2, hne, if_false, if_true] at h2; exact absurd (R.uniq h2 h).1.symm a1
          · simp only [b1, b2, if_false] at h2; exact (R.uniq h2 h).1
  · intro z k n h
    by_cases a1 : z = y
    · subst a1; exact ⟨x, by rw [hp]; simp [hne, h]⟩
    · by_cases a2 : z = x
      · subst a2; rw [hx] at h; cases h
      · exact ⟨z, by rw [hp]; simp [a1, a2, h]⟩

/-- Nodes move from `y` to `x`. -/
theorem rep_merge (R : Rep β g nx) (hne : x ≠ y) (hx : g x = some m) (hy : g y = some o) :
    Rep β (upd (upd g x (some (m.merge o))) y (some (m.left o))) nx := by
  have hp : ∀ z k, pos (upd (upd g x (some (m.merge o))) y (some (m.left o))) z k =
      if z = y then (match pos g x k with | some _ => pos g y k | none => none)
      else if z = x then (match pos g x k with | some n => some n | none => pos g y k) else pos g z k := by
    intro z k
    rw [pos_upd, pos_upd, pos_of hx, pos_of hy]
    simp only [Option.bind_some, find_merge, find_left]
  refine rep_relink R ?_ ?_ ?_
  · intro z m' h
    by_cases hzy : z = y
    · subst hzy; rw [upd_same] at h; cases h; exact (R.nodup hy).filter _
    · rw [upd_other _ _ hzy] at h
      by_cases hzx : z = x
      · subst hzx
        rw [upd_same] at h; cases h
        simp only [Map.merge]
        rw [List.nodup_append]
        refine ⟨R.nodup hx, (R.nodup hy).filter _, ?_⟩
        intro a ha b hb
        rintro rfl
        simp only [List.mem_filter, decide_eq_true_eq] at hb
        exact hb.2 ha
      · rw [upd_other _ _ hzx] at h; exact R.nodup h
  · -- where a node was
    have key : ∀ {z k n}, pos (upd (upd g x (some (m.merge o))) y (some (m.left o))) z k = some n →
        (z = y ∧ pos g y k = some n ∧ (pos g x k).isSome = true) ∨
        (z = x ∧ pos g x k = some n) ∨ (z = x ∧ pos g y k = some n ∧ pos g x k = none) ∨
        (z ≠ x ∧ z ≠ y ∧ pos g z k = some n) := by
      intro z k n h
      rw [hp] at h
      by_cases a1 : z = y
      · simp only [a1, if_true] at h
        cases hq : pos g x k with
        | none => simp [hq] at h
        | some q => exact .inl ⟨a1, by simpa [hq] using h, by simp⟩
      · by_cases a2 : z = x
        · simp only [a2, hne, if_false, if_true] at h
          cases hq : pos g x k with
          | none => exact .inr (.inr (.inl ⟨a2, by simpa [hq] using h, by simp⟩))
          | some q => exact .inr (.inl ⟨a2, by simpa [hq] using h⟩)
        · simp only [a1, a2, if_false] at h
          exact .inr (.inr (.inr ⟨a2, a1, h⟩))
    intro z k n h
    have hz : ∃ z', pos g z' k = some n := by
      rcases key h with ⟨_, h, _⟩ | ⟨_, h⟩ | ⟨_, h, _⟩ | ⟨_, _, h⟩ <;> exact ⟨_, h⟩
    obtain ⟨z', hz'⟩ := hz
    refine ⟨z', hz', ?_⟩
    intro z2 k2 h2
    rcases key h with ⟨e, h, i⟩ | ⟨e, h⟩ | ⟨e, h, i⟩ | ⟨e, e', h⟩ <;>
      rcases key h2 with ⟨f, h2, j⟩ | ⟨f, h2⟩ | ⟨f, h2, j⟩ | ⟨f, f', h2⟩ <;>
      have u := R.uniq h2 h <;> (try obtain ⟨u1, u2⟩ := u) <;> subst_vars <;> simp_all
  · intro z k n h
    by_cases a1 : z = y
    · subst a1
      cases hq : pos g x k with
      | none => exact ⟨x, by rw [hp]; simp [hne, hq, h]⟩
      | some q => exact ⟨z, by rw [hp]; simp [hq, h]⟩
    · by_cases a2 : z = x
      · subst a2; exact ⟨z, by rw [hp]; simp [a1, h]⟩
      · exact ⟨z, by rw [hp]; simp [a1, a2, h]⟩

/-! ### Machine states -/

/-- What holds between operations. -/
structure Inv (abs : S → Boxes (Cell C) A W) (Ok : S → Prop) (s : MS C K S) : Prop where
  ok : Ok s.mach
  rep : Rep (abs s.mach) s.maps s.next

/-- A state with the invariant and these values. -/
def At (abs : S → Boxes (Cell C) A W) (Ok : S → Prop) (σ : KState C K A W) (s : MS C K S) : Prop :=
  Inv abs Ok s ∧ kstate abs s = σ

theorem at_of {t : S} (hm : Ok t) (ha : abs t = β) (h : Rep β g nx ∧ kview β g = σ) : At abs Ok σ ⟨t, g, nx⟩ := by
  subst ha; exact ⟨⟨hm, h.1⟩, h.2⟩

theorem ends_elem {f : M S Unit} {Q E : S → Prop} {Q' E' : MS C K S → Prop} {D : Prop} (h : Ends (f s.mach) Q E D)
    (hq : ∀ t, Q t → Q' { s with mach := t }) (he : ∀ t, E t → E' { s with mach := t }) : Ends (elem f s) Q' E' D := by
  unfold elem
  cases hm : f s.mach with
  | ok u t => rw [hm] at h; exact hq t h
  | threw e t => rw [hm] at h; exact he t h
  | terminated => rw [hm] at h; exact h
  | ub u => rw [hm] at h; exact h
  | diverged => rw [hm] at h; exact h

theorem withMap_eq {f : Map K → M (MS C K S) Unit} (h : s.maps x = some m) : withMap x f s = f m s := by
  simp [withMap, h]

theorem unborn_eq {f : M (MS C K S) Unit} (h : s.maps x = none) : (unborn x >>= fun _ => f) s = f s := by
  show M.andThen (unborn x) _ s = _
  simp [M.andThen, unborn, h]

/-- What an expression refers to, and what becomes of the program if that changes. -/
theorem ref_of (I : Inv abs Ok s) {r : Ref C K} (h : (kstate abs s).get r = some b) :
    ∃ q, (∀ (f : Cell C → M (MS C K S) Unit) nx, withRef r f { s with next := nx } = f q { s with next := nx }) ∧
      abs s.mach q = some b ∧
      (∀ x k n, pos s.maps x k = some n → r ≠ .at x k → .node n ≠ q) ∧
      (∀ b' nx, Rep (abs s.mach) s.maps nx → Rep (put (abs s.mach) q b') s.maps nx) ∧
      ∀ b', kview (put (abs s.mach) q b') s.maps = (kstate abs s).set r b' := by
  cases r with
  | var y => exact ⟨.var y, fun f _ => rfl, h, fun _ _ _ _ _ => by simp, fun b' _ R => (rep_var R y b').1,
      fun b' => (rep_var I.rep y b').2⟩
  | «at» x k =>
    simp only [KState.get, Option.bind_eq_some_iff] at h
    obtain ⟨mx, hmx, hk⟩ := h
    obtain ⟨m, hg, hm⟩ := of_map hmx
    rcases of_elem I.rep hg hm k with ⟨h0, -⟩ | ⟨n, b0, h0, hf, hb⟩
    · rw [h0] at hk; cases hk
    · rw [h0] at hk; cases hk
      have hp : pos s.maps x k = some n := by rw [pos_of hg, hf]
      refine ⟨.node n, fun f nx => ?_, hb, fun x' k' n' hp' hne => ?_, fun b' _ R => (rep_elem R hp b').1,
        fun b' => (rep_elem I.rep hp b').2⟩
      · simp only [withRef]; rw [withMap_eq (s := { s with next := nx }) hg]; simp only [hf]
      · intro e
        cases e
        obtain ⟨rfl, rfl⟩ := I.rep.uniq hp hp'
        exact hne rfl

theorem at_self (I : Inv abs Ok s) : At abs Ok (kstate abs s) s := ⟨I, rfl⟩

/-- A map without elements has no nodes. -/
theorem no_pos (I : Inv abs Ok s) (hx : ∀ m, (kstate abs s).maps x = some m → m = noElems) (k : K) :
    pos s.maps x k = none := by
  cases hg : s.maps x with
  | none => simp [pos, hg]
  | some m =>
    have e := hx _ (show (kview (abs s.mach) s.maps).maps x = some (fun k => (m.find k).bind fun n => abs s.mach (.node n)) by
      simp [kview, hg])
    rcases of_elem I.rep hg (mx := noElems) (fun k => by rw [← e]) k with ⟨-, h⟩ | ⟨n, b, h, -⟩
    · rw [pos_of hg, h]
    · cases h

section ops
variable (B : Follows ρ abs Ok H)
include B

/-- Construction in a node that no map has. -/
theorem construct_ends (I : Inv abs Ok s) (hn : s.next ≤ n) (nx : Nat) (hnx : s.next ≤ nx) (a : Arg C K I_)
    (ha : KArgOk (kstate abs s) a) (e : Env) :
    Ends (construct H n a e { s with next := nx })
      (fun s' => ∃ b σ' β', KArgMade ρ (kstate abs s) b σ' a ∧ Ok s'.mach ∧ abs s'.mach = put β' (.node n) b ∧
        Rep β' s.maps s.next ∧ kview β' s.maps = σ' ∧ s'.maps = s.maps ∧ s'.next = nx)
      (fun s' => ∃ σ', KArgThrew ρ (kstate abs s) σ' a ∧ At abs Ok σ' s') False := by
  have hd := I.rep.fresh hn
  cases a with
  | make i =>
    refine ends_elem (B.make i e I.ok hd) ?_ ?_
    · rintro t ⟨ht, b, hb, h⟩; exact ⟨b, _, abs s.mach, ⟨hb, rfl⟩, ht, h, I.rep, rfl, rfl, rfl⟩
    · rintro t ⟨ht, h⟩; exact ⟨_, rfl, at_of ht h ⟨I.rep.bump hnx, rfl⟩⟩
  | copy r =>
    obtain ⟨c, hc⟩ := ha
    obtain ⟨q, hq, hqc, -, -, -⟩ := ref_of I hc
    simp only [construct]
    rw [hq]
    refine ends_elem (B.copy e I.ok hd hqc) ?_ ?_
    · rintro t ⟨ht, b, hb, h⟩; exact ⟨b, _, abs s.mach, ⟨c, hc, hb, rfl⟩, ht, h, I.rep, rfl, rfl, rfl⟩
    · rintro t ⟨ht, h⟩; exact ⟨_, rfl, at_of ht h ⟨I.rep.bump hnx, rfl⟩⟩
  | move r =>
    obtain ⟨c, hc⟩ := ha
    obtain ⟨q, hq, hqc, -, hrep, hset⟩ := ref_of I hc
    simp only [construct]
    rw [hq]
    refine ends_elem (B.move e I.ok hd hqc) ?_ ?_
    · rintro t ⟨ht, b, w, hb, h⟩
      exact ⟨b, _, _, ⟨c, w, hc, hb, rfl⟩, ht, h, hrep w _ I.rep, hset w, rfl, rfl⟩
    · rintro t ⟨ht, -, w, hw, h⟩
      exact ⟨_, .inr ⟨c, w, hc, hw, rfl⟩, at_of ht h ⟨hrep w _ (I.rep.bump hnx), hset w⟩⟩

theorem threw_self (a : Arg C K I_) (σ : KState C K A W) : KArgThrew ρ σ σ a := by
  cases a
  · exact rfl
  · exact rfl
  · exact .inl rfl

theorem insertNew_ends (I : Inv abs Ok s) (hx : (kstate abs s).maps x = some mx) (hk : mx k = none) (a : Arg C K I_)
    (ha : KArgOk (kstate abs s) a) (c : Ctx) : Ends (insertNew H x k a c s)
      (fun s' => ∃ b σ', KArgMade ρ (kstate abs s) b σ' a ∧ At abs Ok (σ'.setAt x k (some b)) s')
      (fun s' => ∃ σ', KArgThrew ρ (kstate abs s) σ' a ∧ At abs Ok σ' s') False := by
  obtain ⟨m, hg, hm⟩ := of_map hx
  have hf : m.find k = none := by
    rcases of_elem I.rep hg hm k with ⟨-, h⟩ | ⟨n, b, h, -⟩
    · exact h
    · rw [hk] at h; cases h
  unfold insertNew allocNode
  cases hc : c.fails 0 with
  | true => exact ⟨_, threw_self B a _, at_self I⟩
  | false =>
    simp only [Bool.false_eq_true, if_false]
    refine Ends.bind (construct_ends B I (Nat.le_refl _) (s.next + 1) (Nat.le_succ _) a ha (c.env 0)) ?_
    rintro ⟨t, g', nx'⟩ ⟨b, σ', β', h1, h2, h3, h4, h5, h6, h7⟩
    dsimp only at h2 h3 h6 h7
    subst h6 h7
    rw [withMap_eq (s := ⟨t, s.maps, s.next + 1⟩) hg]
    have := rep_insert h4 hg hf b (Nat.le_refl _) (Nat.lt_succ_self _)
    rw [h5] at this
    exact ⟨b, σ', h1, at_of h2 h3 this⟩

/-- Construction in vain. -/
theorem discard_ends (I : Inv abs Ok s) (a : Arg C K I_) (ha : KArgOk (kstate abs s) a) (c : Ctx) :
    Ends (allocNode (c.fails 0) (fun n => do
        construct H n a (c.env 0)
        elem (H.destroy (.node n) (c.env 1))) s)
      (fun s' => ∃ b σ', KArgMade ρ (kstate abs s) b σ' a ∧ At abs Ok σ' s')
      (fun s' => ∃ σ', KArgThrew ρ (kstate abs s) σ' a ∧ At abs Ok σ' s') False := by
  unfold allocNode
  cases hc : c.fails 0 with
  | true => exact ⟨_, threw_self B a _, at_self I⟩
  | false =>
    simp only [Bool.false_eq_true, if_false]
    refine Ends.bind (construct_ends B I (Nat.le_refl _) (s.next + 1) (Nat.le_succ _) a ha (c.env 0)) ?_
    rintro ⟨t, g', nx'⟩ ⟨b, σ', β', h1, h2, h3, h4, h5, h6, h7⟩
    dsimp only at h2 h3 h6 h7
    subst h6 h7
    refine ends_elem (s := ⟨t, s.maps, s.next + 1⟩) (B.destroy (b := b) (c.env 1) h2 (by rw [h3]; simp [put])) ?_
      (fun _ h => h.elim)
    rintro t' ⟨ht', h'⟩
    refine ⟨b, σ', h1, at_of (β := β') ht' ?_ ⟨h4.bump (Nat.le_succ _), h5⟩⟩
    rw [h', h3]
    have := h4.fresh (Nat.le_refl _)
    funext l
    simp only [drop, put]
    split
    · subst_vars; exact this.symm
    · rfl

theorem tryEmplace_ends (I : Inv abs Ok s) (hx : (kstate abs s).maps x = some mx) (a : Arg C K I_)
    (ha : KArgOk (kstate abs s) a) (c : Ctx) : Ends (tryEmplace H x k a c s)
      (fun s' => match mx k with
        | some _ => s' = s
        | none => ∃ b σ', KArgMade ρ (kstate abs s) b σ' a ∧ At abs Ok (σ'.setAt x k (some b)) s')
      (fun s' => mx k = none ∧ ∃ σ', KArgThrew ρ (kstate abs s) σ' a ∧ At abs Ok σ' s') False := by
  obtain ⟨m, hg, hm⟩ := of_map hx
  unfold tryEmplace
  rw [withMap_eq hg]
  rcases of_elem I.rep hg hm k with ⟨h1, h2⟩ | ⟨n, b, h1, h2, h3⟩
  · simp only [h1, h2]
    exact (insertNew_ends B I hx h1 a ha c).mono (fun _ h => h) (fun _ h => ⟨trivial, h⟩) (fun h => h)
  · simp only [h1, h2]; exact rfl

theorem emplace_ends (I : Inv abs Ok s) (hx : (kstate abs s).maps x = some mx) (a : Arg C K I_)
    (ha : KArgOk (kstate abs s) a) (c : Ctx) : Ends (emplace H x k a c s)
      (fun s' => match mx k with
        | some _ => s' = s ∨ ∃ b σ', KArgMade ρ (kstate abs s) b σ' a ∧ At abs Ok σ' s'
        | none => ∃ b σ', KArgMade ρ (kstate abs s) b σ' a ∧ At abs Ok (σ'.setAt x k (some b)) s')
      (fun s' => ∃ σ', KArgThrew ρ (kstate abs s) σ' a ∧ At abs Ok σ' s') False := by
  obtain ⟨m, hg, hm⟩ := of_map hx
  unfold emplace
  rw [withMap_eq hg]
  rcases of_elem I.rep hg hm k with ⟨h1, h2⟩ | ⟨n, b, h1, h2, h3⟩
  · simp only [h1, h2]
    exact insertNew_ends B I hx h1 a ha c
  · simp only [h1, h2]
    split
    · exact (discard_ends B I a ha c).mono (fun _ h => .inr h) (fun _ h => h) (fun h => h)
    · exact .inl rfl

theorem insertOrAssign_new (I : Inv abs Ok s) (hx : (kstate abs s).maps x = some mx) (hk : mx k = none) (mv : Bool)
    {r : Ref C K} {d : Box A W} (hr : (kstate abs s).get r = some d) (c : Ctx) : Ends (insertOrAssign H x k mv r c s)
      (fun s' => ∃ b σ', KArgMade ρ (kstate abs s) b σ' (if mv then .move r else .copy r : Arg C K I_) ∧
        At abs Ok (σ'.setAt x k (some b)) s')
      (fun s' => ∃ σ', KArgThrew ρ (kstate abs s) σ' (if mv then .move r else .copy r : Arg C K I_) ∧ At abs Ok σ' s')
      False := by
  obtain ⟨m, hg, hm⟩ := of_map hx
  unfold insertOrAssign
  rw [withMap_eq hg]
  rcases of_elem I.rep hg hm k with ⟨h1, h2⟩ | ⟨n, b, h1, h2, h3⟩
  · simp only [h2]
    exact insertNew_ends B I hx hk _ (by cases mv <;> exact ⟨d, hr⟩) c
  · rw [hk] at h1; cases h1

theorem insertOrAssign_copy (I : Inv abs Ok s) (hx : (kstate abs s).maps x = some mx) {a d : Box A W} (hk : mx k = some a)
    {r : Ref C K} (hne : r ≠ .at x k) (hr : (kstate abs s).get r = some d) (c : Ctx) :
    Ends (insertOrAssign H x k false r c s)
      (fun s' => ∃ a', ρ.Assign a d a' ∧ At abs Ok ((kstate abs s).setAt x k (some a')) s')
      (fun s' => ∃ a', ρ.AssignThrew a a' ∧ At abs Ok ((kstate abs s).setAt x k (some a')) s') False := by
  obtain ⟨m, hg, hm⟩ := of_map hx
  unfold insertOrAssign
  rw [withMap_eq hg]
  rcases of_elem I.rep hg hm k with ⟨h1, h2⟩ | ⟨n, b, h1, h2, h3⟩
  · rw [hk] at h1; cases h1
  · rw [hk] at h1; cases h1
    simp only [h2]
    obtain ⟨q, hq, hqc, hqn, -, -⟩ := ref_of I hr
    have hp : pos s.maps x k = some n := by rw [pos_of hg, h2]
    rw [show withRef r _ s = _ from hq _ s.next]
    refine ends_elem (B.assignCopy (c.env 0) I.ok (hqn x k n hp hne) h3 hqc) ?_ ?_
    · rintro t ⟨ht, a', h, h'⟩; exact ⟨a', h, at_of ht h' (rep_elem I.rep hp a')⟩
    · rintro t ⟨ht, a', h, h'⟩; exact ⟨a', h, at_of ht h' (rep_elem I.rep hp a')⟩

theorem insertOrAssign_move (I : Inv abs Ok s) (hx : (kstate abs s).maps x = some mx) {a d : Box A W} (hk : mx k = some a)
    {r : Ref C K} (hne : r ≠ .at x k) (hr : (kstate abs s).get r = some d) (c : Ctx) :
    Ends (insertOrAssign H x k true r c s)
      (fun s' => ∃ a' d', ρ.MoveAssign a d a' d' ∧ At abs Ok (((kstate abs s).set r d').setAt x k (some a')) s')
      (fun s' => ∃ d', ρ.MoveAssignThrew a d d' ∧ At abs Ok ((kstate abs s).set r d') s') (ρ.Terminates a d) := by
  obtain ⟨m, hg, hm⟩ := of_map hx
  unfold insertOrAssign
  rw [withMap_eq hg]
  rcases of_elem I.rep hg hm k with ⟨h1, h2⟩ | ⟨n, b, h1, h2, h3⟩
  · rw [hk] at h1; cases h1
  · rw [hk] at h1; cases h1
    simp only [h2]
    obtain ⟨q, hq, hqc, hqn, hrep, hset⟩ := ref_of I hr
    have hp : pos s.maps x k = some n := by rw [pos_of hg, h2]
    rw [show withRef r _ s = _ from hq _ s.next]
    refine ends_elem (B.assignMove (c.env 0) I.ok (hqn x k n hp hne) h3 hqc) ?_ ?_
    · rintro t ⟨ht, a', d', h, h'⟩
      have := rep_elem (hrep d' _ I.rep) hp a'
      rw [hset] at this
      exact ⟨a', d', h, at_of ht h' this⟩
    · rintro t ⟨ht, d', h, h'⟩; exact ⟨d', h, at_of ht h' ⟨hrep d' _ I.rep, hset d'⟩⟩

/-- The other maps have the nodes that they had. -/
def Others (x : C) (s s' : MS C K S) : Prop := ∀ z, z ≠ x → s'.maps z = s.maps z

theorem erase_ends' (I : Inv abs Ok s) (hx : (kstate abs s).maps x = some mx) (k : K) (e : Env) :
    Ends (erase H x k e s) (fun s' => Others x s s' ∧
        At abs Ok ((kstate abs s).setMap x (some fun k' => if k' = k then none else mx k')) s')
      (fun _ => False) False := by
  obtain ⟨m, hg, hm⟩ := of_map hx
  unfold erase
  rw [withMap_eq hg]
  rcases of_elem I.rep hg hm k with ⟨h1, h2⟩ | ⟨n, b, h1, h2, h3⟩
  · simp only [h2]
    refine ⟨fun _ _ => rfl, I, (setMap_self _ ?_).symm⟩
    rw [hx]
    congr 1
    funext k'
    split
    · subst_vars; exact h1
    · rfl
  · simp only [h2]
    refine Ends.bind (P := fun s' => (Ok s'.mach ∧ abs s'.mach = drop (abs s.mach) (.node n)) ∧ s'.maps = s.maps ∧ s'.next = s.next)
      (ends_elem (B.destroy e I.ok h3) (fun t ht => ⟨ht, rfl, rfl⟩) (fun _ h => h)) ?_
    rintro ⟨t, g', nx'⟩ ⟨⟨ht, ha⟩, rfl, rfl⟩
    have := rep_erase I.rep hg h2
    rw [show kview (abs s.mach) s.maps = kstate abs s from rfl, setAt_eq hx] at this
    exact ⟨fun z hz => upd_other _ _ hz, at_of ht ha this⟩

theorem erase_ends (I : Inv abs Ok s) (hx : (kstate abs s).maps x = some mx) (k : K) (e : Env) :
    Ends (erase H x k e s) (At abs Ok ((kstate abs s).setMap x (some fun k' => if k' = k then none else mx k')))
      (fun _ => False) False :=
  (erase_ends' B I hx k e).mono (fun _ h => h.2) (fun _ h => h) (fun h => h)

theorem eraseAll_ends (ks : List K) (e : Nat → Env) : ∀ {s : MS C K S} {mx : K → Option (Box A W)}, Inv abs Ok s →
    (kstate abs s).maps x = some mx → Ends (eraseAll H x e ks s)
      (fun s' => Others x s s' ∧ At abs Ok ((kstate abs s).setMap x (some fun k => if k ∈ ks then none else mx k)) s')
      (fun _ => False) False := by
  induction ks with
  | nil =>
    intro s mx I hx
    exact ⟨fun _ _ => rfl, I, (setMap_self _ (by simpa using hx)).symm⟩
  | cons k ks ih =>
    intro s mx I hx
    refine Ends.bind (erase_ends' B I hx k (e ks.length)) ?_
    rintro s' ⟨f', I', h'⟩
    have hx' : (kstate abs s').maps x = some fun k' => if k' = k then none else mx k' := by rw [h']; simp [KState.setMap]
    refine (ih I' hx').mono ?_ (fun _ h => h) (fun h => h)
    rintro s'' ⟨f'', h''⟩
    rw [h', setMap_setMap] at h''
    refine ⟨fun z hz => (f'' z hz).trans (f' z hz), ?_⟩
    have : (fun k' => if k' ∈ ks then none else if k' = k then none else mx k') =
        (fun k' => if k' ∈ k :: ks then none else mx k') := by
      funext k'
      by_cases h1 : k' ∈ ks <;> by_cases h2 : k' = k <;> simp [h1, h2]
    rwa [this] at h''

theorem clear_ends' (I : Inv abs Ok s) (hx : (kstate abs s).maps x = some mx) (e : Nat → Env) :
    Ends (clear H x e s) (fun s' => Others x s s' ∧ At abs Ok ((kstate abs s).setMap x (some noElems)) s')
      (fun _ => False) False := by
  obtain ⟨m, hg, hm⟩ := of_map hx
  unfold clear
  rw [withMap_eq hg]
  refine (eraseAll_ends B m.keys e I hx).mono ?_ (fun _ h => h) (fun h => h)
  rintro s' ⟨f', h'⟩
  have : (fun k => if k ∈ m.keys then none else mx k) = (noElems : K → Option (Box A W)) := by
    funext k
    split
    · rfl
    · rename_i hk; rw [hm, find_none.2 hk]; rfl
  rw [this] at h'
  exact ⟨f', h'⟩

theorem clear_ends (I : Inv abs Ok s) (hx : (kstate abs s).maps x = some mx) (e : Nat → Env) :
    Ends (clear H x e s) (At abs Ok ((kstate abs s).setMap x (some noElems))) (fun _ => False) False :=
  (clear_ends' B I hx e).mono (fun _ h => h.2) (fun _ h => h) (fun h => h)

/-- The storage of a map without elements is free afterwards. -/
theorem gone_at {τ : KState C K A W} (h : At abs Ok (τ.setMap x (some noElems)) s) :
    Ends (setMap x none s) (At abs Ok (τ.setMap x none)) (fun _ => False) False := by
  obtain ⟨I, h⟩ := h
  have hp := no_pos I (x := x) (by rw [h]; simp [KState.setMap])
  have := rep_hollow I.rep hp (m := none) (by simp)
  refine ⟨⟨I.ok, this.1⟩, ?_⟩
  show kview _ _ = _
  rw [this.2]
  show (kstate abs s).setMap x none = _
  rw [h, setMap_setMap]

/-- A map begins to exist. -/
theorem born_at (I : Inv abs Ok s) (hx : (kstate abs s).maps x = none) :
    Ends (setMap x (some Map.empty) s) (At abs Ok ((kstate abs s).setMap x (some noElems))) (fun _ => False) False :=
  at_of I.ok rfl (rep_hollow I.rep (no_pos I (x := x) (by simp [hx])) (m := some Map.empty) (by simp [Map.empty]))

theorem copyAll_ends (hne : x ≠ y) (env : Nat → Env) (fails : Nat → Bool) (ks : List K) :
    ∀ {s : MS C K S} {mx : K → Option (Box A W)}, Inv abs Ok s → (kstate abs s).maps x = some mx →
      (kstate abs s).maps y = some my → ks.Nodup → (∀ k ∈ ks, mx k = none ∧ ∃ b, my k = some b) →
      Ends (copyAll H x y env fails ks s)
        (fun s' => ∃ mx', (∀ k, if k ∈ ks then ∃ b b', my k = some b ∧ ρ.Copy b b' ∧ mx' k = some b' else mx' k = mx k) ∧
          At abs Ok ((kstate abs s).setMap x (some mx')) s')
        (fun s' => ∃ mx', At abs Ok ((kstate abs s).setMap x (some mx')) s') False := by
  induction ks with
  | nil =>
    intro s mx I hx hy _ _
    exact ⟨mx, by simp, I, (setMap_self _ hx).symm⟩
  | cons k ks ih =>
    intro s mx I hx hy hnd hks
    obtain ⟨h0, b, hb⟩ := hks k (by simp)
    have hget : (kstate abs s).get (.at y k) = some b := by simp [KState.get, hy, hb]
    refine Ends.bind (P := fun s' => ∃ b', ρ.Copy b b' ∧ At abs Ok ((kstate abs s).setAt x k (some b')) s') ?_ ?_
    · refine (insertNew_ends B I hx h0 (.copy (.at y k)) ⟨b, hget⟩ _).mono ?_ ?_ (fun h => h)
      · rintro s' ⟨b', σ', ⟨c, hc, hcb, rfl⟩, h⟩
        rw [hget] at hc; cases hc
        exact ⟨b', hcb, h⟩
      · rintro s' ⟨σ', rfl, h⟩
        exact ⟨mx, by rwa [setMap_self _ hx]⟩
    · rintro s' ⟨b', hb', I', h'⟩
      rw [setAt_eq hx] at h'
      have hx' : (kstate abs s').maps x = some fun k' => if k' = k then some b' else mx k' := by rw [h']; simp [KState.setMap]
      have hy' : (kstate abs s').maps y = some my := by rw [h']; simp [KState.setMap, Ne.symm hne, hy]
      rw [List.nodup_cons] at hnd
      refine (ih I' hx' hy' hnd.2 ?_).mono ?_ ?_ (fun h => h)
      · intro k' hk'
        have : k' ≠ k := fun e => hnd.1 (e ▸ hk')
        simpa [this] using hks k' (by simp [hk'])
      · rintro s'' ⟨mx', h1, h2⟩
        rw [h', setMap_setMap] at h2
        refine ⟨mx', fun k' => ?_, h2⟩
        have := h1 k'
        by_cases hk' : k' ∈ ks
        · simpa [hk'] using this
        · by_cases e : k' = k
          · subst e
            simp only [hk', if_false, if_true] at this
            simp only [List.mem_cons, true_or, if_true]
            exact ⟨b, b', hb, hb', this⟩
          · simpa [hk', e] using this
      · rintro s'' ⟨mx', h2⟩
        rw [h', setMap_setMap] at h2
        exact ⟨mx', h2⟩

/-- All elements of `y` are copied to `x`, which has none. -/
theorem copyAll_all (I : Inv abs Ok s) (hne : x ≠ y) (hx : (kstate abs s).maps x = some noElems)
    (hy : (kstate abs s).maps y = some my) (hg : s.maps y = some o) (env : Nat → Env) (fails : Nat → Bool) :
    Ends (copyAll H x y env fails o.keys s)
      (fun s' => ∃ mx', MapCopy ρ my mx' ∧ At abs Ok ((kstate abs s).setMap x (some mx')) s')
      (fun s' => ∃ mx', At abs Ok ((kstate abs s).setMap x (some mx')) s') False := by
  obtain ⟨o', hg', hm⟩ := of_map hy
  rw [hg] at hg'; cases hg'
  refine (copyAll_ends B hne env fails o.keys I hx hy (I.rep.nodup hg) ?_).mono ?_ (fun _ h => h) (fun h => h)
  · intro k hk
    refine ⟨rfl, ?_⟩
    rcases of_elem I.rep hg hm k with ⟨-, h⟩ | ⟨n, b, h, -⟩
    · exact absurd hk (find_none.1 h)
    · exact ⟨b, h⟩
  · rintro s' ⟨mx', h1, h2⟩
    refine ⟨mx', fun k => ?_, h2⟩
    have := h1 k
    by_cases hk : k ∈ o.keys
    · simp only [hk, if_true] at this
      obtain ⟨b, b', e1, e2, e3⟩ := this
      simp only [e1]
      exact ⟨b', e2, e3⟩
    · simp only [hk, if_false] at this
      have e : my k = none := by rw [hm, find_none.2 hk]; rfl
      simp only [e]
      exact this

variable (B' : Follows ρ' abs Ok H')

theorem empty_ends (I : Inv abs Ok s) (hx : (kstate abs s).maps x = none) (c : Ctx) :
    Ends (call H H' (.empty x) c s) (At abs Ok ((kstate abs s).setMap x (some noElems))) (fun _ => False) False := by
  simp only [call]
  rw [unborn_eq (of_dead hx)]
  exact born_at B I hx

theorem copy_ends (I : Inv abs Ok s) (hx : (kstate abs s).maps x = none) (hy : (kstate abs s).maps y = some my) (c : Ctx) :
    Ends (call H H' (.copy x y) c s)
      (fun s' => ∃ mx, MapCopy ρ my mx ∧ At abs Ok ((kstate abs s).setMap x (some mx)) s')
      (At abs Ok (kstate abs s)) False := by
  have hne : x ≠ y := by rintro rfl; rw [hx] at hy; cases hy
  obtain ⟨o, hg, hm⟩ := of_map hy
  simp only [call]
  rw [unborn_eq (of_dead hx), withMap_eq hg]
  refine Ends.bind (P := fun s' => At abs Ok ((kstate abs s).setMap x (some noElems)) s' ∧ s'.maps y = some o) ?_ ?_
  · refine ⟨born_at B I hx, ?_⟩
    show upd s.maps x _ y = _
    rw [upd_other _ _ (Ne.symm hne), hg]
  · rintro s' ⟨⟨I', h'⟩, hg'⟩
    have hx' : (kstate abs s').maps x = some noElems := by rw [h']; simp [KState.setMap]
    have hy' : (kstate abs s').maps y = some my := by rw [h']; simp [KState.setMap, Ne.symm hne, hy]
    refine Ends.onThrow (P := fun s' => ∃ mx', At abs Ok ((kstate abs s).setMap x (some mx')) s')
      ((copyAll_all B I' hne hx' hy' hg' c.env c.fails).mono ?_ ?_ (fun h => h)) ?_
    · rintro s'' ⟨mx', h1, h2⟩; rw [h', setMap_setMap] at h2; exact ⟨mx', h1, h2⟩
    · rintro s'' ⟨mx', h2⟩; rw [h', setMap_setMap] at h2; exact ⟨mx', h2⟩
    · rintro s'' ⟨mx', I2, h2⟩
      refine Ends.bind (P := At abs Ok ((kstate abs s).setMap x (some noElems)))
        ((clear_ends B I2 (mx := mx') (by rw [h2]; simp [KState.setMap]) c.env).mono ?_ (fun _ h => h) (fun h => h)) ?_
      · intro t ht; rwa [h2, setMap_setMap] at ht
      · intro t ht
        have := gone_at B ht
        rwa [setMap_self _ hx] at this

theorem move_ends (I : Inv abs Ok s) (hx : (kstate abs s).maps x = none) (hy : (kstate abs s).maps y = some my) (c : Ctx) :
    Ends (call H H' (.move x y) c s)
      (fun s' => s'.mach = s.mach ∧ At abs Ok (((kstate abs s).setMap x (some my)).setMap y (some noElems)) s')
      (fun _ => False) False := by
  have hne : x ≠ y := by rintro rfl; rw [hx] at hy; cases hy
  obtain ⟨o, hg, hm⟩ := of_map hy
  simp only [call]
  rw [unborn_eq (of_dead hx), withMap_eq hg]
  refine ⟨rfl, ⟨I.ok, rep_steal I.rep hne (no_pos I (by simp [hx])) hg⟩, ?_⟩
  show kview _ _ = _
  rw [kview_upd, kview_upd]
  simp only [Option.map_some, find_empty]
  rw [show (fun k => (o.find k).bind fun n => abs s.mach (.node n)) = my from funext fun k => (hm k).symm]
  rfl

theorem destroy_ends (I : Inv abs Ok s) (hx : (kstate abs s).maps x = some mx) (c : Ctx) :
    Ends (call H H' (.destroy x) c s) (At abs Ok ((kstate abs s).setMap x none)) (fun _ => False) False := by
  refine Ends.bind (clear_ends B I hx c.env) ?_
  intro t ht
  exact gone_at B ht

theorem assignCopy_self (hx : (kstate abs s).maps x = some mx) (c : Ctx) : call H H' (.assignCopy x x) c s = .ok () s := by
  obtain ⟨m, hg, -⟩ := of_map hx
  simp only [call, if_true]
  rw [withMap_eq hg]; rfl

theorem assignCopy_ends (I : Inv abs Ok s) (hne : x ≠ y) (hx : (kstate abs s).maps x = some mx)
    (hy : (kstate abs s).maps y = some my) (c : Ctx) : Ends (call H H' (.assignCopy x y) c s)
      (fun s' => ∃ mx', MapCopy ρ my mx' ∧ At abs Ok ((kstate abs s).setMap x (some mx')) s')
      (At abs Ok ((kstate abs s).setMap x (some noElems))) False := by
  obtain ⟨o, hg, hm⟩ := of_map hy
  simp only [call, if_neg hne]
  rw [withMap_eq hg]
  refine Ends.bind (P := fun s' => At abs Ok ((kstate abs s).setMap x (some noElems)) s' ∧ s'.maps y = some o) ?_ ?_
  · refine (clear_ends' B I hx c.env).mono ?_ (fun _ h => h.elim) (fun h => h)
    rintro s' ⟨f', h'⟩
    exact ⟨h', (f' y (Ne.symm hne)).trans hg⟩
  · rintro s' ⟨⟨I', h'⟩, hg'⟩
    have hx' : (kstate abs s').maps x = some noElems := by rw [h']; simp [KState.setMap]
    have hy' : (kstate abs s').maps y = some my := by rw [h']; simp [KState.setMap, Ne.symm hne, hy]
    refine Ends.onThrow (P := fun s' => ∃ mx', At abs Ok ((kstate abs s).setMap x (some mx')) s')
      ((copyAll_all B I' hne hx' hy' hg' c.env c.fails).mono ?_ ?_ (fun h => h)) ?_
    · rintro s'' ⟨mx', h1, h2⟩; rw [h', setMap_setMap] at h2; exact ⟨mx', h1, h2⟩
    · rintro s'' ⟨mx', h2⟩; rw [h', setMap_setMap] at h2; exact ⟨mx', h2⟩
    · rintro s'' ⟨mx', I2, h2⟩
      refine (clear_ends B I2 (mx := mx') (by rw [h2]; simp [KState.setMap]) c.env).mono ?_ (fun _ h => h) (fun h => h)
      intro t ht; rwa [h2, setMap_setMap] at ht

theorem assignMove_ends (I : Inv abs Ok s) (hne : x ≠ y) (hx : (kstate abs s).maps x = some mx)
    (hy : (kstate abs s).maps y = some my) (c : Ctx) : Ends (call H H' (.assignMove x y) c s)
      (At abs Ok (((kstate abs s).setMap x (some my)).setMap y (some noElems))) (fun _ => False) False := by
  obtain ⟨o, hg, hm⟩ := of_map hy
  simp only [call]
  rw [withMap_eq hg]
  refine Ends.bind (clear_ends' B I hx c.env) ?_
  rintro s' ⟨f', I', h'⟩
  have hg' : s'.maps y = some o := (f' y (Ne.symm hne)).trans hg
  have hy' : (kstate abs s').maps y = some my := by rw [h']; simp [KState.setMap, Ne.symm hne, hy]
  obtain ⟨o', ho', hm'⟩ := of_map hy'
  rw [hg'] at ho'; cases ho'
  refine ⟨⟨I'.ok, rep_steal I'.rep hne (no_pos I' (x := x) (by rw [h']; simp [KState.setMap])) hg'⟩, ?_⟩
  show kview _ _ = _
  rw [kview_upd, kview_upd]
  simp only [Option.map_some, find_empty]
  rw [show (fun k => (o.find k).bind fun n => abs s'.mach (.node n)) = my from funext fun k => (hm' k).symm]
  show ((kstate abs s').setMap x _).setMap y _ = _
  rw [h', setMap_setMap]
  rfl

theorem swap_ends (I : Inv abs Ok s) (hx : (kstate abs s).maps x = some mx) (hy : (kstate abs s).maps y = some my)
    (c : Ctx) : Ends (call H H' (.swap x y) c s)
      (fun s' => s'.mach = s.mach ∧ At abs Ok (((kstate abs s).setMap x (some my)).setMap y (some mx)) s')
      (fun _ => False) False := by
  obtain ⟨m, hf, hm⟩ := of_map hx
  obtain ⟨o, hg, ho⟩ := of_map hy
  simp only [call]
  rw [withMap_eq hf, withMap_eq hg]
  refine ⟨rfl, ⟨I.ok, rep_swap I.rep hf hg⟩, ?_⟩
  show kview _ _ = _
  rw [kview_upd, kview_upd]
  simp only [Option.map_some]
  rw [show (fun k => (o.find k).bind fun n => abs s.mach (.node n)) = my from funext fun k => (ho k).symm,
    show (fun k => (m.find k).bind fun n => abs s.mach (.node n)) = mx from funext fun k => (hm k).symm]
  rfl

theorem merge_self (hx : (kstate abs s).maps x = some mx) (c : Ctx) : call H H' (.merge x x) c s = .ok () s := by
  obtain ⟨m, hg, -⟩ := of_map hx
  simp only [call, if_true]
  rw [withMap_eq hg]; rfl

theorem merge_ends (I : Inv abs Ok s) (hne : x ≠ y) (hx : (kstate abs s).maps x = some mx)
    (hy : (kstate abs s).maps y = some my) (c : Ctx) : Ends (call H H' (.merge x y) c s)
      (fun s' => s'.mach = s.mach ∧
        At abs Ok (((kstate abs s).setMap x (some (merged mx my))).setMap y (some (unmerged mx my))) s')
      (fun _ => False) False := by
  obtain ⟨m, hf, hm⟩ := of_map hx
  obtain ⟨o, hg, ho⟩ := of_map hy
  simp only [call, if_neg hne]
  rw [withMap_eq hf, withMap_eq hg]
  refine ⟨rfl, ⟨I.ok, rep_merge I.rep hne hf hg⟩, ?_⟩
  show kview _ _ = _
  rw [kview_upd, kview_upd]
  simp only [Option.map_some]
  have e1 : (fun k => ((m.merge o).find k).bind fun n => abs s.mach (.node n)) = merged mx my := by
    funext k
    rw [find_merge]
    rcases of_elem I.rep hf hm k with ⟨h1, h2⟩ | ⟨n, b, h1, h2, h3⟩
    · simp only [merged, h1, h2, ho]
    · simp only [merged, h1, h2, Option.bind_some, h3]
  have e2 : (fun k => ((m.left o).find k).bind fun n => abs s.mach (.node n)) = unmerged mx my := by
    funext k
    rw [find_left]
    rcases of_elem I.rep hf hm k with ⟨h1, h2⟩ | ⟨n, b, h1, h2, h3⟩
    · simp only [unmerged, h1, h2, Option.bind_none]
    · simp only [unmerged, h1, h2, ho]
  rw [e1, e2]
  rfl

theorem modify_ends (I : Inv abs Ok s) {r : Ref C K} {a : A} {v : W} (h : (kstate abs s).get r = some ⟨a, some v⟩) (f : F)
    (c : Ctx) : Ends (call H H' (.modify r f) c s) (At abs Ok ((kstate abs s).set r ⟨a, some (H.app f v)⟩))
      (fun _ => False) False := by
  obtain ⟨q, hq, hqc, -, hrep, hset⟩ := ref_of I h
  simp only [call]
  rw [show withRef r _ s = _ from hq _ s.next]
  refine ends_elem (B.modify f (c.env 0) I.ok hqc) ?_ (fun _ h => h)
  rintro t ⟨ht, ha⟩
  exact at_of ht ha ⟨hrep _ _ I.rep, hset _⟩

omit B
include B'

theorem make_ends (I : Inv abs Ok s) (hy : (kstate abs s).vars y = none) (j : J) (c : Ctx) :
    Ends (call H H' (.make y j) c s)
      (fun s' => ∃ b, ρ'.Make b ∧ At abs Ok ((kstate abs s).setVar y (some b)) s') (At abs Ok (kstate abs s)) False := by
  refine ends_elem (B'.make j (c.env 0) I.ok hy) ?_ ?_
  · rintro t ⟨ht, b, hb, ha⟩; exact ⟨b, hb, at_of ht ha (rep_var I.rep y _)⟩
  · rintro t ⟨ht, ha⟩; exact at_of ht ha ⟨I.rep, rfl⟩

theorem destroyVar_ends (I : Inv abs Ok s) (hy : (kstate abs s).vars y = some b) (c : Ctx) :
    Ends (call H H' (.destroyVar y) c s) (At abs Ok ((kstate abs s).setVar y none)) (fun _ => False) False := by
  refine ends_elem (B'.destroy (c.env 0) I.ok hy) ?_ (fun _ h => h)
  rintro t ⟨ht, ha⟩; exact at_of ht ha (rep_dropVar I.rep y)

theorem take_missing (I : Inv abs Ok s) (hx : (kstate abs s).maps x = some mx) (hk : mx k = none) (mv : Bool) (c : Ctx) :
    call H H' (.take y mv x k) c s = .threw (.user 0) s := by
  obtain ⟨m, hg, hm⟩ := of_map hx
  simp only [call, withRef]
  rw [withMap_eq hg]
  rcases of_elem I.rep hg hm k with ⟨h1, h2⟩ | ⟨n, b, h1, h2, h3⟩
  · simp only [h2]; rfl
  · rw [hk] at h1; cases h1

theorem takeCopy_ends (I : Inv abs Ok s) (hy : (kstate abs s).vars y = none) (hx : (kstate abs s).maps x = some mx)
    (hk : mx k = some b) (c : Ctx) : Ends (call H H' (.take y false x k) c s)
      (fun s' => ∃ b', ρ'.Copy b b' ∧ At abs Ok ((kstate abs s).setVar y (some b')) s') (At abs Ok (kstate abs s)) False := by
  obtain ⟨q, hq, hqc, -, hrep, hset⟩ := ref_of I (r := .at x k) (b := b) (by simp [KState.get, hx, hk])
  simp only [call]
  rw [show withRef (.at x k) _ s = _ from hq _ s.next]
  refine ends_elem (B'.copy (c.env 0) I.ok hy hqc) ?_ ?_
  · rintro t ⟨ht, b', hb', ha⟩; exact ⟨b', hb', at_of ht ha (rep_var I.rep y _)⟩
  · rintro t ⟨ht, ha⟩; exact at_of ht ha ⟨I.rep, rfl⟩

theorem takeMove_ends (I : Inv abs Ok s) (hy : (kstate abs s).vars y = none) (hx : (kstate abs s).maps x = some mx)
    (hk : mx k = some b) (c : Ctx) : Ends (call H H' (.take y true x k) c s)
      (fun s' => ∃ b' d, ρ'.Move b b' d ∧ At abs Ok (((kstate abs s).setAt x k (some d)).setVar y (some b')) s')
      (fun s' => ∃ d, ρ'.MoveThrew b d ∧ At abs Ok ((kstate abs s).setAt x k (some d)) s') False := by
  obtain ⟨q, hq, hqc, -, hrep, hset⟩ := ref_of I (r := .at x k) (b := b) (by simp [KState.get, hx, hk])
  simp only [call]
  rw [show withRef (.at x k) _ s = _ from hq _ s.next]
  refine ends_elem (B'.move (c.env 0) I.ok hy hqc) ?_ ?_
  · rintro t ⟨ht, b', d, hb', ha⟩
    have := rep_var (hrep d _ I.rep) y b'
    rw [hset] at this
    exact ⟨b', d, hb', at_of ht ha this⟩
  · rintro t ⟨ht, -, d, hd, ha⟩
    exact ⟨d, hd, at_of ht ha ⟨hrep d _ I.rep, hset d⟩⟩

include B

theorem call_inv (I : Inv abs Ok s) (op : MapOp C K I_ J F) (hl : KLegal (kstate abs s) op) (c : Ctx) :
    Ends (call H H' op c s) (Inv abs Ok) (Inv abs Ok)
      (∃ x k r a d, op = .insertOrAssign x k true r ∧ (kstate abs s).get (.at x k) = some a ∧ (kstate abs s).get r = some d ∧
        ρ.Terminates a d) := by
  have at1 : ∀ {τ : KState C K A W} {t : MS C K S}, At abs Ok τ t → Inv abs Ok t := fun h => h.1
  cases op with
  | make y j => exact (make_ends B' I hl j c).mono (fun _ ⟨_, _, h⟩ => h.1) (fun _ h => h.1) (fun h => h.elim)
  | destroyVar y =>
    obtain ⟨b, hb⟩ := hl
    exact (destroyVar_ends B' I hb c).mono (fun _ h => h.1) (fun _ h => h.elim) (fun h => h.elim)
  | empty x => exact (empty_ends B I hl c).mono (fun _ h => h.1) (fun _ h => h.elim) (fun h => h.elim)
  | copy x y =>
    obtain ⟨hx, m, hy⟩ := hl
    exact (copy_ends B I hx hy c).mono (fun _ ⟨_, _, h⟩ => h.1) (fun _ h => h.1) (fun h => h.elim)
  | move x y =>
    obtain ⟨hx, m, hy⟩ := hl
    exact (move_ends B I hx hy c).mono (fun _ h => h.2.1) (fun _ h => h.elim) (fun h => h.elim)
  | destroy x =>
    obtain ⟨m, hx⟩ := hl
    exact (destroy_ends B I hx c).mono (fun _ h => h.1) (fun _ h => h.elim) (fun h => h.elim)
  | emplace x k a =>
    obtain ⟨⟨m, hx⟩, ha⟩ := hl
    refine (emplace_ends (k := k) B I hx a ha c).mono ?_ (fun _ ⟨_, _, h⟩ => h.1) (fun h => h.elim)
    intro s' h
    cases hk : m k with
    | none => simp only [hk] at h; obtain ⟨_, _, _, h⟩ := h; exact h.1
    | some b =>
      simp only [hk] at h
      rcases h with rfl | ⟨_, _, _, h⟩
      · exact I
      · exact h.1
  | tryEmplace x k a =>
    obtain ⟨⟨m, hx⟩, ha⟩ := hl
    refine (tryEmplace_ends (k := k) B I hx a ha c).mono ?_ (fun _ ⟨_, _, _, h⟩ => h.1) (fun h => h.elim)
    intro s' h
    cases hk : m k with
    | none => simp only [hk] at h; obtain ⟨_, _, _, h⟩ := h; exact h.1
    | some b => simp only [hk] at h; subst h; exact I
  | insertOrAssign x k mv r =>
    obtain ⟨hne, ⟨m, hx⟩, d, hd⟩ := hl
    cases hk : m k with
    | none =>
      exact (insertOrAssign_new B I hx hk mv hd c).mono (fun _ ⟨_, _, _, h⟩ => h.1) (fun _ ⟨_, _, h⟩ => h.1) (fun h => h.elim)
    | some a =>
      cases mv with
      | false =>
        exact (insertOrAssign_copy B I hx hk hne hd c).mono (fun _ ⟨_, _, h⟩ => h.1) (fun _ ⟨_, _, h⟩ => h.1) (fun h => h.elim)
      | true =>
        refine (insertOrAssign_move B I hx hk hne hd c).mono (fun _ ⟨_, _, _, h⟩ => h.1) (fun _ ⟨_, _, h⟩ => h.1) ?_
        intro h
        exact ⟨x, k, r, a, d, rfl, by simp [KState.get, hx, hk], hd, h⟩
  | erase x k =>
    obtain ⟨m, hx⟩ := hl
    exact (erase_ends B I hx k (c.env 0)).mono (fun _ h => h.1) (fun _ h => h.elim) (fun h => h.elim)
  | clear x =>
    obtain ⟨m, hx⟩ := hl
    exact (clear_ends B I hx c.env).mono (fun _ h => h.1) (fun _ h => h.elim) (fun h => h.elim)
  | assignCopy x y =>
    obtain ⟨⟨m, hx⟩, o, hy⟩ := hl
    by_cases hne : x = y
    · subst hne; rw [assignCopy_self B hx c]; exact I
    · exact (assignCopy_ends B I hne hx hy c).mono (fun _ ⟨_, _, h⟩ => h.1) (fun _ h => h.1) (fun h => h.elim)
  | assignMove x y =>
    obtain ⟨hne, ⟨m, hx⟩, o, hy⟩ := hl
    exact (assignMove_ends B I hne hx hy c).mono (fun _ h => h.1) (fun _ h => h.elim) (fun h => h.elim)
  | swap x y =>
    obtain ⟨⟨m, hx⟩, o, hy⟩ := hl
    exact (swap_ends B I hx hy c).mono (fun _ h => h.2.1) (fun _ h => h.elim) (fun h => h.elim)
  | merge x y =>
    obtain ⟨⟨m, hx⟩, o, hy⟩ := hl
    by_cases hne : x = y
    · subst hne; rw [merge_self B hx c]; exact I
    · exact (merge_ends B I hne hx hy c).mono (fun _ h => h.2.1) (fun _ h => h.elim) (fun h => h.elim)
  | take y mv x k =>
    obtain ⟨hy, m, hx⟩ := hl
    cases hk : m k with
    | none => rw [take_missing B' I hx hk mv c]; exact I
    | some b =>
      cases mv with
      | false => exact (takeCopy_ends B' I hy hx hk c).mono (fun _ ⟨_, _, h⟩ => h.1) (fun _ h => h.1) (fun h => h.elim)
      | true =>
        exact (takeMove_ends B' I hy hx hk c).mono (fun _ ⟨_, _, _, h⟩ => h.1) (fun _ ⟨_, _, h⟩ => h.1) (fun h => h.elim)
  | modify r f =>
    obtain ⟨a, v, h⟩ := hl
    exact (modify_ends B I h f c).mono (fun _ h => h.1) (fun _ h => h.elim) (fun h => h.elim)

theorem Reach.inv {init : S} (h0 : Ok init) (hn : ∀ l, abs init l = none) {s : MS C K S} (h : Reach H H' abs init s) :
    Inv abs Ok s := by
  induction h with
  | init => exact ⟨h0, ⟨by simp, by simp [pos], by simp [pos, hn], by simp [pos]⟩⟩
  | ret op c _ hl he ih =>
    have := call_inv B B' ih op hl c
    rw [he] at this; exact this
  | threw op c e _ hl he ih =>
    have := call_inv B B' ih op hl c
    rw [he] at this; exact this

end ops
end
end Verif.Maps
