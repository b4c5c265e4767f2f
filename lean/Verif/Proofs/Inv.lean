import Verif.Proofs.Basic

/-! The ownership invariant and its preservation by the elementary changes of state. -/

set_option autoImplicit false
set_option linter.unusedSectionVars false
set_option linter.unusedSimpArgs false

namespace Verif

section
variable {L A R B : Type} [DecidableEq L] [DecidableEq R]

/-- Ownership: every non-null pointer member points to a block from the resource of its allocator holding
a live object; no two objects share a block; every block has an owner. -/
structure Inv (res : A → R) (good : Addr → B → Prop) (hs : L → Option (Handle A))
    (heap : Addr → Option (Cell R B)) : Prop where
  own : ∀ l h p, hs l = some h → h.p = some p → ∃ b, heap p = some ⟨res h.alloc, b⟩ ∧ good p b
  uniq : ∀ l l' h h' p, hs l = some h → hs l' = some h' → h.p = some p → h'.p = some p → l = l'
  owned : ∀ p c, heap p = some c → ∃ l h, hs l = some h ∧ h.p = some p

variable {res : A → R} {good : Addr → B → Prop} {hs : L → Option (Handle A)}
  {heap : Addr → Option (Cell R B)}

theorem Inv.init : Inv (L := L) res good (fun _ => none) (fun _ => none) :=
  ⟨by simp, by simp, by simp⟩

theorem Inv.create (I : Inv res good hs heap) {l : L} {p : Addr} {a : A} {b : B}
    (hl : hs l = none) (hp : heap p = none) (g : good p b) :
    Inv res good (upd hs l (some ⟨some p, a⟩)) (upd heap p (some ⟨res a, b⟩)) := by
  obtain ⟨h1, h2, h3⟩ := I
  refine ⟨?_, ?_, ?_⟩
  · simp only [upd]; grind
  · simp only [upd]; grind
  · intro q c hq
    by_cases e : q = p
    · exact ⟨l, ⟨some p, a⟩, by simp, by simp [e]⟩
    · simp only [upd, e, if_false] at hq
      obtain ⟨l', h', hl', hp'⟩ := h3 q c hq
      exact ⟨l', h', by simp only [upd]; grind, hp'⟩

theorem Inv.createNull (I : Inv res good hs heap) {l : L} {a : A} (hl : hs l = none) :
    Inv res good (upd hs l (some ⟨none, a⟩)) heap := by
  obtain ⟨h1, h2, h3⟩ := I
  constructor <;> simp only [upd] <;> grind

theorem Inv.steal (I : Inv res good hs heap) {l y : L} {h : Handle A} {a : A} (hl : hs l = none)
    (hy : hs y = some h) (hr : res a = res h.alloc) :
    Inv res good (upd (upd hs y (some { h with p := none })) l (some ⟨h.p, a⟩)) heap := by
  obtain ⟨h1, h2, h3⟩ := I
  constructor <;> simp only [upd] <;> grind

theorem Inv.write (I : Inv res good hs heap) {p : Addr} {r : R} {b b' : B}
    (hp : heap p = some ⟨r, b⟩) (g : good p b') :
    Inv res good hs (upd heap p (some ⟨r, b'⟩)) := by
  obtain ⟨h1, h2, h3⟩ := I
  refine ⟨?_, h2, ?_⟩ <;> simp only [upd] <;> grind

theorem Inv.realloc (I : Inv res good hs heap) {x : L} {h : Handle A} {a : A}
    (hx : hs x = some h) (hr : res a = res h.alloc) :
    Inv res good (upd hs x (some { h with alloc := a })) heap := by
  obtain ⟨h1, h2, h3⟩ := I
  constructor <;> simp only [upd] <;> grind

/-- The block of `x` is destroyed and freed, and `x` gets pointer null and any allocator. -/
theorem Inv.resetTo (I : Inv res good hs heap) {x : L} {h : Handle A} {p : Addr} {a : A}
    (hx : hs x = some h) (hp : h.p = some p) :
    Inv res good (upd hs x (some ⟨none, a⟩)) (upd heap p none) := by
  obtain ⟨h1, h2, h3⟩ := I
  constructor <;> simp only [upd] <;> grind

/-- A null object gets any allocator. -/
theorem Inv.setNull (I : Inv res good hs heap) {x : L} {h : Handle A} {a : A}
    (hx : hs x = some h) (hp : h.p = none) :
    Inv res good (upd hs x (some ⟨none, a⟩)) heap := by
  obtain ⟨h1, h2, h3⟩ := I
  constructor <;> simp only [upd] <;> grind

/-- A null object gets a fresh block and any allocator. -/
theorem Inv.fill (I : Inv res good hs heap) {x : L} {h : Handle A} {p : Addr} {a : A} {b : B}
    (hx : hs x = some h) (hn : h.p = none) (hp : heap p = none) (g : good p b) :
    Inv res good (upd hs x (some ⟨some p, a⟩)) (upd heap p (some ⟨res a, b⟩)) := by
  obtain ⟨h1, h2, h3⟩ := I
  constructor <;> simp only [upd] <;> grind

theorem Inv.kill (I : Inv res good hs heap) {x : L} {h : Handle A} (hx : hs x = some h)
    (hn : h.p = none) : Inv res good (upd hs x none) heap := by
  obtain ⟨h1, h2, h3⟩ := I
  constructor <;> simp only [upd] <;> grind

/-- Pointers (and possibly allocators) of two objects are exchanged. -/
theorem Inv.swapTo (I : Inv res good hs heap) {x y : L} {h k : Handle A} {a b : A}
    (hx : hs x = some h) (hy : hs y = some k) (ha : res a = res k.alloc) (hb : res b = res h.alloc) :
    Inv res good (upd (upd hs x (some ⟨k.p, a⟩)) y (some ⟨h.p, b⟩)) heap := by
  obtain ⟨h1, h2, h3⟩ := I
  constructor <;> simp only [upd] <;> grind

end
end Verif
