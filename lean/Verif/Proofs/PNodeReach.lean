import Verif.Proofs.PNodeOps
import Verif.Proofs.NodeFacts
import Verif.Props.Node

/-! Histories of programs with recursive polymorphic nodes correspond to histories with `indirect`. -/

set_option autoImplicit false
set_option linter.unusedSectionVars false
set_option linter.unusedSimpArgs false

namespace Verif
namespace PNode
open Verif Verif.Polymorphic

section
variable {N A R Ty V X : Type} [DecidableEq N] [DecidableEq R] [DecidableEq Ty]
variable {tr : ATraits A R} {P : PSpec Ty V X} {K : Nat} {s s' : PSt N A R Ty V} {W : N → Tree A (Ty × V)}

theorem view_full {q : Addr} {r : R} {v : Ty × V} (G : Good s) (h : (view s).heap q = some ⟨r, some v⟩) :
    s.heap q = some ⟨r, some ⟨v.1, some q, some v.2⟩⟩ := by
  have h : (s.heap q).map viewCell = _ := h
  cases hc : s.heap q with
  | none => rw [hc] at h; cases h
  | some c =>
    obtain ⟨r', b⟩ := c
    rw [hc] at h
    cases b with
    | none => simp [viewCell, viewBody] at h
    | some cb =>
      obtain ⟨ty, pp, u⟩ := cb
      cases u with
      | none => simp [viewCell, viewBody] at h
      | some w =>
        have := G q r' _ w hc rfl
        simp only at this
        subst this
        simp only [viewCell, viewBody, Option.map_some, Option.bind_some, Option.some.injEq, Cell.mk.injEq] at h
        obtain ⟨rfl, rfl⟩ := h
        rfl

theorem view_of_full {q : Addr} {r : R} {v : Ty × V} (h : s.heap q = some ⟨r, some ⟨v.1, some q, some v.2⟩⟩) :
    (view s).heap q = some ⟨r, some v⟩ := by
  show (s.heap q).map viewCell = _
  rw [h]; rfl

theorem Holds.to_view : ∀ {t : Tree A (Ty × V)} {o : Option (Handle A)}, Holds tr.res K s o t →
    Node.Holds tr.res K (view s) o t := by
  intro t
  induction t with
  | absent => intro o h; exact h
  | hollow a => intro o h; exact h
  | node p a v ks ih =>
    rintro o ⟨h1, h2, h3⟩
    exact ⟨h1, view_of_full h2, fun k hk => ih k (h3 k hk)⟩

theorem Holds.of_view (G : Good s) : ∀ {t : Tree A (Ty × V)} {o : Option (Handle A)},
    Node.Holds tr.res K (view s) o t → Holds tr.res K s o t := by
  intro t
  induction t with
  | absent => intro o h; exact h
  | hollow a => intro o h; exact h
  | node p a v ks ih =>
    rintro o ⟨h1, h2, h3⟩
    exact ⟨h1, view_full G h2, fun k hk => ih k (h3 k hk)⟩

theorem Shows.to_view (h : Shows tr.res K W s) : Node.Shows tr.res K W (view s) := fun x => (h x).to_view

theorem Shows.of_view (G : Good s) (h : Node.Shows tr.res K W (view s)) : Shows tr.res K W s :=
  fun x => Holds.of_view G (h x)

/-- The corresponding call. -/
def PCall.asN (c : PCall N A Ty X) : Node.NCall N A (Ty × TArgs X) := ⟨c.op.asN, c.depth, c.env⟩

/-- A call and the corresponding call, in a state with `indirect`s that are never undefined there. -/
theorem call_sim (G : GoodN s) (c : PCall N A Ty X)
    (hno : ∀ e, match Node.call tr P.owned K ⟨c.op.asN, c.depth, e⟩ (view s) with
      | .ub _ => False | .diverged => False | _ => True) :
    match call tr P K c s with
    | .ok _ t => GoodN t ∧ Node.call tr P.owned K c.asN (view s) = .ok () (view t)
    | .threw e t => GoodN t ∧ Node.call tr P.owned K c.asN (view s) = .threw e (view t)
    | .terminated => Node.call tr P.owned K c.asN (view s) = .terminated
    | _ => False := by
  have G' : GoodN (s.enter c.env) := ⟨G.good, G.ptr, G.fin⟩
  have h := rs_exec (tr := tr) (P := P) (K := K) c.depth c.op G'
  unfold RS at h
  show match exec tr P K c.depth c.op (s.enter c.env) with
    | .ok _ t => GoodN t ∧ Node.call tr P.owned K c.asN (view s) = .ok () (view t)
    | .threw e t => GoodN t ∧ Node.call tr P.owned K c.asN (view s) = .threw e (view t)
    | .terminated => Node.call tr P.owned K c.asN (view s) = .terminated
    | _ => False
  cases hr : exec tr P K c.depth c.op (s.enter c.env) with
  | ok a t => rw [hr] at h; exact ⟨h.1, h.2.2⟩
  | threw e t => rw [hr] at h; exact ⟨h.1, h.2.2⟩
  | terminated => rw [hr] at h; exact h
  | ub u =>
    rw [hr] at h
    obtain ⟨e, _, h⟩ := h
    have := hno e
    have h' : (∃ u, Node.call tr P.owned K ⟨c.op.asN, c.depth, e⟩ (view s) = .ub u) ∨
      Node.call tr P.owned K ⟨c.op.asN, c.depth, e⟩ (view s) = .diverged := h
    rcases h' with ⟨u, h'⟩ | h' <;> rw [h'] at this <;> exact this
  | diverged =>
    rw [hr] at h
    have := hno c.env
    have h' : Node.call tr P.owned K ⟨c.op.asN, c.depth, c.env⟩ (view s) = .diverged := h
    rw [h'] at this; exact this

theorem legal_defined (S : tr.Sound) (Rf : tr.Reflexive) (h : Node.Reach tr P.owned K (view s))
    (hW : Node.Shows tr.res K W (view s)) {c : PCall N A Ty X} (hL : Node.Legal tr K W c.depth c.op.asN) (e : Env) :
    match Node.call tr P.owned K ⟨c.op.asN, c.depth, e⟩ (view s) with
      | .ub _ => False | .diverged => False | _ => True := by
  have := Props.C58_statements S Rf h hW ⟨c.op.asN, c.depth, e⟩ hL
  revert this
  cases Node.call tr P.owned K ⟨c.op.asN, c.depth, e⟩ (view s) <;> simp

theorem Reach.sim (S : tr.Sound) (Rf : tr.Reflexive) (h : Reach tr P K s) :
    Node.Reach tr P.owned K (view s) ∧ GoodN s := by
  induction h with
  | start e =>
    exact ⟨.start e, fun _ _ _ _ hh => by simp [PNode.start] at hh,
      fun _ _ _ hh => by simp [PNode.start] at hh, 0, fun _ _ => rfl⟩
  | @ok s s' W c h hW hL hr ih =>
    have := call_sim ih.2 c (legal_defined S Rf ih.1 hW.to_view hL)
    rw [hr] at this
    exact ⟨.ok ih.1 hW.to_view hL this.2, this.1⟩
  | @threw s s' W c e h hW hL hr ih =>
    have := call_sim ih.2 c (legal_defined S Rf ih.1 hW.to_view hL)
    rw [hr] at this
    exact ⟨.threw ih.1 hW.to_view hL this.2, this.1⟩

theorem Reach.call (S : tr.Sound) (Rf : tr.Reflexive) (h : Reach tr P K s) (hW : Shows tr.res K W s)
    (c : PCall N A Ty X) (hL : Node.Legal tr K W c.depth c.op.asN) :
    match call tr P K c s with
    | .ok _ t => GoodN t ∧ Node.call tr P.owned K c.asN (view s) = .ok () (view t)
    | .threw e t => GoodN t ∧ Node.call tr P.owned K c.asN (view s) = .threw e (view t)
    | .terminated => Node.call tr P.owned K c.asN (view s) = .terminated
    | _ => False :=
  call_sim (h.sim S Rf).2 c (legal_defined S Rf (h.sim S Rf).1 hW.to_view hL)

theorem holds_full {t : Tree A (Ty × V)} {o : Option (Handle A)} (h : Holds tr.res K s o t) {q : Addr}
    (hm : t.Mem K q) : ∃ (r : R) (v : Ty × V), s.heap q = some ⟨r, some ⟨v.1, some q, some v.2⟩⟩ := by
  induction t generalizing o with
  | absent => exact hm.elim
  | hollow a => exact hm.elim
  | node p a v ks ih =>
    obtain ⟨_, h2, h3⟩ := h
    rcases hm with rfl | ⟨k, hk, hm⟩
    · exact ⟨_, _, h2⟩
    · exact ih k (h3 k hk) hm

theorem view_none {q : Addr} : (view s).heap q = none ↔ s.heap q = none := by
  show (s.heap q).map viewCell = none ↔ _
  cases s.heap q <;> simp

/-- In reachable states the view determines the storage. -/
theorem eq_of_view (S : tr.Sound) (Rf : tr.Reflexive) {s s' : PSt N A R Ty V} {W W' : N → Tree A (Ty × V)}
    (h : Node.World tr.res K W (view s)) (G : Good s) (h' : Node.World tr.res K W' (view s')) (G' : Good s') {q : Addr}
    (e : (view s).heap q = (view s').heap q) : s.heap q = s'.heap q := by
  by_cases hq : s.heap q = none
  · rw [hq]
    exact (view_none.1 (e.symm.trans (view_none.2 hq))).symm
  · obtain ⟨x, hm⟩ := h.cover q (fun hh => hq (view_none.1 hh))
    obtain ⟨r, v, hf⟩ := holds_full (Holds.of_view G (h.holds x)) hm
    rw [hf, view_full G' (e.symm.trans (view_of_full hf))]

theorem world_congr {w w' : Node.NSt N A R (Ty × V)} (h : Node.World tr.res K W w) (h1 : w'.heap = w.heap)
    (h2 : w'.hs = w.hs) : Node.World tr.res K W w' where
  holds x := by rw [h2]; exact (h.holds x).frame (fun q _ => by rw [h1]) (fun q k _ => by rw [h2])
  sep := h.sep
  disj := h.disj
  cover q hq := h.cover q (by rw [← h1]; exact hq)
  clean p k hk := by rw [h2]; rw [h1] at hk; exact h.clean p k hk

/-- What completes or throws with `polymorphic` does so with `indirect`. -/
theorem call_of (G : GoodN s) (c : PCall N A Ty X) :
    match call tr P K c s with
    | .ok _ t => GoodN t ∧ Node.call tr P.owned K c.asN (view s) = .ok () (view t)
    | .threw e t => GoodN t ∧ Node.call tr P.owned K c.asN (view s) = .threw e (view t)
    | .terminated => Node.call tr P.owned K c.asN (view s) = .terminated
    | .ub _ => True
    | .diverged => Node.call tr P.owned K c.asN (view s) = .diverged := by
  have G' : GoodN (s.enter c.env) := ⟨G.good, G.ptr, G.fin⟩
  have h := rs_exec (tr := tr) (P := P) (K := K) c.depth c.op G'
  unfold RS at h
  have hc : call tr P K c s = exec tr P K c.depth c.op (s.enter c.env) := rfl
  rw [hc]
  cases hr : exec tr P K c.depth c.op (s.enter c.env) with
  | ok a t => rw [hr] at h; exact ⟨h.1, h.2.2⟩
  | threw e t => rw [hr] at h; exact ⟨h.1, h.2.2⟩
  | terminated => rw [hr] at h; exact h
  | ub u => trivial
  | diverged => rw [hr] at h; exact h

theorem copied_owned {v w : Ty × V} : Node.Copied P.owned v w ↔ Copied P v w := by
  unfold Node.Copied Copied PSpec.owned
  constructor
  · rintro ⟨c, h⟩
    simp only at h
    cases hc : P.copy v.1 v.2 c with
    | error e => rw [hc] at h; cases h
    | ok u => rw [hc] at h; cases h; exact ⟨rfl, c, hc⟩
  · rintro ⟨h1, c, h2⟩
    refine ⟨c, ?_⟩
    simp only [h2]
    obtain ⟨a, b⟩ := w
    simp only at h1
    subst h1
    rfl

theorem movedTo_owned {v w : Ty × V} : Node.MovedTo P.owned v w ↔ MovedTo P v w := by
  unfold Node.MovedTo MovedTo PSpec.owned
  refine or_congr_right ?_
  constructor
  · rintro ⟨c, h⟩
    simp only at h
    cases hc : (P.move v.1 v.2 c).1 with
    | error e => rw [hc] at h; cases h
    | ok u => rw [hc] at h; cases h; exact ⟨rfl, c, hc⟩
  · rintro ⟨h1, c, h2⟩
    refine ⟨c, ?_⟩
    simp only [h2]
    obtain ⟨a, b⟩ := w
    simp only at h1
    subst h1
    rfl

theorem not_inPlace {t t' : Tree A (Ty × V)} : ¬ Node.InPlace tr P.owned t t' := by
  cases t <;> cases t' <;> try exact id
  exact fun h => absurd h.1 (by simp [PSpec.owned])

end

end PNode

namespace Tree
variable {A V : Type} {K : Nat}

theorem Copy.mono {C C' : V → V → Prop} {socc : A → A} (h : ∀ v w, C v w → C' v w) :
    ∀ {t t' : Tree A V} {a : A}, t.Copy C socc K a t' → t.Copy C' socc K a t' := by
  intro t
  induction t with
  | absent => intro t' a hc; exact hc
  | hollow b => intro t' a hc; exact hc
  | node p b v ks ih =>
    intro t' a hc
    obtain ⟨p', w, ks', e, hv, hk⟩ := hc
    exact ⟨p', w, ks', e, h v w hv, fun k hlt => ih k (hk k hlt)⟩

theorem Like.mono {C C' : V → V → Prop} (h : ∀ v w, C v w → C' v w) :
    ∀ {t t' : Tree A V}, t.Like C K t' → t.Like C' K t' := by
  intro t
  induction t with
  | absent => intro t' hc; exact hc
  | hollow b => intro t' hc; exact hc
  | node p b v ks ih =>
    intro t' hc
    obtain ⟨p', a, w, ks', e, hv, hk⟩ := hc
    exact ⟨p', a, w, ks', e, h v w hv, fun k hlt => ih k (hk k hlt)⟩

end Tree
end Verif
