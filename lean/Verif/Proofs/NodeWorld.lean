import Verif.Proofs.NodeFocus

set_option autoImplicit false
set_option linter.unusedSectionVars false
set_option linter.unusedSimpArgs false

/-! Every legal statement does to the world what the specification says. -/

namespace Verif.Node
open Verif

section
variable {N A R V X : Type} [DecidableEq N] [DecidableEq R]
variable {res : A → R} {K : Nat}

/-- Blocks that are free belong to no tree. -/
theorem World.free {W : N → Tree A V} {s : NSt N A R V} (w : World res K W s) {q : Addr}
    (h : s.heap q = none) (x : N) : ¬ (W x).Mem K q := fun hm => (w.holds x).alloc hm h

theorem New.isFresh {W : N → Tree A V} {s s' : NSt N A R V} {h : Handle A} {t : Tree A V}
    (w : World res K W s) (hn : New res K h t s s') : Fresh K W t := fun q hm x => w.free (hn.fresh q hm) x

theorem Apart.symm {P Q : Path N} (h : P.Apart Q) : Q.Apart P :=
  h.elim (fun h => Or.inl (Ne.symm h)) (fun h => Or.inr ⟨h.2, h.1⟩)

theorem put_at : ∀ (r : List Nat) (t : Tree A V), t.Has K r → t.put r (t.at' r) = t
  | [], t, _ => by cases t <;> rfl
  | k :: r, t, h => by
    cases t with
    | absent => exact h.elim
    | hollow a => exact h.elim
    | node p a v ks =>
      rw [put_node]
      congr 1
      show upd ks k ((ks k).put r ((ks k).at' r)) = ks
      rw [put_at r (ks k) h.2, upd_id _ _ _ rfl]

theorem putAt_self {W : N → Tree A V} {P : Path N} (h : Exists K W P) : putAt W P (treeAt W P) = W := by
  unfold putAt treeAt
  rw [put_at P.steps _ h, upd_id _ _ _ rfl]

variable (tr : ATraits A R) (T : TSpec V X)

/-- A new node made from arguments. -/
theorem make_spec {n : Nat} (hn : 0 < n) (a : A) (xs : TArgs X) {s : NSt N A R V} (hc : Clean K s) :
    Post False (fun p s' => ∃ v c, T.make xs c = .ok v ∧ s.heap p = none ∧
        New tr.res K ⟨some p, a⟩ (.node p a v (fun _ => .absent)) s s')
      (Still s) (Indirect.constructFrom tr a (fun a m => (ops tr T K n).make a m xs) s) := by
  obtain ⟨m, rfl⟩ : ∃ m, n = m + 1 := ⟨n - 1, by omega⟩
  unfold Indirect.constructFrom
  rw [M.bind_eq, allocate_eq]
  by_cases hm : memOk s = true
  · simp only [hm, if_true]
    have hfresh := memOk_none hm
    generalize hp : s.env.pick s.ai = p at hfresh
    show Post False _ (Still s) ((M.onThrow (choose >>= fun c => finish p .args (T.make xs c))
      (deallocate (tr.res a) p) >>= fun _ => pure p)
      { s with
          heap := upd s.heap p (some ⟨tr.res a, none⟩)
          trace := s.trace ++ [.alloc (tr.res a) p]
          ai := s.ai + 1 })
    generalize hs₁ : ({ s with
          heap := upd s.heap p (some ⟨tr.res a, none⟩)
          trace := s.trace ++ [.alloc (tr.res a) p]
          ai := s.ai + 1 } : NSt N A R V) = s₁
    have h1heap : s₁.heap = upd s.heap p (some ⟨tr.res a, none⟩) := by rw [← hs₁]
    have h1hs : s₁.hs = s.hs := by rw [← hs₁]
    have h1p : s₁.heap p = some ⟨tr.res a, none⟩ := by rw [h1heap]; exact upd_same _ _ _
    have hbody : Post False (fun _ z => ∃ v c, T.make xs c = .ok v ∧ z.hs = s.hs ∧
          z.heap = upd s.heap p (some ⟨tr.res a, some v⟩)) (Still s₁)
        ((choose >>= fun c => finish p .args (T.make xs c)) s₁) := by
      have hch : (choose : M (NSt N A R V) Nat) s₁ =
        .ok (s₁.env.choice s₁.ti) { s₁ with ti := s₁.ti + 1 } := rfl
      rw [M.bind_ok hch]
      cases hmk : T.make xs (s₁.env.choice s₁.ti) with
      | error e => exact ⟨rfl, rfl⟩
      | ok v =>
        show Post _ _ _ (beginObj p v .args _)
        rw [beginObj_raw (s := { s₁ with ti := s₁.ti + 1 }) v _ h1p]
        refine ⟨v, _, hmk, h1hs, ?_⟩
        show upd s₁.heap p _ = _
        rw [h1heap, upd_upd]
    refine Post.bind (Post.onThrow (E' := Still s) hbody ?_) ?_
    · rintro z ⟨hz1, hz2⟩
      refine ⟨_, deallocate_raw (r := tr.res a) (by rw [hz1]; exact h1p), ?_, hz2.trans h1hs⟩
      show upd z.heap p none = s.heap
      rw [hz1, h1heap, upd_upd, upd_id _ _ _ hfresh]
    · rintro _ z ⟨v, c, hmk, hz1, hz2⟩
      refine ⟨v, c, hmk, hfresh, ?_⟩
      exact
        { holds := ⟨rfl, by rw [hz2]; exact upd_same _ _ _, fun k _ => by
            rw [hz1]; exact hc p k (Or.inl hfresh)⟩
          sep := ⟨fun _ _ h => h, fun _ _ _ _ _ _ h => h.elim, fun _ _ => trivial⟩
          fresh := by
            rintro q (rfl | ⟨k, _, h⟩)
            · exact hfresh
            · exact h.elim
          heap := fun q hq => by
            rw [hz2, upd_other _ _ (fun e => hq (Or.inl e))]
          hs := fun _ _ => by rw [hz1]
          clean := by
            intro q k hq
            rw [hz1]
            by_cases e : q = p
            · subst e; exact hc q k (Or.inl hfresh)
            · refine hc q k (hq.imp_left fun h => ?_)
              rwa [hz2, upd_other _ _ e] at h }
  · simp only [hm, if_false]
    exact ⟨rfl, rfl⟩

/-- Construction in an empty place. -/
theorem World.place {W : N → Tree A V} {s s' : NSt N A R V} {h : Handle A} {t : Tree A V} {P : Path N}
    (w : World res K W s) (he : Empty K W P) (hn : New res K h t s s') :
    Post False (fun _ z => World res K (putAt W P t) z) (fun _ => False)
      (emplace (loc W P) h s') := by
  obtain ⟨hf, hb⟩ := w.one he.1
  obtain ⟨e1, c⟩ := hn.emplace hf he.2 (loc_lt he.1)
  rw [e1]
  have := hb _ _ c
  rw [upd_same] at this
  exact this

theorem live_ne {W : N → Tree A V} {P : Path N} (h : Live K W P) : treeAt W P ≠ .absent := h.2

theorem World.at_holds {W : N → Tree A V} {s : NSt N A R V} (w : World res K W s) {P : Path N}
    (h : Exists K W P) : Holds res K s (s.hs (loc W P)) (treeAt W P) := (w.one h).1.holds _ rfl

/-- Statements other than the assignment of a node. -/
def Basic : NOp N A X → Prop
  | .setCopy _ _ => False
  | .setMove _ _ => False
  | _ => True

/-- The main theorem about these statements. -/
theorem exec_basic (hS : tr.Sound) (hR : tr.Reflexive) {W : N → Tree A V} {s : NSt N A R V}
    (w : World tr.res K W s) (n : Nat) (o : NOp N A X) (hL : Legal tr K W n o) (hB : Basic o) :
    Post (MayTerminate tr K W o) (fun _ s' => ∃ W', Step tr T K W o W' ∧ World tr.res K W' s')
      (fun s' => ∃ W', Failed tr T W o W' ∧ World tr.res K W' s') (exec tr T K n o s) := by
  have hstill : ∀ {s'}, Still s s' → World tr.res K W s' := fun h => w.congr h.1 h.2
  cases o with
  | make P a us =>
    obtain ⟨hP, hn⟩ := hL
    show Post _ _ _ ((resolve P >>= fun l => Indirect.ctorInPlaceA tr (ops tr T K n) a us >>= fun h =>
      emplace l h) s)
    rw [M.bind_ok (resolve_eq w hP.1)]
    unfold Indirect.ctorInPlaceA
    rw [bind_assoc]
    refine Post.bind ((make_spec tr T hn a (.pack us) w.clean).mono (fun _ _ h => h)
      (fun s' h => ⟨W, rfl, hstill h⟩) (fun h => h.elim)) ?_
    rintro p s' ⟨v, c, hm, hp, hnew⟩
    refine (w.place hP hnew).mono ?_ (fun _ h => h.elim) (fun h => h.elim)
    intro _ z hz
    exact ⟨_, ⟨p, v, c, hm, w.free hp, rfl⟩, hz⟩
  | copy P Q =>
    obtain ⟨hP, hQ, hn⟩ := hL
    show Post _ _ _ ((resolve P >>= fun l => resolve Q >>= fun m =>
      Indirect.ctorCopy tr (ops tr T K n) m >>= fun h => emplace l h) s)
    rw [M.bind_ok (resolve_eq w hP.1), M.bind_ok (resolve_eq w hQ.1)]
    refine Post.bind ((ctorCopy_spec tr T (ops tr T K n) (copy_of_build tr T _ _ (build_spec tr T _ n hn))
      tr.dflt hQ.2 (w.at_holds hQ.1) w.clean).mono (fun _ _ h => h)
      (fun s' h => ⟨W, rfl, hstill h⟩) (fun h => h.elim)) ?_
    rintro h s' ⟨t', hnew, hcp⟩
    refine (w.place hP hnew).mono ?_ (fun _ h => h.elim) (fun h => h.elim)
    intro _ z hz
    exact ⟨_, ⟨t', hcp, hnew.isFresh w, rfl⟩, hz⟩
  | copyA P a Q =>
    obtain ⟨hP, hQ, hn⟩ := hL
    show Post _ _ _ ((resolve P >>= fun l => resolve Q >>= fun m =>
      Indirect.ctorCopyA tr (ops tr T K n) a m >>= fun h => emplace l h) s)
    rw [M.bind_ok (resolve_eq w hP.1), M.bind_ok (resolve_eq w hQ.1)]
    refine Post.bind (((copy_of_build tr T _ _ (build_spec tr T _ n hn)) a s (loc W Q) hQ.2
      (w.at_holds hQ.1) w.clean).mono (fun _ _ h => h)
      (fun s' h => ⟨W, rfl, hstill h⟩) (fun h => h.elim)) ?_
    rintro h s' ⟨t', hnew, hcp⟩
    refine (w.place hP hnew).mono ?_ (fun _ h => h.elim) (fun h => h.elim)
    intro _ z hz
    exact ⟨_, ⟨t', hcp, hnew.isFresh w, rfl⟩, hz⟩
  | moveA P a Q =>
    obtain ⟨hP, hQ, hn, hA⟩ := hL
    show Post _ _ _ ((resolve P >>= fun l => resolve Q >>= fun m =>
      Indirect.ctorMoveA tr (ops tr T K n) a m >>= fun h => emplace l h) s)
    rw [M.bind_ok (resolve_eq w hP.1), M.bind_ok (resolve_eq w hQ.1)]
    obtain ⟨hne, hf, hb⟩ := w.two hP.1 hQ.1 hA
    have e1 : upd (fun _ => treeAt W P) (loc W Q) (treeAt W Q) (loc W P) = .absent := by
      rw [upd_other _ _ hne]; exact hP.2
    refine (moveInto_spec tr T hS hR (treeAt W Q) n hn (loc W P) (loc W Q) _ s tr.dflt a hne e1
      (upd_same _ _ _) hQ.2 hf w.clean (loc_lt hP.1)).mono ?_ ?_ (fun h => h.elim)
    · rintro _ s' ⟨t₁, t₂, c, h1, h2, h3, h4⟩
      have hw := hb _ _ c
      rw [upd_other _ _ hne, upd_same, upd_same] at hw
      exact ⟨_, ⟨t₁, t₂, h1, h2, h4, h3, rfl⟩, hw⟩
    · rintro s' ⟨q, c, v, v', ks, ht, hc⟩
      have hw' := hb _ _ hc
      rw [upd_same, upd_other _ _ hne, upd_other _ _ hne] at hw'
      rw [putAt_self hP.1] at hw'
      exact ⟨_, ⟨q, c, v, v', ks, ht, rfl⟩, hw'⟩
  | move P Q =>
    obtain ⟨hP, hQ, hA⟩ := hL
    show Post _ _ _ ((resolve P >>= fun l => resolve Q >>= fun m =>
      Indirect.ctorMove tr (ops tr T K n) m >>= fun h => emplace l h) s)
    rw [M.bind_ok (resolve_eq w hP.1), M.bind_ok (resolve_eq w hQ.1)]
    obtain ⟨hne, hf, hb⟩ := w.two hP.1 hQ.1 hA
    obtain ⟨x, hx, hxa⟩ := holds_alloc tr.dflt (w.at_holds hQ.1) hQ.2
    rw [M.bind_ok (ctorMove_steal tr hR _ hx)]
    have e1 : upd (fun _ => treeAt W P) (loc W Q) (treeAt W Q) (loc W P) = .absent := by
      rw [upd_other _ _ hne]; exact hP.2
    obtain ⟨g1, c⟩ := Chng.give (b := x.alloc) hf w.clean hne e1 hx rfl (loc_lt hP.1)
    rw [g1]
    have hw := hb _ _ c
    rw [upd_other _ _ hne, upd_same, upd_same, upd_same, hxa, withAlloc_self] at hw
    refine ⟨_, rfl, ?_⟩
    have he : (treeAt W Q).emptied = .hollow ((treeAt W Q).allocOr tr.dflt) := by
      cases ht : treeAt W Q with
      | absent => exact absurd ht hQ.2
      | hollow a => rfl
      | node p a v ks => rfl
    rw [he, hxa]; exact hw
  | drop P =>
    obtain ⟨hP, hn⟩ := hL
    show Post _ _ _ ((resolve P >>= fun l => Indirect.dtor tr (ops tr T K n) l) s)
    rw [M.bind_ok (resolve_eq w hP.1)]
    obtain ⟨hf, hb⟩ := w.one hP.1
    obtain ⟨s', hd, c, _⟩ := dtor_spec tr T (treeAt W P) n hn (loc W P) _ s rfl hP.2 hf w.clean
    rw [hd]
    have hw := hb _ _ c
    rw [upd_same] at hw
    exact ⟨_, rfl, hw⟩
  | assign P Q =>
    obtain ⟨hP, hQ, hnP, hnQ, hA⟩ := hL
    show Post _ _ _ ((resolve P >>= fun l => resolve Q >>= fun m =>
      Indirect.assignCopy tr (ops tr T K n) l m >>= fun _ => pure ()) s)
    rw [M.bind_ok (resolve_eq w hP.1), M.bind_ok (resolve_eq w hQ.1)]
    by_cases hPQ : P = Q
    · subst hPQ
      have : Indirect.assignCopy tr (ops tr T K n) (loc W P) (loc W P) s = .ok (loc W P) s := by
        unfold Indirect.assignCopy; rw [if_pos rfl]; rfl
      rw [M.bind_ok this]
      exact ⟨W, by simp only [Step, if_true], w⟩
    · obtain ⟨hne, hf, hb⟩ := w.two hP.1 hQ.1 (hA.resolve_left hPQ)
      obtain ⟨_, hb1⟩ := w.one hP.1
      have e1 : upd (fun _ => treeAt W P) (loc W Q) (treeAt W Q) (loc W P) = treeAt W P :=
        upd_other _ _ hne
      have hw : ∀ {t : Tree A V} {s' : NSt N A R V}, Chng tr.res K (· = loc W P)
          (upd (fun _ => treeAt W P) (loc W Q) (treeAt W Q))
          (upd (upd (fun _ => treeAt W P) (loc W Q) (treeAt W Q)) (loc W P) t) s s' →
          World tr.res K (putAt W P t) s' := fun {t s'} c =>
        hb1 (fun _ => t) s' (c.eqOn (fun l e => by subst e; exact e1.symm)
          (fun l e => by subst e; rw [upd_same]))
      refine Post.bind (assignCopy_spec tr T hS (treeAt W Q) (treeAt W P) n hnP hnQ (loc W P) (loc W Q) _ s
        tr.dflt hne e1 (upd_same _ _ _) hP.2 hQ.2 hf w.clean |>.mono (fun _ _ h => h) ?_ (fun h => h.elim)) ?_
      · rintro s' ⟨t', ht', c, hst⟩
        refine ⟨_, ⟨⟨t', ht', rfl⟩, fun h => ?_⟩, hw c⟩
        rw [hst h]
        exact putAt_self hP.1
      · rintro _ s' ⟨_, t', c, hlike, hal, hin, hnew⟩
        refine ⟨_, ?_, hw c⟩
        simp only [Step, hPQ, if_false]
        exact ⟨t', hlike, hal, hin, fun h => ⟨(hnew h).1, fun q hm x hx =>
          (w.holds x).alloc hx ((hnew h).2 q hm)⟩, rfl⟩
  | moveAssign P Q =>
    obtain ⟨hP, hQ, hnP, hnQ, hA⟩ := hL
    show Post _ _ _ ((resolve P >>= fun l => resolve Q >>= fun m =>
      Indirect.assignMove tr (ops tr T K n) l m >>= fun _ => pure ()) s)
    rw [M.bind_ok (resolve_eq w hP.1), M.bind_ok (resolve_eq w hQ.1)]
    by_cases hPQ : P = Q
    · subst hPQ
      have : Indirect.assignMove tr (ops tr T K n) (loc W P) (loc W P) s = .ok (loc W P) s := by
        unfold Indirect.assignMove M.noexceptIf; rw [if_pos rfl]; rfl
      rw [M.bind_ok this]
      exact ⟨W, by simp only [Step, if_true], w⟩
    · obtain ⟨hne, hf, hb⟩ := w.two hP.1 hQ.1 (hA.resolve_left hPQ)
      have e1 : upd (fun _ => treeAt W P) (loc W Q) (treeAt W Q) (loc W P) = treeAt W P :=
        upd_other _ _ hne
      refine Post.bind (assignMove_spec tr T hS hR (treeAt W P) (treeAt W Q) n hnP hnQ (loc W P) (loc W Q) _ s
        tr.dflt hne e1 (upd_same _ _ _) hP.2 hQ.2 hf w.clean |>.mono (fun _ _ h => h) ?_
        (fun h => ⟨h.2, h.1⟩)) ?_
      · rintro s' ⟨q, b, v, v', ks, ht, c⟩
        have hw := hb _ _ c
        rw [upd_same, upd_other _ _ hne, upd_other _ _ hne, putAt_self hP.1] at hw
        exact ⟨_, ⟨q, b, v, v', ks, ht, rfl⟩, hw⟩
      · rintro _ s' ⟨_, t₁, t₂, c, h1, h2, h3, h4⟩
        have hw := hb _ _ c
        rw [upd_other _ _ hne, upd_same, upd_same] at hw
        refine ⟨_, ?_, hw⟩
        simp only [Step, hPQ, if_false]
        exact ⟨t₁, t₂, h1, h2, h4, h3, rfl⟩
  | swap P Q =>
    obtain ⟨hP, hQ, hA, hal⟩ := hL
    show Post _ _ _ ((resolve P >>= fun l => resolve Q >>= fun m => Indirect.swap tr l m) s)
    rw [M.bind_ok (resolve_eq w hP.1), M.bind_ok (resolve_eq w hQ.1)]
    by_cases hPQ : P = Q
    · subst hPQ
      obtain ⟨x, hx, hxa⟩ := holds_alloc tr.dflt (w.at_holds hP.1) hP.2
      have : Indirect.swap tr (loc W P) (loc W P) s = .ok () s := by
        unfold Indirect.swap M.noexceptIf
        rw [M.bind_ok (getH_some hx), M.bind_ok (getH_some hx)]
        have e1 : setAlloc (loc W P) x.alloc s = .ok () s := by
          rw [setAlloc_some hx, upd_id _ _ _ hx]
        have e2 : setP (loc W P) x.p s = .ok () s := by
          rw [setP_some hx, upd_id _ _ _ hx]
        cases hp : tr.pocs with
        | true =>
          simp only [if_true]
          rw [M.bind_ok e1, M.bind_ok e1, M.bind_ok e2, e2]
        | false =>
          simp only [hR.eq_refl, Bool.false_eq_true, if_false, if_true]
          rw [M.bind_ok e2, e2]
      rw [this]
      exact ⟨W, by simp only [Step, if_true], w⟩
    · obtain ⟨hne, hf, hb⟩ := w.two hP.1 hQ.1 (hA.resolve_left hPQ)
      obtain ⟨s', hs, c⟩ := swap_spec tr hS (treeAt W P) (treeAt W Q) (loc W P) (loc W Q) _ s tr.dflt hne
        (upd_other _ _ hne) (upd_same _ _ _) hP.2 hQ.2 hf w.clean hal
      rw [hs]
      have hw := hb _ _ c
      rw [upd_other _ _ hne, upd_same, upd_same] at hw
      refine ⟨_, ?_, hw⟩
      simp only [Step, hPQ, if_false]
  | set P x =>
    obtain ⟨hP, hn⟩ := hL
    show Post _ _ _ ((resolve P >>= fun l => Indirect.assignFrom tr (ops tr T K n) l (.arg x) >>=
      fun _ => pure ()) s)
    rw [M.bind_ok (resolve_eq w hP.1)]
    obtain ⟨hf, hb⟩ := w.one hP.1
    have hh := w.at_holds hP.1
    cases ht : treeAt W P with
    | absent => exact absurd ht hP.2
    | hollow a =>
      rw [ht] at hh
      have hh : s.hs (loc W P) = some ⟨none, a⟩ := hh
      unfold Indirect.assignFrom
      rw [bind_assoc, M.bind_ok (valueless_eq hh)]
      simp only [beq_self_eq_true, if_true]
      rw [bind_assoc, M.bind_ok (getH_some hh), bind_assoc]
      refine Post.bind ((make_spec tr T hn a (.pack [x]) w.clean).mono (fun _ _ h => h)
        (fun s' h => ⟨W, Or.inl rfl, hstill h⟩) (fun h => h.elim)) ?_
      rintro p s' ⟨v, c, hm, hp, hnew⟩
      have hf' := hnew.keeps_forest hf
      have c0 : Chng tr.res K (· = loc W P) (fun _ => treeAt W P)
          (upd (fun _ => treeAt W P) (loc W P) (.hollow a)) s' s' := by
        rw [upd_eq (by exact ht)]; exact Chng.refl hf' hnew.clean
      have cr := hnew.replace hf c0 (loc_lt hP.1)
      have hl' : s'.hs (loc W P) = some ⟨none, a⟩ := by
        have := hf'.holds _ rfl
        rw [ht] at this; exact this
      rw [bind_assoc, M.bind_ok (setP_some hl' (some p))]
      have hw := hb _ _ cr
      rw [upd_same] at hw
      exact ⟨_, Or.inr ⟨a, p, v, c, ht, hm, w.free hp, rfl⟩, hw⟩
    | node p a v ks =>
      obtain ⟨m, rfl⟩ : ∃ m, n = m + 1 := ⟨n - 1, by omega⟩
      rw [ht] at hh hf hb
      obtain ⟨h1, h2, h3⟩ := hh
      unfold Indirect.assignFrom
      rw [bind_assoc, M.bind_ok (valueless_eq h1)]
      simp only [show ((some p : Option Addr) == none) = false from rfl, Bool.false_eq_true, if_false]
      rw [bind_assoc, M.bind_ok (deref_eq h1), bind_assoc]
      show Post _ _ _ (((readObj p >>= fun d => choose >>= fun c => emit (.assign p .args) >>= fun _ =>
        writeObj p (T.assignArg d x c).2 >>= fun _ => rethrow (T.assignArg d x c).1) >>= fun _ => pure ()) s)
      rw [bind_assoc, M.bind_ok (readObj_some h2)]
      have ct := Chng.touch (b := a) (w := (T.assignArg v x (s.env.choice s.ti)).2) hf w.clean rfl rfl
      have hw := hb _ _ ct
      rw [upd_same] at hw
      have hrun : ((choose >>= fun c => emit (.assign p .args) >>= fun _ =>
          writeObj p (T.assignArg v x c).2 >>= fun _ => rethrow (T.assignArg v x c).1) : M (NSt N A R V) Unit) s =
          rethrow (T.assignArg v x (s.env.choice s.ti)).1 { s with
            heap := upd s.heap p (some ⟨tr.res a, some (T.assignArg v x (s.env.choice s.ti)).2⟩)
            trace := s.trace ++ [.assign p .args]
            ti := s.ti + 1 } := by
        rw [M.bind_ok (show (choose : M (NSt N A R V) Nat) s = .ok (s.env.choice s.ti) _ from rfl),
          M.bind_ok (show emit (.assign p .args) _ = .ok () _ from rfl),
          M.bind_ok (writeObj_some _ (by exact h2))]
      rw [M.bind_eq, hrun]
      have hw' := hw.congr (s' := { s with
            heap := upd s.heap p (some ⟨tr.res a, some (T.assignArg v x (s.env.choice s.ti)).2⟩)
            trace := s.trace ++ [.assign p .args]
            ti := s.ti + 1 }) rfl (upd_id _ _ _ h1).symm
      cases hr : T.assignArg v x (s.env.choice s.ti) with
      | mk e v' =>
        rw [hr] at hw'
        cases e with
        | none => exact ⟨_, Or.inl ⟨p, a, v, v', _, ks, ht, hr, rfl⟩, hw'⟩
        | some e => exact ⟨_, Or.inr ⟨p, a, v, v', ks, ht, rfl⟩, hw'⟩
  | setCopy P Q => exact hB.elim
  | setMove P Q => exact hB.elim

end
end Verif.Node
