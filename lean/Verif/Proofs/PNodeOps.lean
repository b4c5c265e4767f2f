import Verif.Proofs.PNodeSim
import Verif.Spec.PolyTree

/-! The operations of recursive nodes with `polymorphic` members correspond to those of nodes with `indirect` members. -/

set_option autoImplicit false
set_option linter.unusedSectionVars false
set_option linter.unusedSimpArgs false

namespace Verif
namespace PNode
open Verif Verif.Polymorphic

section
variable {N A R Ty V X : Type} [DecidableEq N] [DecidableEq R] [DecidableEq Ty]
variable {s : PSt N A R Ty V} {tr : ATraits A R} {P : PSpec Ty V X} {K : Nat}

theorem rs_engaged (G : GoodN s) (l : Loc N) : RS (engaged l) (Node.engaged l) s := ⟨G, Kept.refl s, rfl⟩

theorem rs_hasMember (G : GoodN s) (p : Addr) (k : Nat) : RS (hasMember p k) (Node.hasMember p k) s :=
  (rs_readAny G p).bind (det_readObj p) fun _ _ _ G1 _ => rs_engaged G1 _

theorem rs_build {f undo : Nat → M (PSt N A R Ty V) Unit} {f' undo' : Nat → M (Node.NSt N A R (Ty × V)) Unit}
    (hf : ∀ k t, GoodN t → RS (f k) (f' k) t) (hu : ∀ k t, GoodN t → RS (undo k) (undo' k) t)
    (df : ∀ k, Det (f' k)) (du : ∀ k, Det (undo' k)) :
    ∀ k (s : PSt N A R Ty V), GoodN s → RS (Composite.build f undo k) (Node.buildMembers f' undo' k) s
  | 0, _, G => RS.pure G _
  | k + 1, s, G => (rs_build hf hu df du k s G).bind (Node.det_build df du k) fun _ t _ G1 _ =>
      (hf k t G1).onThrow (df k) fun _ t _ G2 _ => hu k t G2

section
variable {I : POps (PSt N A R Ty V) A Ty X} {I' : TOps (Node.NSt N A R (Ty × V)) A (Ty × TArgs X)} (h : OpsSim tr I I')
include h

theorem rs_dropMember (G : GoodN s) (p : Addr) (k : Nat) : RS (dropMember tr I p k) (Node.dropMember tr I' p k) s := by
  unfold dropMember Node.dropMember
  refine (rs_engaged G _).bind (Node.det_engaged _) fun b t _ G1 _ => ?_
  cases b with
  | true => exact rs_dtor h G1 _
  | false => exact RS.pure G1 _

theorem rs_dropMembers (p : Addr) : ∀ k (s : PSt N A R Ty V), GoodN s →
    RS (dropMembers tr I p k) (Node.dropMembers tr I' p k) s
  | 0, _, G => RS.pure G _
  | k + 1, _, G => (rs_dropMember h G p k).bind (Node.det_dropMember tr h.det p k) fun _ t _ G1 _ =>
      rs_dropMembers p k t G1

theorem rs_copyMember (G : GoodN s) (d q : Addr) (k : Nat) :
    RS (copyMember tr I d q k) (Node.copyMember tr I' d q k) s := by
  unfold copyMember Node.copyMember
  refine (rs_hasMember G _ _).bind (Node.det_hasMember _ _) fun b t _ G1 _ => ?_
  cases b with
  | true => exact (rs_ctorCopy h G1 _).bind (det_ctorCopy tr h.det _) fun _ t _ G2 _ => rs_emplace G2 _ _
  | false => exact RS.pure G1 _

theorem rs_moveMember (G : GoodN s) (d q : Addr) (k : Nat) :
    RS (moveMember tr I d q k) (Node.moveMember tr I' d q k) s := by
  unfold moveMember Node.moveMember
  refine (rs_hasMember G _ _).bind (Node.det_hasMember _ _) fun b t _ G1 _ => ?_
  cases b with
  | true => exact (rs_ctorMove h G1 _).bind (det_ctorMove tr h.det _) fun _ t _ G2 _ => rs_emplace G2 _ _
  | false => exact RS.pure G1 _

/-- Construction of a node from arguments. -/
theorem rs_node_make {b : A} (G : GoodN s) {mem : Addr} {r : R} (ty : Ty) (us : List X) (hm : s.heap mem = some ⟨r, none⟩) :
    RS (cbCtor ty b mem (fun a m => (node tr P K I).make ty a m (.pack us)))
      ((Node.node tr P.owned K I').make b mem (.pack [(ty, .pack us)])) s := by
  refine rs_cbCtor (how := .args) G hm
    (pre := do
      let c ← choose
      match P.make ty (.pack us) c with
      | .error e => M.throwE e
      | .ok w => pure w)
    (pre' := do
      let c ← choose
      match P.make ty (.pack us) c with
      | .error e => M.throwE e
      | .ok w => pure (ty, w)) ?_ ?_ fun s₂ G₂ _ => ?_
  · show (choose >>= fun c => finishU ty mem .args (P.make ty (.pack us) c)) = _
    rw [bind_assoc]
    congr 1; funext c
    cases P.make ty (.pack us) c <;> rfl
  · show (choose >>= fun c => finish mem .args ((P.make ty (.pack us) c).map (ty, ·))) = _
    rw [bind_assoc]
    congr 1; funext c
    cases P.make ty (.pack us) c <;> rfl
  · rw [bind_assoc]
    refine (rs_choose G₂).bind det_choose fun c t _ G1 _ => ?_
    cases P.make ty (.pack us) c with
    | error e => exact RS.throwE G1 e
    | ok w => exact RS.pure G1 (ty, w)

theorem rs_node_copy {b : A} (G : GoodN s) {mem q : Addr} {r r' : R} {ty : Ty} {pp : Option Addr} {u : Option V}
    (hm : s.heap mem = some ⟨r, none⟩) (hq : s.heap q = some ⟨r', some ⟨ty, pp, u⟩⟩) :
    RS (cbCtor ty b mem (fun a m => (node tr P K I).copyCtor ty a m q)) ((Node.node tr P.owned K I').copyCtor b mem q) s := by
  have hne : q ≠ mem := by rintro rfl; rw [hm] at hq; cases hq
  refine rs_cbCtor (how := .copyOf q) G hm
    (pre := do
      let v ← readU ty q
      let c ← choose
      match P.copy ty v c with
      | .error e => M.throwE e
      | .ok w => do
        Composite.build (copyMember tr I mem q) (dropMembers tr I mem) K
        pure w)
    (pre' := do
      let v ← readObj q
      let c ← choose
      match P.copy v.1 v.2 c with
      | .error e => M.throwE e
      | .ok w => do
        Node.buildMembers (Node.copyMember tr I' mem q) (Node.dropMembers tr I' mem) K
        pure (v.1, w)) ?_ ?_ fun s₂ G₂ h₂ => ?_
  · show (readU ty q >>= fun v => choose >>= fun c => _) = _
    simp only [bind_assoc]
    congr 1; funext v; congr 1; funext c
    cases P.copy ty v c with
    | error e => rfl
    | ok w => simp only [bind_assoc]; rfl
  · show (readObj q >>= fun v => choose >>= fun c => _) = _
    simp only [bind_assoc]
    congr 1; funext v; congr 1; funext c
    have ho : P.owned.copy v c = (P.copy v.1 v.2 c).map (v.1, ·) := rfl
    rw [ho]
    cases P.copy v.1 v.2 c with
    | error e => rfl
    | ok w => simp only [bind_assoc]; rfl
  · have hq₂ : s₂.heap q = some ⟨r', some ⟨ty, pp, u⟩⟩ := by rw [h₂, upd_other _ _ hne]; exact hq
    cases u with
    | none =>
      unfold RS
      rw [bind_assoc, M.bind_eq, readU_none hq₂]
      refine Bad.here (Or.inl ⟨.deadObject, ?_⟩)
      rw [M.bind_eq, DeadAt.readObj (fun r v e => by simp [view, hq₂, viewCell, viewBody] at e)]
    | some v =>
      rw [bind_assoc]
      refine RS.left (readU_some hq₂) (RS.right (det_readObj q) (readObj_view hq₂) ?_)
      rw [bind_assoc]
      refine (rs_choose G₂).bind det_choose fun c t _ G1 _ => ?_
      cases P.copy ty v c with
      | error e => exact RS.throwE G1 e
      | ok w =>
        simp only [bind_assoc]
        refine (rs_build (fun k t G => rs_copyMember h G mem q k) (fun k t G => rs_dropMembers h mem k t G)
          (Node.det_copyMember tr h.det mem q) (Node.det_dropMembers tr h.det mem) K t G1).bind
          (Node.det_build (Node.det_copyMember tr h.det mem q) (Node.det_dropMembers tr h.det mem) K)
          fun _ t _ G2 _ => RS.pure G2 (ty, w)

theorem rs_node_move {b : A} (G : GoodN s) {mem q : Addr} {r r' : R} {ty : Ty} {pp : Option Addr} {u : Option V}
    (hm : s.heap mem = some ⟨r, none⟩) (hq : s.heap q = some ⟨r', some ⟨ty, pp, u⟩⟩) :
    RS (cbCtor ty b mem (fun a m => (node tr P K I).moveCtor ty a m q)) ((Node.node tr P.owned K I').moveCtor b mem q) s := by
  have hne : q ≠ mem := by rintro rfl; rw [hm] at hq; cases hq
  refine rs_cbCtor (how := .moveOf q) G hm
    (pre := do
      let v ← readU ty q
      let c ← choose
      writeU q (P.move ty v c).2
      match (P.move ty v c).1 with
      | .error e => M.throwE e
      | .ok w => do
        Composite.build (moveMember tr I mem q) (dropMembers tr I mem) K
        pure w)
    (pre' := do
      let v ← readObj q
      let c ← choose
      writeObj q (v.1, (P.move v.1 v.2 c).2)
      match (P.move v.1 v.2 c).1 with
      | .error e => M.throwE e
      | .ok w => do
        Node.buildMembers (Node.moveMember tr I' mem q) (Node.dropMembers tr I' mem) K
        pure (v.1, w)) ?_ ?_ fun s₂ G₂ h₂ => ?_
  · show (readU ty q >>= fun v => choose >>= fun c => writeU q (P.move ty v c).2 >>= fun _ => _) = _
    simp only [bind_assoc]
    congr 1; funext v; congr 1; funext c; congr 1; funext _
    cases (P.move ty v c).1 with
    | error e => rfl
    | ok w => simp only [bind_assoc]; rfl
  · show (readObj q >>= fun v => choose >>= fun c => writeObj q (v.1, (P.move v.1 v.2 c).2) >>= fun _ => _) = _
    simp only [bind_assoc]
    congr 1; funext v; congr 1; funext c; congr 1; funext _
    have ho : (P.owned.move v c).1 = (P.move v.1 v.2 c).1.map (v.1, ·) := rfl
    rw [ho]
    cases (P.move v.1 v.2 c).1 with
    | error e => rfl
    | ok w => simp only [bind_assoc]; rfl
  · have hq₂ : s₂.heap q = some ⟨r', some ⟨ty, pp, u⟩⟩ := by rw [h₂, upd_other _ _ hne]; exact hq
    cases u with
    | none =>
      unfold RS
      rw [bind_assoc, M.bind_eq, readU_none hq₂]
      refine Bad.here (Or.inl ⟨.deadObject, ?_⟩)
      rw [M.bind_eq, DeadAt.readObj (fun r v e => by simp [view, hq₂, viewCell, viewBody] at e)]
    | some v =>
      rw [bind_assoc]
      refine RS.left (readU_some hq₂) (RS.right (det_readObj q) (readObj_view hq₂) ?_)
      rw [bind_assoc]
      refine (rs_choose G₂).bind det_choose fun c t hc G1 _ => ?_
      rw [bind_assoc]
      have hqt : t.heap q = some ⟨r', some ⟨ty, pp, some v⟩⟩ := by cases hc; exact hq₂
      refine (rs_writeU G1 hqt).bind (det_writeObj q _) fun _ t _ G1 _ => ?_
      simp only
      cases (P.move ty v c).1 with
      | error e => exact RS.throwE G1 e
      | ok w =>
        simp only [bind_assoc]
        refine (rs_build (fun k t G => rs_moveMember h G mem q k) (fun k t G => rs_dropMembers h mem k t G)
          (Node.det_moveMember tr h.det mem q) (Node.det_dropMembers tr h.det mem) K t G1).bind
          (Node.det_build (Node.det_moveMember tr h.det mem q) (Node.det_dropMembers tr h.det mem) K)
          fun _ t _ G2 _ => RS.pure G2 (ty, w)

theorem rs_node_destroy (G : GoodN s) {q : Addr} {r : R} {ty : Ty} {pp : Option Addr} {u : Option V} (a : A)
    (hq : s.heap q = some ⟨r, some ⟨ty, pp, u⟩⟩) :
    RS (destroyCB tr (node tr P K I) ty q a) (Indirect.destroyWith tr (Node.node tr P.owned K I') a q) s := by
  cases u with
  | none =>
    have h1 : destroyCB tr (node tr P K I) ty q a s = .ub .deadObject := by
      unfold destroyCB node endU
      simp only [M.bind_eq, readU_none hq]
    unfold RS
    rw [h1]
    refine Bad.here (Or.inl ⟨.deadObject, ?_⟩)
    have hd : DeadAt (view s) q := fun r v e => by simp [view, hq, viewCell, viewBody] at e
    unfold Indirect.destroyWith Node.node
    simp only [M.bind_eq, hd.readObj]
  | some v =>
    let s₁ : PSt N A R Ty V := { s with heap := upd s.heap q (some ⟨r, some ⟨ty, pp, none⟩⟩),
                                        trace := s.trace ++ [.destroy q] }
    have hend : endU ty q s = .ok () s₁ := by
      unfold endU
      rw [M.bind_ok (readU_some hq)]
      simp [readCB, readBody, writeBody, emit, M.bind_eq, hq, s₁]
    have hend' : (do let _ ← readObj q; writeBody q none; emit (.destroy q) : M (Node.NSt N A R (Ty × V)) Unit) (view s) =
        .ok () (view s₁) := by
      rw [M.bind_ok (readObj_view hq)]
      have he : (view s).heap q = some ⟨r, some (ty, v)⟩ := by simp [view, hq, viewCell, viewBody]
      simp only [writeBody, M.bind_eq, he, emit]
      simp only [view, s₁, view_upd]
      rfl
    have hdt : Det (do let _ ← readObj q; writeBody q none; emit (.destroy q) : M (Node.NSt N A R (Ty × V)) Unit) :=
      det_bind (det_readObj q) fun _ => det_bind (det_writeBody _ _) fun _ => det_emit _
    have hne : ∀ p r' ty' pp', s.heap p = some ⟨r', some ⟨ty', pp', none⟩⟩ → p ≠ q := by
      rintro p r' ty' pp' hp rfl; rw [hq] at hp; cases hp
    have K1 : Kept s s₁ := by
      intro p r' ty' pp' hp
      show upd s.heap q _ p = _
      rw [upd_other _ _ (hne p _ _ _ hp)]; exact hp
    have G₁ : GoodN s₁ := by
      refine ⟨G.good.updNone q r ⟨ty, pp, none⟩ rfl, ?_, fin_upd G.fin _ _⟩
      intro p r' c hp
      have hp : upd s.heap q _ p = _ := hp
      by_cases e : p = q
      · subst e; rw [upd_same] at hp; cases hp; exact G.ptr p r ⟨ty, pp, some v⟩ hq
      · rw [upd_other _ _ e] at hp; exact G.ptr p r' c hp
    have hl : destroyCB tr (node tr P K I) ty q a s = (do dropMembers tr I q K; deallocate (tr.res a) q) s₁ := by
      show ((endU ty q >>= fun _ => dropMembers tr I q K) >>= fun _ => deallocate (tr.res a) q) s = _
      rw [bind_assoc, M.bind_ok hend]
    have hr : Indirect.destroyWith tr (Node.node tr P.owned K I') a q =
        ((do let _ ← readObj q; writeBody q none; emit (.destroy q) : M (Node.NSt N A R (Ty × V)) Unit) >>= fun _ =>
          (do Node.dropMembers tr I' q K; deallocate (tr.res a) q)) := by
      unfold Indirect.destroyWith Node.node
      simp only [bind_assoc]
    have hdr := rs_dropMembers h q K s₁ G₁
    unfold RS at hdr ⊢
    rw [hl, hr]
    rw [M.bind_ok hend', M.bind_eq]
    have hbad : ∀ {m : M (Node.NSt N A R (Ty × V)) Unit}, Bad m (view s₁) →
        Bad ((do let _ ← readObj q; writeBody q none; emit (.destroy q) : M (Node.NSt N A R (Ty × V)) Unit) >>=
          fun _ => m) (view s) := fun hb => Bad.bind_right hdt hend' hb
    cases hd : dropMembers tr I q K s₁ with
    | ok x t =>
      rw [hd] at hdr
      obtain ⟨Gt, kt, ht⟩ := hdr
      have := rs_deallocate Gt (K1.trans kt) (tr.res a) q (by intro r' ty' pp' e; exact hne q _ _ _ e rfl)
      simp only
      rw [M.bind_ok ht]
      cases hdd : deallocate (tr.res a) q t with
      | ok y z => rw [hdd] at this; exact this
      | threw y z => rw [hdd] at this; exact this.elim
      | terminated => rw [hdd] at this; exact this.elim
      | ub y =>
        rw [hdd] at this
        exact hbad (Bad.bind_right (Node.det_dropMembers tr h.det q K) ht (Bad.here (Or.inl this)))
      | diverged => rw [hdd] at this; exact this.elim
    | threw x t =>
      rw [hd] at hdr
      obtain ⟨Gt, kt, ht⟩ := hdr
      exact ⟨Gt, K1.trans kt, M.bind_threw ht⟩
    | terminated => rw [hd] at hdr; simp only; rw [M.bind_eq, hdr]
    | ub x => rw [hd] at hdr; exact hbad (Bad.bind_left hdr)
    | diverged => rw [hd] at hdr; simp only; rw [M.bind_eq, hdr]

theorem opsSim_node : OpsSim tr (node tr P K I) (Node.node tr P.owned K I') where
  det := Node.det_node tr P.owned K h.det
  notAssignable := rfl
  make _ _ _ ty us G hm := rs_node_make h G ty us hm
  copy _ _ _ _ _ _ _ _ G hm hq := rs_node_copy h G hm hq
  move _ _ _ _ _ _ _ _ G hm hq := rs_node_move h G hm hq
  destroy _ _ _ _ _ _ a G hq := rs_node_destroy h G a hq
  copyBad w mem q hd := Or.inl ⟨.deadObject, by unfold Node.node; simp only [M.bind_eq, hd.readObj]⟩
  moveBad w mem q hd := Or.inl ⟨.deadObject, by unfold Node.node; simp only [M.bind_eq, hd.readObj]⟩
  block _ _ _ := rfl
  dtorBad w _ q hd := Or.inl ⟨.deadObject, by unfold Node.node; simp only [M.bind_eq, hd.readObj]⟩

end

theorem rs_cbCtor_diverge {b : A} {mem : Addr} {r : R} (ty : Ty) (hm : s.heap mem = some ⟨r, none⟩) :
    RS (cbCtor ty b mem (fun _ _ => M.diverge)) M.diverge s := by
  have : cbCtor ty b mem (fun _ _ => M.diverge) s = .diverged := by
    unfold cbCtor
    rw [M.bind_ok (beginCB_eval hm ty)]
    rfl
  unfold RS
  rw [this]
  rfl

theorem opsSim_ops (tr : ATraits A R) (P : PSpec Ty V X) (K : Nat) :
    ∀ n, OpsSim tr (ops tr P K n : POps (PSt N A R Ty V) A Ty X) (Node.ops tr P.owned K n)
  | 0 =>
    { det := Node.det_ops tr P.owned K 0
      notAssignable := rfl
      make := fun _ _ _ ty _ _ hm => rs_cbCtor_diverge ty hm
      copy := fun _ _ _ _ _ ty _ _ _ hm _ => rs_cbCtor_diverge ty hm
      move := fun _ _ _ _ _ ty _ _ _ hm _ => rs_cbCtor_diverge ty hm
      destroy := fun _ _ _ _ _ _ _ _ _ => rfl
      copyBad := fun _ _ _ _ => Or.inr rfl
      moveBad := fun _ _ _ _ => Or.inr rfl
      dtorBad := fun _ _ _ _ => Or.inr rfl
      block := fun _ _ _ => rfl }
  | n + 1 => opsSim_node (opsSim_ops tr P K n)

theorem rs_walk : ∀ (ks : List Nat) (l : Loc N) (s : PSt N A R Ty V), GoodN s → RS (walk l ks) (Node.walk l ks) s
  | [], _, _, G => RS.pure G _
  | k :: ks, l, _, G => rs_access G l fun p t G1 => rs_walk ks (.field p k) t G1

theorem rs_exec (n : Nat) (o : Stmt N A Ty X) (G : GoodN s) :
    RS (exec tr P K n o) (Node.exec tr P.owned K n o.asN) s := by
  have h : OpsSim tr (ops tr P K n : POps (PSt N A R Ty V) A Ty X) (Node.ops tr P.owned K n) := opsSim_ops tr P K n
  have hr : ∀ {t : PSt N A R Ty V} (p : Path N), GoodN t → RS (resolve p) (Node.resolve p) t := fun p G =>
    rs_walk p.steps (.var p.root) _ G
  have hd : ∀ p : Path N, Det (Node.resolve p : M (Node.NSt N A R (Ty × V)) _) := fun p => Node.det_walk _ _
  cases o with
  | make p a ty us =>
    exact (hr p G).bind (hd p) fun l t _ G1 _ => (rs_ctorInPlaceA h G1 a ty us).bind (det_ctorInPlaceA tr h.det _ _)
      fun k t _ G2 _ => rs_emplace G2 l k
  | copy p q =>
    exact (hr p G).bind (hd p) fun l t _ G1 _ => (hr q G1).bind (hd q) fun m t _ G1 _ =>
      (rs_ctorCopy h G1 m).bind (det_ctorCopy tr h.det _) fun k t _ G2 _ => rs_emplace G2 l k
  | copyA p a q =>
    exact (hr p G).bind (hd p) fun l t _ G1 _ => (hr q G1).bind (hd q) fun m t _ G1 _ =>
      (rs_ctorCopyA h G1 a m).bind (det_ctorCopyA tr h.det _ _) fun k t _ G2 _ => rs_emplace G2 l k
  | moveA p a q =>
    exact (hr p G).bind (hd p) fun l t _ G1 _ => (hr q G1).bind (hd q) fun m t _ G1 _ =>
      (rs_ctorMoveA h G1 a m).bind (det_ctorMoveA tr h.det _ _) fun k t _ G2 _ => rs_emplace G2 l k
  | move p q =>
    exact (hr p G).bind (hd p) fun l t _ G1 _ => (hr q G1).bind (hd q) fun m t _ G1 _ =>
      (rs_ctorMove h G1 m).bind (det_ctorMove tr h.det _) fun k t _ G2 _ => rs_emplace G2 l k
  | drop p =>
    exact (hr p G).bind (hd p) fun l t _ G1 _ => rs_dtor h G1 l
  | assign p q =>
    exact (hr p G).bind (hd p) fun l t _ G1 _ => (hr q G1).bind (hd q) fun m t _ G1 _ =>
      (rs_assignCopy h G1 l m).bind (det_assignCopy tr h.det _ _) fun _ t _ G2 _ => RS.pure G2 _
  | moveAssign p q =>
    exact (hr p G).bind (hd p) fun l t _ G1 _ => (hr q G1).bind (hd q) fun m t _ G1 _ =>
      (rs_assignMove h G1 l m).bind (det_assignMove tr h.det _ _) fun _ t _ G2 _ => RS.pure G2 _
  | swap p q =>
    exact (hr p G).bind (hd p) fun l t _ G1 _ => (hr q G1).bind (hd q) fun m t _ G1 _ => rs_swap G1 l m

end
end PNode
end Verif
