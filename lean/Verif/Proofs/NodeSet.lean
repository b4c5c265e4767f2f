import Verif.Proofs.NodeWorld
import Verif.Spec.NodeRun

set_option autoImplicit false
set_option linter.unusedSectionVars false
set_option linter.unusedSimpArgs false

/-! Assignment of nodes: `*P = **Q` and `*P = std::move(**Q)`. -/

namespace Verif.Node
open Verif

section
variable {N A R V X : Type} [DecidableEq N] [DecidableEq R]
variable {res : A → R} {K : Nat}

/-! ### Places -/

theorem upd_comm {α β : Type} [DecidableEq α] (f : α → β) {a b : α} (x y : β) (h : a ≠ b) :
    upd (upd f a x) b y = upd (upd f b y) a x := by
  funext z
  by_cases e : z = b
  · subst e; rw [upd_same, upd_other _ _ (Ne.symm h), upd_same]
  · rw [upd_other _ _ e]
    by_cases e' : z = a
    · subst e'; rw [upd_same, upd_same]
    · rw [upd_other _ _ e', upd_other _ _ e', upd_other _ _ e]

theorem at_append : ∀ (r r' : List Nat) (t : Tree A V), t.Has K r → t.at' (r ++ r') = (t.at' r).at' r'
  | [], r', t, _ => by cases t <;> rfl
  | _ :: _, _, .absent, h => h.elim
  | _ :: _, _, .hollow _, h => h.elim
  | k :: r, r', .node _ _ _ ks, h => at_append r r' (ks k) h.2

theorem has_append : ∀ (r r' : List Nat) (t : Tree A V), t.Has K (r ++ r') → t.Has K r ∧ (t.at' r).Has K r'
  | [], r', t, h => ⟨by cases t <;> trivial, by cases t <;> exact h⟩
  | _ :: _, _, .absent, h => h.elim
  | _ :: _, _, .hollow _, h => h.elim
  | k :: r, r', .node _ _ _ ks, h =>
    ⟨⟨h.1, (has_append r r' (ks k) h.2).1⟩, (has_append r r' (ks k) h.2).2⟩

theorem place_append : ∀ (r r' : List Nat) (l : Loc N) (t : Tree A V), t.Has K r →
    place l t (r ++ r') = place (place l t r) (t.at' r) r'
  | [], r', l, t, _ => by cases t <;> rfl
  | _ :: _, _, _, .absent, h => h.elim
  | _ :: _, _, _, .hollow _, h => h.elim
  | k :: r, r', _, .node p _ _ ks, h => place_append r r' (.field p k) (ks k) h.2

theorem at_put_apart : ∀ (t u : Tree A V) (r z : List Nat), ¬ r <+: z → ¬ z <+: r →
    (t.put r u).at' z = t.at' z
  | _, _, [], z, h, _ => absurd (List.nil_prefix) h
  | _, _, _ :: _, [], _, h => absurd (List.nil_prefix) h
  | .absent, _, _ :: _, _ :: _, _, _ => rfl
  | .hollow _, _, _ :: _, _ :: _, _, _ => rfl
  | .node p a v ks, u, k :: r, j :: z, h, h' => by
    show (if j = k then (ks k).put r u else ks j).at' z = (ks j).at' z
    by_cases e : j = k
    · subst e
      rw [if_pos rfl]
      refine at_put_apart _ _ _ _ (fun hp => h ?_) (fun hp => h' ?_)
      · exact (List.cons_prefix_cons).2 ⟨rfl, hp⟩
      · exact (List.cons_prefix_cons).2 ⟨rfl, hp⟩
    · rw [if_neg e]

theorem treeAt_putAt_apart {W : N → Tree A V} {P Z : Path N} {t : Tree A V} (h : P.Apart Z) :
    treeAt (putAt W P t) Z = treeAt W Z := by
  unfold treeAt putAt
  by_cases e : Z.root = P.root
  · rw [e, upd_same]
    rcases h with h | h
    · exact absurd e.symm h
    · exact at_put_apart _ _ _ _ h.1 h.2
  · rw [upd_other _ _ e]

theorem at_put_same : ∀ (t u : Tree A V) (r : List Nat), t.Has K r → (t.put r u).at' r = u
  | t, u, [], _ => by cases t <;> cases u <;> rfl
  | .absent, _, _ :: _, h => h.elim
  | .hollow _, _, _ :: _, h => h.elim
  | .node p a v ks, u, k :: r, h => by
    show (if k = k then (ks k).put r u else ks k).at' r = u
    rw [if_pos rfl]; exact at_put_same _ _ _ h.2

theorem treeAt_putAt_same {W : N → Tree A V} {P : Path N} {t : Tree A V} (h : Exists K W P) :
    treeAt (putAt W P t) P = t := by
  unfold treeAt putAt
  rw [upd_same]; exact at_put_same _ _ _ h

theorem put_put : ∀ (t u u' : Tree A V) (r : List Nat), (t.put r u).put r u' = t.put r u'
  | t, u, _, [] => by cases t <;> cases u <;> rfl
  | .absent, _, _, _ :: _ => rfl
  | .hollow _, _, _, _ :: _ => rfl
  | .node p a v ks, u, u', k :: r => by
    rw [put_node, put_node, put_node, upd_same, upd_upd, put_put]

theorem putAt_putAt {W : N → Tree A V} {P : Path N} (t u : Tree A V) : putAt (putAt W P t) P u = putAt W P u := by
  unfold putAt; rw [upd_same, upd_upd, put_put]

theorem has_put_same : ∀ (t u : Tree A V) (r : List Nat), t.Has K r → (t.put r u).Has K r
  | t, u, [], _ => by cases t <;> cases u <;> trivial
  | .absent, _, _ :: _, h => h.elim
  | .hollow _, _, _ :: _, h => h.elim
  | .node p a v ks, u, k :: r, h => by
    rw [put_node]
    exact ⟨h.1, by rw [upd_same]; exact has_put_same _ _ _ h.2⟩

theorem has_put_apart : ∀ (t u : Tree A V) (r z : List Nat), ¬ r <+: z → ¬ z <+: r → t.Has K z → (t.put r u).Has K z
  | _, _, [], _, h, _, _ => absurd List.nil_prefix h
  | _, _, _ :: _, [], _, h, _ => absurd List.nil_prefix h
  | .absent, _, _ :: _, _ :: _, _, _, h => h
  | .hollow _, _, _ :: _, _ :: _, _, _, h => h
  | .node p a v ks, u, k :: r, j :: z, h, h', hh => by
    rw [put_node]
    refine ⟨hh.1, ?_⟩
    by_cases e : j = k
    · subst e
      rw [upd_same]
      exact has_put_apart _ _ _ _ (fun hp => h (List.cons_prefix_cons.2 ⟨rfl, hp⟩))
        (fun hp => h' (List.cons_prefix_cons.2 ⟨rfl, hp⟩)) hh.2
    · rw [upd_other _ _ e]; exact hh.2

theorem put_comm : ∀ (t u u' : Tree A V) (r z : List Nat), ¬ r <+: z → ¬ z <+: r →
    (t.put r u).put z u' = (t.put z u').put r u
  | _, _, _, [], _, h, _ => absurd List.nil_prefix h
  | _, _, _, _ :: _, [], _, h => absurd List.nil_prefix h
  | .absent, _, _, _ :: _, _ :: _, _, _ => rfl
  | .hollow _, _, _, _ :: _, _ :: _, _, _ => rfl
  | .node p a v ks, u, u', k :: r, j :: z, h, h' => by
    rw [put_node, put_node, put_node, put_node]
    by_cases e : j = k
    · subst e
      rw [upd_same, upd_same, upd_upd, upd_upd, put_comm _ _ _ _ _ (fun hp => h (List.cons_prefix_cons.2 ⟨rfl, hp⟩))
        (fun hp => h' (List.cons_prefix_cons.2 ⟨rfl, hp⟩))]
    · rw [upd_other _ _ e, upd_other _ _ (Ne.symm e), upd_comm _ _ _ (Ne.symm e)]

theorem exists_putAt {W : N → Tree A V} {P : Path N} {t : Tree A V} (h : Exists K W P) : Exists K (putAt W P t) P := by
  unfold Exists putAt; rw [upd_same]; exact has_put_same _ _ _ h

theorem exists_putAt_apart {W : N → Tree A V} {P Q : Path N} {t : Tree A V} (ha : P.Apart Q) (h : Exists K W Q) :
    Exists K (putAt W P t) Q := by
  unfold Exists putAt
  by_cases e : Q.root = P.root
  · rw [e, upd_same]
    exact has_put_apart _ _ _ _ (ha.resolve_left (fun h => h e.symm)).1 (ha.resolve_left (fun h => h e.symm)).2
      (by rw [← e]; exact h)
  · rw [upd_other _ _ e]; exact h

theorem putAt_comm {W : N → Tree A V} {P Q : Path N} {t u : Tree A V} (ha : P.Apart Q) :
    putAt (putAt W P t) Q u = putAt (putAt W Q u) P t := by
  unfold putAt
  by_cases e : Q.root = P.root
  · have := ha.resolve_left (fun h => h e.symm)
    rw [e, upd_same, upd_same, upd_upd, upd_upd, put_comm _ _ _ _ _ this.1 this.2]
  · rw [upd_other _ _ e, upd_other _ _ (Ne.symm e), upd_comm _ _ _ (Ne.symm e)]

section
variable {W : N → Tree A V} {P Q : Path N} {d : Addr} {c : A} {v : V} {ks : Nat → Tree A V} {k : Nat}

theorem has_snoc1 : ∀ (r : List Nat) (t : Tree A V), t.Has K r → t.at' r = .node d c v ks → k < K → t.Has K (r ++ [k])
  | [], t, _, e, hk => by
    have : t = .node d c v ks := by cases t <;> exact e
    subst this
    exact ⟨hk, by cases ks k <;> trivial⟩
  | _ :: _, .absent, h, _, _ => h.elim
  | _ :: _, .hollow _, h, _, _ => h.elim
  | j :: r, .node _ _ _ js, h, e, hk => ⟨h.1, has_snoc1 r (js j) h.2 e hk⟩

theorem exists_below (hP : Exists K W P) (ht : treeAt W P = .node d c v ks) (hk : k < K) :
    Exists K W (below P [k]) := has_snoc1 _ _ hP ht hk

theorem treeAt_below (hP : Exists K W P) (ht : treeAt W P = .node d c v ks) :
    treeAt W (below P [k]) = ks k := by
  have : treeAt W (below P [k]) = (treeAt W P).at' [k] := at_append _ _ _ hP
  rw [this, ht]
  show (ks k).at' [] = ks k
  cases ks k <;> rfl

theorem loc_below (hP : Exists K W P) (ht : treeAt W P = .node d c v ks) : loc W (below P [k]) = .field d k := by
  have : loc W (below P [k]) = place (loc W P) (treeAt W P) [k] := place_append _ _ _ _ hP
  rw [this, ht]
  show place (.field d k) (ks k) [] = _
  cases ks k <;> rfl

theorem put_snoc : ∀ (r : List Nat) (t u : Tree A V), t.Has K r → t.at' r = .node d c v ks →
    t.put (r ++ [k]) u = t.put r (.node d c v (upd ks k u))
  | [], t, u, _, e => by
    have : t = .node d c v ks := by cases t <;> exact e
    subst this
    show (Tree.node d c v ks).put [k] u = _
    rw [put_node]
    have : (ks k).put [] u = u := by cases ks k <;> rfl
    rw [this]; rfl
  | _ :: _, .absent, _, h, _ => h.elim
  | _ :: _, .hollow _, _, h, _ => h.elim
  | j :: r, .node _ _ _ js, u, h, e => by
    rw [List.cons_append, put_node, put_node, put_snoc r (js j) u h.2 e]

theorem putAt_below (hP : Exists K W P) (ht : treeAt W P = .node d c v ks) (u : Tree A V) :
    putAt W (below P [k]) u = putAt W P (.node d c v (upd ks k u)) := by
  unfold putAt below
  rw [put_snoc _ _ _ hP ht]

theorem apart_below (h : P.Apart Q) (r r' : List Nat) : (below P r).Apart (below Q r') := by
  refine h.imp id fun ⟨h1, h2⟩ => ?_
  have key : ∀ {x y : List Nat}, ¬ x <+: y → ¬ y <+: x → ∀ z z', ¬ (x ++ z) <+: (y ++ z') := by
    intro x y hx hy z z' hp
    rcases List.prefix_or_prefix_of_prefix ((List.prefix_append x z).trans hp) (List.prefix_append y z') with h | h
    · exact hx h
    · exact hy h
  exact ⟨key h1 h2 _ _, key h2 h1 _ _⟩

end

variable (tr : ATraits A R) (T : TSpec V X)

section
variable {W : N → Tree A V} {P Q : Path N} {d q : Addr} {a b : A} {u v : V} {js ks : Nat → Tree A V} {k n : Nat}
variable {z : NSt N A R V}

theorem hasMember_world (w : World tr.res K W z) (hP : Exists K W P) (ht : treeAt W P = .node d a u js) (hk : k < K) :
    hasMember (N := N) (A := A) d k z = .ok (z.hs (.field d k)).isSome z ∧
      Holds tr.res K z (z.hs (.field d k)) (js k) := by
  have hh := w.at_holds hP
  rw [ht] at hh
  refine ⟨?_, hh.2.2 k hk⟩
  unfold hasMember
  rw [M.bind_ok (readObj_some hh.2.1)]; rfl

/-- Copy assignment of one member, in a world. -/
theorem copyAssignMember_world (hS : tr.Sound) (hR : tr.Reflexive) (w : World tr.res K W z)
    (hP : Exists K W P) (htP : treeAt W P = .node d a u js) (hQ : Exists K W Q) (htQ : treeAt W Q = .node q b v ks)
    (hA : P.Apart Q) (hk : k < K) (hj : (js k).height K ≤ n) (hn : (ks k).height K ≤ n) :
    Post False
      (fun _ z' => ∃ t, World tr.res K (putAt W (below P [k]) t) z' ∧ (ks k).Like (Given T) K t)
      (fun z' => ∃ t, World tr.res K (putAt W (below P [k]) t) z')
      (copyAssignMember tr (ops tr T K n) d q k z) := by
  obtain ⟨m1, h1⟩ := hasMember_world tr w hP htP hk
  obtain ⟨m2, h2⟩ := hasMember_world tr w hQ htQ hk
  have eP := exists_below hP htP hk
  have eQ := exists_below hQ htQ hk
  have tP : treeAt W (below P [k]) = js k := treeAt_below hP htP
  have tQ : treeAt W (below Q [k]) = ks k := treeAt_below hQ htQ
  have lP : loc W (below P [k]) = .field d k := loc_below hP htP
  have lQ : loc W (below Q [k]) = .field q k := loc_below hQ htQ
  have hA' := apart_below hA [k] [k]
  have hne : below P [k] ≠ below Q [k] := fun e => by
    rw [e] at hA'; exact hA'.elim (fun h => h rfl) (fun h => h.1 List.prefix_rfl)
  have same_of : ∀ {z'}, World tr.res K W z' → World tr.res K (putAt W (below P [k]) (js k)) z' := fun w' => by
    rw [← tP, putAt_self eP]; exact w'
  have same := same_of w
  unfold copyAssignMember
  rw [M.bind_ok m2]
  by_cases hs : ks k = .absent
  · have e2 : z.hs (.field q k) = none := by rw [hs] at h2; exact h2
    rw [e2]
    simp only [Option.isSome_none, Bool.false_eq_true, if_false]
    rw [M.bind_ok m1]
    by_cases hd : js k = .absent
    · have e1 : z.hs (.field d k) = none := by rw [hd] at h1; exact h1
      rw [e1]
      simp only [Option.isSome_none, Bool.false_eq_true, if_false]
      exact ⟨.absent, by rw [← hd]; exact same, by rw [hs]; rfl⟩
    · rw [h1.isSome hd]
      simp only [if_true]
      have := exec_basic tr T hS hR w n (.drop (below P [k])) ⟨⟨eP, by rw [tP]; exact hd⟩, by unfold Fits; rw [tP]; exact hj⟩
        trivial
      have e : exec tr T K n (.drop (below P [k])) z = Indirect.dtor tr (ops tr T K n) (.field d k) z := by
        show (resolve (below P [k]) >>= _) z = _
        rw [M.bind_ok (resolve_eq w eP), lP]
      rw [e] at this
      refine this.mono ?_ ?_ (fun h => h.elim)
      · rintro _ z' ⟨W', rfl, w'⟩; exact ⟨.absent, w', by rw [hs]; rfl⟩
      · rintro z' ⟨W', h, w'⟩; exact h.elim
  · rw [h2.isSome hs]
    simp only [if_true]
    rw [M.bind_ok m1]
    by_cases hd : js k = .absent
    · have e1 : z.hs (.field d k) = none := by rw [hd] at h1; exact h1
      rw [e1]
      simp only [Option.isSome_none, Bool.false_eq_true, if_false]
      have := exec_basic tr T hS hR w n (.copy (below P [k]) (below Q [k]))
        ⟨⟨eP, by rw [tP]; exact hd⟩, ⟨eQ, by rw [tQ]; exact hs⟩, by unfold Fits; rw [tQ]; exact hn⟩ trivial
      have e : exec tr T K n (.copy (below P [k]) (below Q [k])) z =
          (Indirect.ctorCopy tr (ops tr T K n) (.field q k) >>= fun h => emplace (.field d k) h) z := by
        show (resolve (below P [k]) >>= _) z = _
        rw [M.bind_ok (resolve_eq w eP), M.bind_ok (resolve_eq w eQ), lP, lQ]
      rw [e] at this
      refine this.mono ?_ ?_ (fun h => h.elim)
      · rintro _ z' ⟨W', ⟨t, hc, _, rfl⟩, w'⟩
        rw [tQ] at hc
        exact ⟨t, w', hc.like (fun _ _ h => Or.inl h)⟩
      · rintro z' ⟨W', h, w'⟩
        have h : W' = W := h
        subst h
        exact ⟨_, same_of w'⟩
    · rw [h1.isSome hd]
      simp only [if_true]
      have := exec_basic tr T hS hR w n (.assign (below P [k]) (below Q [k]))
        ⟨⟨eP, by rw [tP]; exact hd⟩, ⟨eQ, by rw [tQ]; exact hs⟩, by unfold Fits; rw [tP]; exact hj,
          by unfold Fits; rw [tQ]; exact hn, Or.inr hA'⟩ trivial
      have e : exec tr T K n (.assign (below P [k]) (below Q [k])) z =
          (Indirect.assignCopy tr (ops tr T K n) (.field d k) (.field q k) >>= fun _ => pure ()) z := by
        show (resolve (below P [k]) >>= _) z = _
        rw [M.bind_ok (resolve_eq w eP), M.bind_ok (resolve_eq w eQ), lP, lQ]
      rw [e] at this
      refine this.mono ?_ ?_ (fun h => h.elim)
      · rintro _ z' ⟨W', h, w'⟩
        simp only [Step, hne, if_false] at h
        obtain ⟨t, hl, _, _, _, rfl⟩ := h
        rw [tQ] at hl
        exact ⟨t, w', hl⟩
      · rintro z' ⟨W', ⟨⟨t, _, rfl⟩, _⟩, w'⟩; exact ⟨t, w'⟩

/-- Move assignment of one member, in a world. -/
theorem moveAssignMember_world (hS : tr.Sound) (hR : tr.Reflexive) (w : World tr.res K W z)
    (hP : Exists K W P) (htP : treeAt W P = .node d a u js) (hQ : Exists K W Q) (htQ : treeAt W Q = .node q b v ks)
    (hA : P.Apart Q) (hk : k < K) (hj : (js k).height K ≤ n) (hn : (ks k).height K ≤ n) :
    Post ((tr.pocma || tr.alwaysEqual) = true ∧ js k ≠ .absent ∧ ks k ≠ .absent ∧
        tr.eq ((js k).allocOr tr.dflt) ((ks k).allocOr tr.dflt) = false)
      (fun _ z' => ∃ t t', World tr.res K (putAt (putAt W (below P [k]) t) (below Q [k]) t') z' ∧
        MemberMoved tr T K (js k) (ks k) t t')
      (fun z' => ∃ t t', World tr.res K (putAt (putAt W (below P [k]) t) (below Q [k]) t') z')
      (moveAssignMember tr (ops tr T K n) d q k z) := by
  obtain ⟨m1, h1⟩ := hasMember_world tr w hP htP hk
  obtain ⟨m2, h2⟩ := hasMember_world tr w hQ htQ hk
  have eP := exists_below hP htP hk
  have eQ := exists_below hQ htQ hk
  have tP : treeAt W (below P [k]) = js k := treeAt_below hP htP
  have tQ : treeAt W (below Q [k]) = ks k := treeAt_below hQ htQ
  have lP : loc W (below P [k]) = .field d k := loc_below hP htP
  have lQ : loc W (below Q [k]) = .field q k := loc_below hQ htQ
  have hA' := apart_below hA [k] [k]
  have hne : below P [k] ≠ below Q [k] := fun e => by
    rw [e] at hA'; exact hA'.elim (fun h => h rfl) (fun h => h.1 List.prefix_rfl)
  have same : ∀ {U : N → Tree A V} {z' : NSt N A R V}, World tr.res K U z' → treeAt U (below P [k]) = js k →
      Exists K U (below P [k]) → World tr.res K (putAt U (below P [k]) (js k)) z' := fun w' h1 h2 => by
    rw [← h1, putAt_self h2]; exact w'
  have keepQ : ∀ (t : Tree A V), putAt (putAt W (below P [k]) t) (below Q [k]) (ks k) = putAt W (below P [k]) t := by
    intro t
    have : treeAt (putAt W (below P [k]) t) (below Q [k]) = ks k := by rw [treeAt_putAt_apart hA', tQ]
    rw [← this, putAt_self (exists_putAt_apart hA' eQ)]
  unfold moveAssignMember
  rw [M.bind_ok m2]
  by_cases hs : ks k = .absent
  · have e2 : z.hs (.field q k) = none := by rw [hs] at h2; exact h2
    rw [e2]
    simp only [Option.isSome_none, Bool.false_eq_true, if_false]
    rw [M.bind_ok m1]
    by_cases hd : js k = .absent
    · have e1 : z.hs (.field d k) = none := by rw [hd] at h1; exact h1
      rw [e1]
      simp only [Option.isSome_none, Bool.false_eq_true, if_false]
      refine ⟨js k, ks k, ?_, fun _ => ⟨hd, hs⟩, fun h => absurd hs h, fun h => absurd hs h⟩
      rw [keepQ]; exact same w tP eP
    · rw [h1.isSome hd]
      simp only [if_true]
      have := exec_basic tr T hS hR w n (.drop (below P [k])) ⟨⟨eP, by rw [tP]; exact hd⟩, by unfold Fits; rw [tP]; exact hj⟩
        trivial
      have e : exec tr T K n (.drop (below P [k])) z = Indirect.dtor tr (ops tr T K n) (.field d k) z := by
        show (resolve (below P [k]) >>= _) z = _
        rw [M.bind_ok (resolve_eq w eP), lP]
      rw [e] at this
      refine this.mono ?_ ?_ (fun h => h.elim)
      · rintro _ z' ⟨W', rfl, w'⟩
        exact ⟨.absent, ks k, by rw [keepQ]; exact w', fun _ => ⟨rfl, hs⟩, fun h => absurd hs h, fun h => absurd hs h⟩
      · rintro z' ⟨W', h, w'⟩; exact h.elim
  · rw [h2.isSome hs]
    simp only [if_true]
    rw [M.bind_ok m1]
    by_cases hd : js k = .absent
    · have e1 : z.hs (.field d k) = none := by rw [hd] at h1; exact h1
      rw [e1]
      simp only [Option.isSome_none, Bool.false_eq_true, if_false]
      have := exec_basic tr T hS hR w n (.move (below P [k]) (below Q [k]))
        ⟨⟨eP, by rw [tP]; exact hd⟩, ⟨eQ, by rw [tQ]; exact hs⟩, hA'⟩ trivial
      have e : exec tr T K n (.move (below P [k]) (below Q [k])) z =
          (Indirect.ctorMove tr (ops tr T K n) (.field q k) >>= fun h => emplace (.field d k) h) z := by
        show (resolve (below P [k]) >>= _) z = _
        rw [M.bind_ok (resolve_eq w eP), M.bind_ok (resolve_eq w eQ), lP, lQ]
      rw [e] at this
      refine this.mono ?_ ?_ (fun h => h.elim)
      · rintro _ z' ⟨W', h, w'⟩
        have h : W' = _ := h
        subst h
        rw [tQ] at w'
        exact ⟨ks k, (ks k).emptied, w', fun h => absurd h hs, fun _ _ => ⟨rfl, rfl⟩, fun _ h => absurd hd h⟩
      · rintro z' ⟨W', h, w'⟩; exact h.elim
    · rw [h1.isSome hd]
      simp only [if_true]
      have := exec_basic tr T hS hR w n (.moveAssign (below P [k]) (below Q [k]))
        ⟨⟨eP, by rw [tP]; exact hd⟩, ⟨eQ, by rw [tQ]; exact hs⟩, by unfold Fits; rw [tP]; exact hj,
          by unfold Fits; rw [tQ]; exact hn, Or.inr hA'⟩ trivial
      have e : exec tr T K n (.moveAssign (below P [k]) (below Q [k])) z =
          (Indirect.assignMove tr (ops tr T K n) (.field d k) (.field q k) >>= fun _ => pure ()) z := by
        show (resolve (below P [k]) >>= _) z = _
        rw [M.bind_ok (resolve_eq w eP), M.bind_ok (resolve_eq w eQ), lP, lQ]
      rw [e] at this
      refine this.mono ?_ ?_ ?_
      · rintro _ z' ⟨W', h, w'⟩
        simp only [Step, hne, if_false] at h
        obtain ⟨t, t', h1, h2, h3, h4, rfl⟩ := h
        rw [tQ] at h1 h2 h3 h4
        rw [tP] at h3 h4
        exact ⟨t, t', w', fun h => absurd h hs, fun _ h => absurd h hd, fun _ _ => ⟨h1, h2, h3, h4⟩⟩
      · rintro z' ⟨W', ⟨q', b', v', v'', ls, ht, rfl⟩, w'⟩
        refine ⟨js k, .node q' b' v'' ls, ?_⟩
        have hb : putAt W (below P [k]) (js k) = W := by rw [← tP, putAt_self eP]
        rw [hb]; exact w'
      · rintro ⟨g1, g2⟩
        rw [tP, tQ] at g2
        exact ⟨g1, hd, hs, g2⟩

/-- The payload of a node is written. -/
theorem World.touch {W : N → Tree A V} {z z' : NSt N A R V} {P : Path N} (w : World res K W z) (hP : Exists K W P)
    (ht : treeAt W P = .node d a u js) {x : V} (h1 : z'.heap = upd z.heap d (some ⟨res a, some x⟩)) (h2 : z'.hs = z.hs) :
    World res K (putAt W P (.node d a x js)) z' := by
  obtain ⟨hf, hb⟩ := w.one hP
  have hh := w.at_holds hP
  rw [ht] at hh
  have ct := Chng.touch (b := a) (w := x) hf w.clean ht rfl
  have hw := hb _ _ ct
  rw [upd_same] at hw
  exact hw.congr h1 (by rw [h2]; exact (upd_id _ _ _ hh.1).symm)

/-- Copy assignment of a node, in a world. -/
theorem copyAssign_world (hS : tr.Sound) (hR : tr.Reflexive) (w : World tr.res K W z)
    (hP : Exists K W P) (htP : treeAt W P = .node d a u js) (hQ : Exists K W Q) (htQ : treeAt W Q = .node q b v ks)
    (hA : P.Apart Q) (hj : ∀ k, k < K → (js k).height K ≤ n) (hn : ∀ k, k < K → (ks k).height K ≤ n) :
    Post False
      (fun _ z' => ∃ x c ks', T.copyAssign u v c = (none, x) ∧ (∀ k, k < K → (ks k).Like (Given T) K (ks' k)) ∧
        World tr.res K (putAt W P (.node d a x ks')) z')
      (fun z' => ∃ x ks', World tr.res K (putAt W P (.node d a x ks')) z')
      ((ops tr T K (n + 1)).copyAssign d q z) := by
  have hhP := w.at_holds hP
  rw [htP] at hhP
  have hhQ := w.at_holds hQ
  rw [htQ] at hhQ
  show Post _ _ _ ((readObj d >>= fun d' => readObj q >>= fun v => choose >>= fun ch =>
    emit (.assign d (.copyOf q)) >>= fun _ => writeObj d (T.copyAssign d' v ch).2 >>= fun _ =>
    rethrow (T.copyAssign d' v ch).1 >>= fun _ =>
    eachMember (copyAssignMember tr (ops tr T K n) d q) K) z)
  rw [M.bind_ok (readObj_some hhP.2.1), M.bind_ok (readObj_some hhQ.2.1)]
  rw [M.bind_ok (show (choose : M (NSt N A R V) Nat) z = .ok (z.env.choice z.ti) { z with ti := z.ti + 1 } from rfl)]
  rw [M.bind_ok (show emit (Ev.assign d (.copyOf q)) ({ z with ti := z.ti + 1 } : NSt N A R V) =
    .ok () { z with ti := z.ti + 1, trace := z.trace ++ [.assign d (.copyOf q)] } from rfl)]
  generalize hca : T.copyAssign u v (z.env.choice z.ti) = ca
  obtain ⟨ex, x⟩ := ca
  have hwr := writeObj_some (p := d) (r := tr.res a) (v := u) x
    (s := { z with ti := z.ti + 1, trace := z.trace ++ [.assign d (.copyOf q)] }) hhP.2.1
  rw [M.bind_ok hwr]
  have w₁ := w.touch (x := x) hP htP (z' := { z with
    ti := z.ti + 1, trace := z.trace ++ [.assign d (.copyOf q)]
    heap := upd z.heap d (some ⟨tr.res a, some x⟩) }) rfl rfl
  generalize ({ z with
    ti := z.ti + 1, trace := z.trace ++ [.assign d (.copyOf q)]
    heap := upd z.heap d (some ⟨tr.res a, some x⟩) } : NSt N A R V) = z₁ at w₁
  cases ex with
  | some e => exact ⟨x, js, w₁⟩
  | none =>
    show Post _ _ _ (eachMember (copyAssignMember tr (ops tr T K n) d q) K z₁)
    refine (each_rule (P := fun k y => ∃ ks', World tr.res K (putAt W P (.node d a x ks')) y ∧
      (∀ i, i < k → (ks i).Like (Given T) K (ks' i)) ∧ (∀ i, k ≤ i → ks' i = js i)) ?_
      ⟨js, w₁, fun i h => absurd h (Nat.not_lt_zero i), fun _ _ => rfl⟩).mono ?_ (fun _ h => h) id
    · rintro k hk y ⟨ks', wy, hl, ho⟩
      have eP : Exists K (putAt W P (.node d a x ks')) P := exists_putAt hP
      have tP : treeAt (putAt W P (.node d a x ks')) P = .node d a x ks' := treeAt_putAt_same hP
      have eQ : Exists K (putAt W P (.node d a x ks')) Q := exists_putAt_apart hA hQ
      have tQ : treeAt (putAt W P (.node d a x ks')) Q = .node q b v ks := by rw [treeAt_putAt_apart hA]; exact htQ
      refine (copyAssignMember_world tr T hS hR wy eP tP eQ tQ hA hk
        (by rw [ho k (Nat.le_refl k)]; exact hj k hk) (hn k hk)).mono ?_ ?_ id
      · rintro _ y' ⟨t, wt, hlk⟩
        rw [putAt_below eP tP, putAt_putAt] at wt
        refine ⟨upd ks' k t, wt, fun i hi => ?_, fun i hi => ?_⟩
        · by_cases e : i = k
          · subst e; rw [upd_same]; exact hlk
          · rw [upd_other _ _ e]; exact hl i (by omega)
        · rw [upd_other _ _ (by omega)]; exact ho i (by omega)
      · rintro y' ⟨t, wt⟩
        rw [putAt_below eP tP, putAt_putAt] at wt
        exact ⟨x, _, wt⟩
    · rintro _ y ⟨ks', wy, hl, _⟩
      exact ⟨x, _, ks', hca, hl, wy⟩

/-- Move assignment of a node, in a world. -/
theorem moveAssign_world (hS : tr.Sound) (hR : tr.Reflexive) (w : World tr.res K W z)
    (hP : Exists K W P) (htP : treeAt W P = .node d a u js) (hQ : Exists K W Q) (htQ : treeAt W Q = .node q b v ks)
    (hA : P.Apart Q) (hdq : d ≠ q) (hj : ∀ k, k < K → (js k).height K ≤ n) (hn : ∀ k, k < K → (ks k).height K ≤ n) :
    Post ((tr.pocma || tr.alwaysEqual) = true ∧ ∃ k, k < K ∧ js k ≠ .absent ∧ ks k ≠ .absent ∧
        tr.eq ((js k).allocOr tr.dflt) ((ks k).allocOr tr.dflt) = false)
      (fun _ z' => ∃ x y c js' ks', T.moveAssign u v c = (none, x, y) ∧
        (∀ k, k < K → MemberMoved tr T K (js k) (ks k) (js' k) (ks' k)) ∧
        World tr.res K (putAt (putAt W P (.node d a x js')) Q (.node q b y ks')) z')
      (fun z' => ∃ x y js' ks', World tr.res K (putAt (putAt W P (.node d a x js')) Q (.node q b y ks')) z')
      ((ops tr T K (n + 1)).moveAssign d q z) := by
  have hhP := w.at_holds hP
  rw [htP] at hhP
  have hhQ := w.at_holds hQ
  rw [htQ] at hhQ
  have hA' := Apart.symm hA
  show Post _ _ _ ((readObj d >>= fun d' => readObj q >>= fun v => choose >>= fun ch =>
    emit (.assign d (.moveOf q)) >>= fun _ => writeObj q (T.moveAssign d' v ch).2.2 >>= fun _ =>
    writeObj d (T.moveAssign d' v ch).2.1 >>= fun _ =>
    rethrow (T.moveAssign d' v ch).1 >>= fun _ =>
    eachMember (moveAssignMember tr (ops tr T K n) d q) K) z)
  rw [M.bind_ok (readObj_some hhP.2.1), M.bind_ok (readObj_some hhQ.2.1)]
  rw [M.bind_ok (show (choose : M (NSt N A R V) Nat) z = .ok (z.env.choice z.ti) { z with ti := z.ti + 1 } from rfl)]
  rw [M.bind_ok (show emit (Ev.assign d (.moveOf q)) ({ z with ti := z.ti + 1 } : NSt N A R V) =
    .ok () { z with ti := z.ti + 1, trace := z.trace ++ [.assign d (.moveOf q)] } from rfl)]
  generalize hca : T.moveAssign u v (z.env.choice z.ti) = ca
  obtain ⟨ex, x, y⟩ := ca
  have hwr := writeObj_some (p := q) (r := tr.res b) (v := v) y
    (s := { z with ti := z.ti + 1, trace := z.trace ++ [.assign d (.moveOf q)] }) hhQ.2.1
  rw [M.bind_ok hwr]
  have w₁ := w.touch (x := y) hQ htQ (z' := { z with
    ti := z.ti + 1, trace := z.trace ++ [.assign d (.moveOf q)]
    heap := upd z.heap q (some ⟨tr.res b, some y⟩) }) rfl rfl
  have e1 : Exists K (putAt W Q (.node q b y ks)) P := exists_putAt_apart hA' hP
  have t1 : treeAt (putAt W Q (.node q b y ks)) P = .node d a u js := by rw [treeAt_putAt_apart hA']; exact htP
  have hd₁ : (upd z.heap q (some ⟨tr.res b, some y⟩)) d = some ⟨tr.res a, some u⟩ := by
    rw [upd_other _ _ hdq]; exact hhP.2.1
  have hwr' := writeObj_some (p := d) (r := tr.res a) (v := u) x
    (s := { z with
      ti := z.ti + 1, trace := z.trace ++ [.assign d (.moveOf q)]
      heap := upd z.heap q (some ⟨tr.res b, some y⟩) }) hd₁
  rw [M.bind_ok hwr']
  have w₂ := w₁.touch (x := x) e1 t1 (z' := { z with
    ti := z.ti + 1, trace := z.trace ++ [.assign d (.moveOf q)]
    heap := upd (upd z.heap q (some ⟨tr.res b, some y⟩)) d (some ⟨tr.res a, some x⟩) }) rfl rfl
  generalize ({ z with
    ti := z.ti + 1, trace := z.trace ++ [.assign d (.moveOf q)]
    heap := upd (upd z.heap q (some ⟨tr.res b, some y⟩)) d (some ⟨tr.res a, some x⟩) } : NSt N A R V) = z₂ at w₂
  rw [putAt_comm hA'] at w₂
  cases ex with
  | some e => exact ⟨x, y, js, ks, w₂⟩
  | none =>
    show Post _ _ _ (eachMember (moveAssignMember tr (ops tr T K n) d q) K z₂)
    refine (each_rule (P := fun k s => ∃ js' ks',
      World tr.res K (putAt (putAt W P (.node d a x js')) Q (.node q b y ks')) s ∧
      (∀ i, i < k → MemberMoved tr T K (js i) (ks i) (js' i) (ks' i)) ∧
      (∀ i, k ≤ i → js' i = js i ∧ ks' i = ks i)) ?_
      ⟨js, ks, w₂, fun i h => absurd h (Nat.not_lt_zero i), fun _ _ => ⟨rfl, rfl⟩⟩).mono ?_ (fun _ h => h) id
    · rintro k hk s ⟨js', ks', ws, hl, ho⟩
      have eP : Exists K (putAt (putAt W P (.node d a x js')) Q (.node q b y ks')) P :=
        exists_putAt_apart hA' (exists_putAt hP)
      have tP : treeAt (putAt (putAt W P (.node d a x js')) Q (.node q b y ks')) P = .node d a x js' := by
        rw [treeAt_putAt_apart hA', treeAt_putAt_same hP]
      have eQ : Exists K (putAt (putAt W P (.node d a x js')) Q (.node q b y ks')) Q :=
        exists_putAt (exists_putAt_apart hA hQ)
      have tQ : treeAt (putAt (putAt W P (.node d a x js')) Q (.node q b y ks')) Q = .node q b y ks' :=
        treeAt_putAt_same (exists_putAt_apart hA hQ)
      obtain ⟨o1, o2⟩ := ho k (Nat.le_refl k)
      have hput : ∀ t t', putAt (putAt (putAt (putAt W P (.node d a x js')) Q (.node q b y ks')) (below P [k]) t)
          (below Q [k]) t' = putAt (putAt W P (.node d a x (upd js' k t))) Q (.node q b y (upd ks' k t')) := by
        intro t t'
        rw [putAt_below eP tP, ← putAt_comm hA, putAt_putAt]
        rw [putAt_below (exists_putAt (exists_putAt_apart hA hQ)) (treeAt_putAt_same (exists_putAt_apart hA hQ)),
          putAt_putAt]
      refine (moveAssignMember_world tr T hS hR ws eP tP eQ tQ hA hk
        (by rw [o1]; exact hj k hk) (by rw [o2]; exact hn k hk)).mono ?_ ?_ ?_
      · rintro _ s' ⟨t, t', wt, hmm⟩
        rw [hput] at wt
        rw [o1, o2] at hmm
        refine ⟨upd js' k t, upd ks' k t', wt, fun i hi => ?_, fun i hi => ?_⟩
        · by_cases e : i = k
          · subst e; rw [upd_same, upd_same]; exact hmm
          · rw [upd_other _ _ e, upd_other _ _ e]; exact hl i (by omega)
        · rw [upd_other _ _ (by omega), upd_other _ _ (by omega)]; exact ho i (by omega)
      · rintro s' ⟨t, t', wt⟩
        rw [hput] at wt
        exact ⟨x, y, _, _, wt⟩
      · rintro ⟨g1, g2, g3, g4⟩
        rw [o1] at g2; rw [o2] at g3; rw [o1, o2] at g4
        exact ⟨g1, k, hk, g2, g3, g4⟩
    · rintro _ s ⟨js', ks', ws, hl, _⟩
      exact ⟨x, y, _, js', ks', hca, hl, ws⟩

/-- The members of a node assigned to themselves. -/
theorem copyAssignMember_self (w : World tr.res K W z) (hP : Exists K W P) (htP : treeAt W P = .node d a u js)
    (I : TOps (NSt N A R V) A X) (hk : k < K) : copyAssignMember tr I d d k z = .ok () z := by
  obtain ⟨m1, h1⟩ := hasMember_world tr w hP htP hk
  unfold copyAssignMember
  rw [M.bind_ok m1]
  cases hz : z.hs (.field d k) with
  | none => simp only [Option.isSome_none, Bool.false_eq_true, if_false]; rw [M.bind_ok m1, hz]; rfl
  | some h =>
    simp only [Option.isSome_some, if_true]; rw [M.bind_ok m1, hz]
    simp only [Option.isSome_some, if_true]
    unfold Indirect.assignCopy
    rw [if_pos rfl]; rfl

theorem moveAssignMember_self (w : World tr.res K W z) (hP : Exists K W P) (htP : treeAt W P = .node d a u js)
    (I : TOps (NSt N A R V) A X) (hk : k < K) : moveAssignMember tr I d d k z = .ok () z := by
  obtain ⟨m1, h1⟩ := hasMember_world tr w hP htP hk
  unfold moveAssignMember
  rw [M.bind_ok m1]
  cases hz : z.hs (.field d k) with
  | none => simp only [Option.isSome_none, Bool.false_eq_true, if_false]; rw [M.bind_ok m1, hz]; rfl
  | some h =>
    simp only [Option.isSome_some, if_true]; rw [M.bind_ok m1, hz]
    simp only [Option.isSome_some, if_true]
    unfold Indirect.assignMove M.noexceptIf
    rw [if_pos rfl]; rfl

theorem each_same {f : Nat → M (NSt N A R V) Unit} : ∀ {k : Nat} {s : NSt N A R V}, (∀ j, j < k → f j s = .ok () s) →
    eachMember f k s = .ok () s
  | 0, _, _ => rfl
  | k + 1, s, h => by
    show (eachMember f k >>= fun _ => f k) s = _
    rw [M.bind_ok (each_same fun j hj => h j (Nat.lt_succ_of_lt hj))]
    exact h k (Nat.lt_succ_self k)

/-- Copy assignment of a node to itself. -/
theorem copyAssign_self (w : World tr.res K W z) (hP : Exists K W P) (htP : treeAt W P = .node d a u js) :
    Post False (fun _ z' => ∃ x c, T.copyAssign u u c = (none, x) ∧ World tr.res K (putAt W P (.node d a x js)) z')
      (fun z' => ∃ x, World tr.res K (putAt W P (.node d a x js)) z')
      ((ops tr T K (n + 1)).copyAssign d d z) := by
  have hhP := w.at_holds hP
  rw [htP] at hhP
  show Post _ _ _ ((readObj d >>= fun d' => readObj d >>= fun v => choose >>= fun ch =>
    emit (.assign d (.copyOf d)) >>= fun _ => writeObj d (T.copyAssign d' v ch).2 >>= fun _ =>
    rethrow (T.copyAssign d' v ch).1 >>= fun _ =>
    eachMember (copyAssignMember tr (ops tr T K n) d d) K) z)
  rw [M.bind_ok (readObj_some hhP.2.1), M.bind_ok (readObj_some hhP.2.1)]
  rw [M.bind_ok (show (choose : M (NSt N A R V) Nat) z = .ok (z.env.choice z.ti) { z with ti := z.ti + 1 } from rfl)]
  rw [M.bind_ok (show emit (Ev.assign d (.copyOf d)) ({ z with ti := z.ti + 1 } : NSt N A R V) =
    .ok () { z with ti := z.ti + 1, trace := z.trace ++ [.assign d (.copyOf d)] } from rfl)]
  generalize hca : T.copyAssign u u (z.env.choice z.ti) = ca
  obtain ⟨ex, x⟩ := ca
  have hwr := writeObj_some (p := d) (r := tr.res a) (v := u) x
    (s := { z with ti := z.ti + 1, trace := z.trace ++ [.assign d (.copyOf d)] }) hhP.2.1
  rw [M.bind_ok hwr]
  have w₁ := w.touch (x := x) hP htP (z' := { z with
    ti := z.ti + 1, trace := z.trace ++ [.assign d (.copyOf d)]
    heap := upd z.heap d (some ⟨tr.res a, some x⟩) }) rfl rfl
  generalize ({ z with
    ti := z.ti + 1, trace := z.trace ++ [.assign d (.copyOf d)]
    heap := upd z.heap d (some ⟨tr.res a, some x⟩) } : NSt N A R V) = z₁ at w₁
  cases ex with
  | some e => exact ⟨x, w₁⟩
  | none =>
    show Post _ _ _ (eachMember (copyAssignMember tr (ops tr T K n) d d) K z₁)
    rw [each_same fun k hk => copyAssignMember_self tr w₁ (exists_putAt hP) (treeAt_putAt_same hP) _ hk]
    exact ⟨x, _, hca, w₁⟩

/-- Move assignment of a node to itself. -/
theorem moveAssign_self (w : World tr.res K W z) (hP : Exists K W P) (htP : treeAt W P = .node d a u js) :
    Post False (fun _ z' => ∃ x y c, T.moveAssign u u c = (none, x, y) ∧
        World tr.res K (putAt W P (.node d a x js)) z')
      (fun z' => ∃ x, World tr.res K (putAt W P (.node d a x js)) z')
      ((ops tr T K (n + 1)).moveAssign d d z) := by
  have hhP := w.at_holds hP
  rw [htP] at hhP
  show Post _ _ _ ((readObj d >>= fun d' => readObj d >>= fun v => choose >>= fun ch =>
    emit (.assign d (.moveOf d)) >>= fun _ => writeObj d (T.moveAssign d' v ch).2.2 >>= fun _ =>
    writeObj d (T.moveAssign d' v ch).2.1 >>= fun _ =>
    rethrow (T.moveAssign d' v ch).1 >>= fun _ =>
    eachMember (moveAssignMember tr (ops tr T K n) d d) K) z)
  rw [M.bind_ok (readObj_some hhP.2.1), M.bind_ok (readObj_some hhP.2.1)]
  rw [M.bind_ok (show (choose : M (NSt N A R V) Nat) z = .ok (z.env.choice z.ti) { z with ti := z.ti + 1 } from rfl)]
  rw [M.bind_ok (show emit (Ev.assign d (.moveOf d)) ({ z with ti := z.ti + 1 } : NSt N A R V) =
    .ok () { z with ti := z.ti + 1, trace := z.trace ++ [.assign d (.moveOf d)] } from rfl)]
  generalize hca : T.moveAssign u u (z.env.choice z.ti) = ca
  obtain ⟨ex, x, y⟩ := ca
  have hwr := writeObj_some (p := d) (r := tr.res a) (v := u) y
    (s := { z with ti := z.ti + 1, trace := z.trace ++ [.assign d (.moveOf d)] }) hhP.2.1
  rw [M.bind_ok hwr]
  have hwr' := writeObj_some (p := d) (r := tr.res a) (v := y) x
    (s := { z with
      ti := z.ti + 1, trace := z.trace ++ [.assign d (.moveOf d)]
      heap := upd z.heap d (some ⟨tr.res a, some y⟩) }) (upd_same _ _ _)
  rw [M.bind_ok hwr']
  have w₁ := w.touch (x := x) hP htP (z' := { z with
    ti := z.ti + 1, trace := z.trace ++ [.assign d (.moveOf d)]
    heap := upd (upd z.heap d (some ⟨tr.res a, some y⟩)) d (some ⟨tr.res a, some x⟩) }) (upd_upd _ _ _ _) rfl
  generalize ({ z with
    ti := z.ti + 1, trace := z.trace ++ [.assign d (.moveOf d)]
    heap := upd (upd z.heap d (some ⟨tr.res a, some y⟩)) d (some ⟨tr.res a, some x⟩) } : NSt N A R V) = z₁ at w₁
  cases ex with
  | some e => exact ⟨x, w₁⟩
  | none =>
    show Post _ _ _ (eachMember (moveAssignMember tr (ops tr T K n) d d) K z₁)
    rw [each_same fun k hk => moveAssignMember_self tr w₁ (exists_putAt hP) (treeAt_putAt_same hP) _ hk]
    exact ⟨x, y, _, hca, w₁⟩

end

/-- The main theorem: every legal statement. -/
theorem exec_spec (hS : tr.Sound) (hR : tr.Reflexive) {W : N → Tree A V} {s : NSt N A R V}
    (w : World tr.res K W s) (n : Nat) (o : NOp N A X) (hL : Legal tr K W n o) :
    Post (MayTerminate tr K W o) (fun _ s' => ∃ W', Step tr T K W o W' ∧ World tr.res K W' s')
      (fun s' => ∃ W', Failed tr T W o W' ∧ World tr.res K W' s') (exec tr T K n o s) := by
  have hstill : ∀ {s'}, Still s s' → World tr.res K W s' := fun h => w.congr h.1 h.2
  by_cases hB : Basic o
  · exact exec_basic tr T hS hR w n o hL hB
  cases o with
  | setCopy P Q =>
    obtain ⟨hP, ⟨hQ, q, b, v, ks, htQ⟩, hnP, hnQ, hA⟩ := hL
    have hhQ := w.at_holds hQ
    have hnQ : (treeAt W Q).height K ≤ n := hnQ
    have hnP : (treeAt W P).height K ≤ n := hnP
    have hnQ' := hnQ
    rw [htQ] at hhQ hnQ
    obtain ⟨m, rfl, hm⟩ := Tree.height_kid hnQ
    show Post _ _ _ ((resolve Q >>= fun m' => Indirect.deref m' >>= fun q => resolve P >>= fun l =>
      Indirect.assignFrom tr (ops tr T K (m + 1)) l (.lval q) >>= fun _ => pure ()) s)
    rw [M.bind_ok (resolve_eq w hQ), M.bind_ok (deref_eq hhQ.1), M.bind_ok (resolve_eq w hP.1)]
    have hhP := w.at_holds hP.1
    cases htP : treeAt W P with
    | absent => exact absurd htP hP.2
    | hollow a =>
      have hPQ : P ≠ Q := fun e => by rw [e, htQ] at htP; cases htP
      rw [htP] at hhP
      have hh : s.hs (loc W P) = some ⟨none, a⟩ := hhP
      obtain ⟨hf, hb⟩ := w.one hP.1
      unfold Indirect.assignFrom
      rw [bind_assoc, M.bind_ok (valueless_eq hh)]
      simp only [beq_self_eq_true, if_true]
      rw [bind_assoc, M.bind_ok (getH_some hh), bind_assoc]
      refine Post.bind ((build_spec tr T _ (m + 1) hnQ' a s _ q b v ks htQ (w.at_holds hQ) w.clean).mono (fun _ _ h => h)
        (fun s' h => ⟨W, Or.inl rfl, hstill h⟩) (fun h => h.elim)) ?_
      rintro p s' ⟨t', hnew, hcp⟩
      have hf' := hnew.keeps_forest hf
      have c0 : Chng tr.res K (· = loc W P) (fun _ => treeAt W P)
          (upd (fun _ => treeAt W P) (loc W P) (.hollow a)) s' s' := by
        rw [upd_eq (by exact htP)]; exact Chng.refl hf' hnew.clean
      have cr := hnew.replace hf c0 (loc_lt hP.1)
      have hl' : s'.hs (loc W P) = some ⟨none, a⟩ := by
        have := hf'.holds _ rfl
        rw [htP] at this; exact this
      rw [bind_assoc, M.bind_ok (setP_some hl' (some p))]
      have hw := hb _ _ cr
      rw [upd_same] at hw
      refine ⟨_, ?_, hw⟩
      simp only [Step, hPQ, if_false]
      exact Or.inr ⟨a, t', htP, hcp, hnew.isFresh w, rfl⟩
    | node d a u js =>
      rw [htP] at hhP hnP
      obtain ⟨m', e, hm'⟩ := Tree.height_kid hnP
      cases e
      unfold Indirect.assignFrom
      rw [bind_assoc, M.bind_ok (valueless_eq hhP.1)]
      simp only [show ((some d : Option Addr) == none) = false from rfl, Bool.false_eq_true, if_false]
      rw [bind_assoc, M.bind_ok (deref_eq hhP.1), bind_assoc]
      show Post _ _ _ (((ops tr T K (m + 1)).copyAssign d q >>= fun _ => _) s)
      by_cases hPQ : P = Q
      · subst hPQ
        rw [htP] at htQ
        cases htQ
        refine Post.bind ((copyAssign_self tr T w hP.1 htP).mono (fun _ _ h => h) ?_ (fun h => h.elim)) ?_
        · rintro s' ⟨x, w'⟩
          exact ⟨_, Or.inr ⟨_, _, _, _, _, _, htP, rfl⟩, w'⟩
        · rintro _ s' ⟨x, c, hx, w'⟩
          refine ⟨_, ?_, w'⟩
          simp only [Step, if_true]
          exact ⟨_, _, _, _, _, _, htP, hx, rfl⟩
      · refine Post.bind ((copyAssign_world tr T hS hR w hP.1 htP hQ htQ (hA.resolve_left hPQ) hm' hm).mono
          (fun _ _ h => h) ?_ (fun h => h.elim)) ?_
        · rintro s' ⟨x, ks', w'⟩
          exact ⟨_, Or.inr ⟨_, _, _, _, _, _, htP, rfl⟩, w'⟩
        · rintro _ s' ⟨x, c, ks', hx, hl, w'⟩
          refine ⟨_, ?_, w'⟩
          simp only [Step, hPQ, if_false]
          exact Or.inl ⟨_, _, _, _, _, _, _, _, _, _, _, htP, htQ, hx, hl, rfl⟩
  | setMove P Q =>
    obtain ⟨hP, ⟨hQ, q, b, v, ks, htQ⟩, hnP, hnQ, hA⟩ := hL
    have hhQ := w.at_holds hQ
    have hnQ : (treeAt W Q).height K ≤ n := hnQ
    have hnP : (treeAt W P).height K ≤ n := hnP
    have hnQ' := hnQ
    rw [htQ] at hhQ hnQ
    obtain ⟨m, rfl, hm⟩ := Tree.height_kid hnQ
    show Post _ _ _ ((resolve Q >>= fun m' => Indirect.deref m' >>= fun q => resolve P >>= fun l =>
      Indirect.assignFrom tr (ops tr T K (m + 1)) l (.rval q) >>= fun _ => pure ()) s)
    rw [M.bind_ok (resolve_eq w hQ), M.bind_ok (deref_eq hhQ.1), M.bind_ok (resolve_eq w hP.1)]
    have hhP := w.at_holds hP.1
    cases htP : treeAt W P with
    | absent => exact absurd htP hP.2
    | hollow a =>
      have hPQ : P ≠ Q := fun e => by rw [e, htQ] at htP; cases htP
      rw [htP] at hhP
      have hh : s.hs (loc W P) = some ⟨none, a⟩ := hhP
      obtain ⟨hne, hf, hb⟩ := w.two hP.1 hQ (hA.resolve_left hPQ)
      have e1 : upd (fun _ => treeAt W P) (loc W Q) (treeAt W Q) (loc W P) = .hollow a := by
        rw [upd_other _ _ hne]; exact htP
      unfold Indirect.assignFrom
      rw [bind_assoc, M.bind_ok (valueless_eq hh)]
      simp only [beq_self_eq_true, if_true]
      rw [bind_assoc, M.bind_ok (getH_some hh), bind_assoc]
      have hbm := buildMove_spec tr T hR (m + 1) a (Nat.succ_pos m)
        (hf.one (Or.inr rfl : loc W Q = loc W P ∨ loc W Q = loc W Q)) w.clean
        (show upd (fun _ => treeAt W P) (loc W Q) (treeAt W Q) (loc W Q) = .node q b v ks by rw [upd_same]; exact htQ)
      refine Post.bind (hbm.mono (fun _ _ h => h) ?_ (fun h => h.elim)) ?_
      · rintro s' ⟨v', c⟩
        have hw := hb _ _ (Chng.right hf c)
        rw [upd_same, upd_other _ _ hne, e1, ← htP, putAt_self hP.1] at hw
        refine ⟨_, ?_, hw⟩
        simp only [Failed, hPQ, if_false]
        exact ⟨_, _, _, _, _, ks, htQ, Or.inl ⟨rfl, a, htP⟩⟩
      · rintro p s' ⟨x, v', ⟨c, hc⟩, sp⟩
        have hf1 := sp.keeps_one hf hne
        have hl1 := hf1.holds (loc W P) rfl
        rw [e1] at hl1
        have hl1 : s'.hs (loc W P) = some ⟨none, a⟩ := hl1
        have c0 : Chng tr.res K (· = loc W P) (upd (fun _ => treeAt W P) (loc W Q) (treeAt W Q))
            (upd (upd (fun _ => treeAt W P) (loc W Q) (treeAt W Q)) (loc W P) (.hollow a)) s' s' := by
          rw [upd_eq e1]; exact Chng.refl hf1 sp.clean
        rw [bind_assoc, M.bind_ok (setP_some hl1 (some p))]
        have cf := sp.place hf hne c0 (fun _ h => h) (loc_lt hP.1)
        have hw := hb _ _ cf
        rw [upd_other _ _ hne, upd_same, upd_same] at hw
        refine ⟨_, ?_, hw⟩
        simp only [Step, hPQ, if_false]
        refine Or.inr ⟨a, p, x, c, q, b, v, v', ks, htP, htQ, hc, ?_, rfl⟩
        have hpf : s.heap p = none := by
          refine (sp.src p (Or.inl rfl)).resolve_left ?_
          rw [upd_same, htQ]
          rintro (rfl | ⟨k, hk, hm⟩)
          · exact sp.apart p (Or.inl rfl) (Or.inl rfl)
          · exact sp.sep.1 k hk hm
        exact w.free hpf
    | node d a u js =>
      rw [htP] at hhP hnP
      obtain ⟨m', e, hm'⟩ := Tree.height_kid hnP
      cases e
      unfold Indirect.assignFrom
      rw [bind_assoc, M.bind_ok (valueless_eq hhP.1)]
      simp only [show ((some d : Option Addr) == none) = false from rfl, Bool.false_eq_true, if_false]
      rw [bind_assoc, M.bind_ok (deref_eq hhP.1), bind_assoc]
      show Post _ _ _ (((ops tr T K (m + 1)).moveAssign d q >>= fun _ => _) s)
      by_cases hPQ : P = Q
      · subst hPQ
        rw [htP] at htQ
        cases htQ
        refine Post.bind ((moveAssign_self tr T w hP.1 htP).mono (fun _ _ h => h) ?_ (fun h => h.elim)) ?_
        · rintro s' ⟨x, w'⟩
          refine ⟨_, ?_, w'⟩
          simp only [Failed, if_true]
          exact ⟨_, _, _, _, _, htP, rfl⟩
        · rintro _ s' ⟨x, y, c, hx, w'⟩
          refine ⟨_, ?_, w'⟩
          simp only [Step, if_true]
          exact ⟨_, _, _, _, _, _, _, htP, hx, rfl⟩
      · have hdq : d ≠ q := by
          obtain ⟨hne, hf, _⟩ := w.two hP.1 hQ (hA.resolve_left hPQ)
          rintro rfl
          refine hf.disj (loc W P) (loc W Q) (Or.inl rfl) (Or.inr rfl) hne d ?_ ?_
          · rw [upd_other _ _ hne, htP]; exact Or.inl rfl
          · rw [upd_same, htQ]; exact Or.inl rfl
        refine Post.bind ((moveAssign_world tr T hS hR w hP.1 htP hQ htQ (hA.resolve_left hPQ) hdq hm' hm).mono
          (fun _ _ h => h) ?_ ?_) ?_
        · rintro s' ⟨x, y, js', ks', w'⟩
          refine ⟨_, ?_, w'⟩
          simp only [Failed, hPQ, if_false]
          exact ⟨_, _, _, _, _, _, htQ, Or.inr ⟨_, _, _, _, _, _, htP, rfl⟩⟩
        · rintro ⟨h1, k, hk, h2, h3, h4⟩
          exact ⟨h1, hPQ, _, _, _, _, _, _, _, _, k, htP, htQ, hk, h2, h3, h4⟩
        · rintro _ s' ⟨x, y, c, js', ks', hx, hl, w'⟩
          refine ⟨_, ?_, w'⟩
          simp only [Step, hPQ, if_false]
          exact Or.inl ⟨_, _, _, _, _, _, _, _, _, _, _, _, _, htP, htQ, hx, hl, rfl⟩
  | _ => exact absurd trivial hB

end
end Verif.Node
