import Verif.Spec.Benchmark
import Verif.Proofs.Wrapper
import Verif.Props.IndirectConstruct
import Verif.Props.IndirectSwap
import Verif.Props.IndirectGlobal
import Verif.Props.PolyOps
import Verif.Props.PolySafety

/-!
# Lemmas about the benchmarks
-/

set_option autoImplicit false
set_option linter.unusedSectionVars false
set_option linter.unusedSimpArgs false

namespace Verif.Benchmark
open Verif
open Verif.Wrapper (newDelete newDelete_sound newT deleteT pointee newT_eq)

section
variable {L V X : Type} [DecidableEq L]
variable {T : TSpec V X} {s s' : St L Unit Unit (Obj V)}

theorem raw_make (x : L) (u : X) (s : St L Unit Unit (Obj V)) :
    rawStep (plain T) (.make x u) s = Indirect.step newDelete (plain T) (.make x none (.inPlace [u])) s := by
  simp only [rawStep, newT_eq, Indirect.step, Indirect.construct, Indirect.ctorInPlace, bind, M.andThen, pure, M.ret,
    newDelete]
  cases Indirect.constructFrom _ () _ s <;> rfl

theorem raw_clone {x y : L} (hy : Points s y) :
    rawStep (plain T) (.clone x y) s = Indirect.step newDelete (plain T) (.copy x y) s := by
  obtain ⟨v, hv⟩ := hy
  obtain ⟨q, r, hk, hq⟩ := Indirect.engaged hv
  have e1 : Indirect.ctorCopy newDelete (plain T) y s =
      (do let p ← Indirect.constructFrom newDelete () (fun a m => (plain T).copyCtor a m q)
          pure ⟨some p, ()⟩ : M (St L Unit Unit (Obj V)) (Handle Unit)) s := by
    simp [Indirect.ctorCopy, Indirect.ctorCopyA, Indirect.valueless, Indirect.deref, getH, hk, bind, M.andThen,
      pure, M.ret, newDelete]
  have e2 : pointee y s = .ok q s := by simp [pointee, getH, hk, bind, M.andThen, pure, M.ret]
  simp only [rawStep, cloneA, newT_eq, Indirect.step, bind, M.andThen, pure, M.ret, e2]
  rw [e1]
  simp only [bind, M.andThen, pure, M.ret]
  cases Indirect.constructFrom newDelete () (fun _ m => (plain T).copyCtor () m q) s <;> rfl

theorem raw_value (x : L) (s : St L Unit Unit (Obj V)) :
    rawStep (plain T) (.value x) s = Indirect.step newDelete (plain T) (.arrow x) s := rfl

theorem raw_drop {x : L} (I : Indirect.IInv newDelete s) (hx : Points s x) :
    rawStep (plain T) (.drop x) s = Indirect.step newDelete (plain T) (.destroy x) s := by
  obtain ⟨v, hv⟩ := hx
  obtain ⟨p, r, hk, _⟩ := Indirect.engaged hv
  obtain ⟨w, hw⟩ := I.own' hk rfl
  have e1 : Indirect.step newDelete (plain T) (.destroy x) s = .ok .unit { s with
      heap := upd s.heap p none
      hs := upd s.hs x none
      trace := s.trace ++ [.destroy p, .dealloc () p] } := by
    simp [-bind_pure_comp, Indirect.step, Indirect.dtor, M.noexceptIf, M.bind_eq,
      Indirect.reset_some newDelete T hk rfl hw, endLife]
  rw [e1]
  simp [-bind_pure_comp, rawStep, deleteT, M.bind_eq, getH, hk, plain, endObj, readObj, readBody, hw, writeBody, emit,
    deallocate, Body.occupied, endLife]

theorem unique_drop {x : L} (I : Indirect.IInv newDelete s) (hx : Points s x) :
    uniqueStep (plain T) (.drop x) s = rawStep (plain T) (.drop x) s := by
  obtain ⟨v, hv⟩ := hx
  obtain ⟨p, r, hk, _⟩ := Indirect.engaged hv
  obtain ⟨w, hw⟩ := I.own' hk rfl
  simp [-bind_pure_comp, uniqueStep, rawStep, deleteT, M.bind_eq, getH, hk, plain, endObj, readObj, readBody, hw, writeBody, emit,
    deallocate, Body.occupied, endLife, M.noexceptIf]

theorem raw_call (I : Indirect.IInv newDelete s) {o : Stmt L X} (e : Env) (hl : Legal s o) :
    rawCall (plain T) o e s = Indirect.call newDelete (plain T) (toOp o) e s := by
  cases o with
  | make x u => exact raw_make x u _
  | clone x y => exact raw_clone (s := s.enter e) hl.2
  | drop x => exact raw_drop (s := s.enter e) I hl
  | value x => exact raw_value x _

theorem unique_call (I : Indirect.IInv newDelete s) {o : Stmt L X} (e : Env) (hl : Legal s o) :
    uniqueCall (plain T) o e s = rawCall (plain T) o e s := by
  cases o with
  | drop x => exact unique_drop (s := s.enter e) I hl
  | _ => rfl

theorem legal_to {o : Stmt L X} (hl : Legal s o) : Spec.Legal newDelete (Indirect.abs s) (toOp o : Op L Unit V X) := by
  cases o with
  | make x u => exact ⟨hl, trivial⟩
  | clone x y => exact ⟨hl.1, _, hl.2.choose_spec⟩
  | drop x => exact ⟨_, hl.choose_spec⟩
  | value x =>
    obtain ⟨v, hv⟩ := hl
    exact ⟨v, by rw [Spec.valueOf, hv]; rfl⟩

/-- Two machines that agree on legal calls of reachable states agree on legal histories. -/
theorem runWith_eq {S O C D : Type} {f : C → S → Res S O} {g : D → S → Res S O} {legal : S → C → Prop} {R : S → Prop}
    {m : C → D} (heq : ∀ s c, R s → legal s c → f c s = g (m c) s)
    (hok : ∀ s c out s', R s → legal s c → f c s = .ok out s' → R s')
    (hth : ∀ s c x s', R s → legal s c → f c s = .threw x s' → R s') :
    ∀ cs s, R s → LegalWith f legal cs s → runWith f cs s = runWith g (cs.map m) s := by
  intro cs
  induction cs with
  | nil => intros; rfl
  | cons c cs ih =>
    intro s hR hl
    have h1 := heq s c hR hl.1
    have h2 := hl.2
    simp only [List.map_cons, runWith]
    rw [← h1]
    cases hc : f c s with
    | ok out t =>
      rw [hc] at h2
      simp only [ih t (hok _ _ _ _ hR hl.1 hc) h2]
    | threw x t =>
      rw [hc] at h2
      simp only [ih t (hth _ _ _ _ hR hl.1 hc) h2]
    | _ => rfl

end

section
variable {C S O A W R : Type} {call : C → Env → S → Res S O} {copy : Elem → Elem → C} {destroy : Elem → C}
variable {abs : S → Spec.Boxes Elem A W} {trace : S → List (Ev R)} {Re : S → Prop}

theorem Costs.trans {t t' t'' : List (Ev R)} {a c d f a' c' d' f' : Nat} (h : Costs t t' a c d f)
    (h' : Costs t' t'' a' c' d' f') : Costs t t'' (a + a') (c + c') (d + d') (f + f') := by
  obtain ⟨h1, h2, h3, h4⟩ := h
  obtain ⟨k1, k2, k3, k4⟩ := h'
  exact ⟨by omega, by omega, by omega, by omega⟩

theorem completes_append {cs ds : List (C × Env)} {s s' : S} :
    Completes call (cs ++ ds) s s' ↔ ∃ t, Completes call cs s t ∧ Completes call ds t s' := by
  induction cs generalizing s with
  | nil => simp [Completes]
  | cons c cs ih =>
    simp only [List.cons_append, Completes, ih]
    constructor
    · rintro ⟨out, t, h1, u, h2, h3⟩
      exact ⟨u, ⟨out, t, h1, h2⟩, h3⟩
    · rintro ⟨u, ⟨out, t, h1, h2⟩, h3⟩
      exact ⟨out, t, h1, u, h2, h3⟩

/-- What is needed of the copies and the destructions. -/
structure Works (call : C → Env → S → Res S O) (copy : Elem → Elem → C) (destroy : Elem → C)
    (abs : S → Spec.Boxes Elem A W) (trace : S → List (Ev R)) (Re : S → Prop) : Prop where
  copies : ∀ {s s' x y a w e out}, Re s → Spec.Dead (abs s) x → abs s y = some ⟨a, some w⟩ →
    call (copy x y) e s = .ok out s' → Re s' ∧ Costs (trace s) (trace s') 1 1 0 0 ∧
      ∃ a' w', abs s' = Spec.put (abs s) x ⟨a', some w'⟩
  drops : ∀ {s s' x a w e out}, Re s → abs s x = some ⟨a, some w⟩ → call (destroy x) e s = .ok out s' →
    Re s' ∧ Costs (trace s) (trace s') 0 0 1 1 ∧ abs s' = Spec.drop (abs s) x

theorem copies_run (H : Works call copy destroy abs trace Re) : ∀ (is : List (Nat × Env)) (s s' : S), Re s →
    (is.map Prod.fst).Nodup → (∀ i ∈ is.map Prod.fst, (∃ a w, abs s (false, i) = some ⟨a, some w⟩) ∧
      Spec.Dead (abs s) (true, i)) →
    Completes call (is.map fun i => (copy (true, i.1) (false, i.1), i.2)) s s' →
    Re s' ∧ Costs (trace s) (trace s') is.length is.length 0 0 ∧
      (∀ i ∈ is.map Prod.fst, ∃ a w, abs s' (true, i) = some ⟨a, some w⟩) ∧
      ∀ l, (∀ i ∈ is.map Prod.fst, l ≠ (true, i)) → abs s' l = abs s l := by
  intro is
  induction is with
  | nil =>
    intro s s' h _ _ hc
    cases hc
    exact ⟨h, ⟨rfl, rfl, rfl, rfl⟩, by simp, by simp⟩
  | cons i is ih =>
    intro s s' h hn hr hc
    obtain ⟨out, t, h1, h2⟩ := hc
    simp only [List.map_cons, List.nodup_cons] at hn
    obtain ⟨⟨a, w, hw⟩, hd⟩ := hr i.1 (by simp)
    obtain ⟨k1, k2, a', w', k3⟩ := H.copies h hd hw h1
    have hkeep : ∀ l, l ≠ (true, i.1) → abs t l = abs s l := by
      intro l hl
      simp [k3, Spec.put, upd, hl]
    obtain ⟨m1, m2, m3, m4⟩ := ih t s' k1 hn.2 (by
      intro j hj
      have hne : j ≠ i.1 := by rintro rfl; exact hn.1 hj
      obtain ⟨⟨b, u, hu⟩, hdj⟩ := hr j (by simp only [List.map_cons, List.mem_cons]; exact .inr hj)
      refine ⟨⟨b, u, by rw [hkeep _ (by simp)]; exact hu⟩, ?_⟩
      have := hkeep (true, j) (by simp [hne])
      simp only [Spec.Dead] at hdj ⊢
      rw [this]; exact hdj) h2
    refine ⟨m1, ?_, ?_, ?_⟩
    · have := k2.trans m2
      simpa [Nat.add_comm] using this
    · intro j hj
      simp only [List.map_cons, List.mem_cons] at hj
      rcases hj with rfl | hj
      · refine ⟨a', w', ?_⟩
        rw [m4 _ (by intro j hj; rintro ⟨⟩; exact hn.1 hj)]
        simp [k3, Spec.put, upd]
      · exact m3 j hj
    · intro l hl
      rw [m4 l (fun j hj => hl j (by simp only [List.map_cons, List.mem_cons]; exact .inr hj)),
        hkeep l (hl _ (by simp))]

theorem drops_run (H : Works call copy destroy abs trace Re) : ∀ (ds : List (Nat × Env)) (s s' : S), Re s →
    (ds.map Prod.fst).Nodup → (∀ i ∈ ds.map Prod.fst, ∃ a w, abs s (true, i) = some ⟨a, some w⟩) →
    Completes call (ds.map fun i => (destroy (true, i.1), i.2)) s s' →
    Re s' ∧ Costs (trace s) (trace s') 0 0 ds.length ds.length ∧
      (∀ i ∈ ds.map Prod.fst, abs s' (true, i) = none) ∧
      ∀ l, (∀ i ∈ ds.map Prod.fst, l ≠ (true, i)) → abs s' l = abs s l := by
  intro ds
  induction ds with
  | nil =>
    intro s s' h _ _ hc
    cases hc
    exact ⟨h, ⟨rfl, rfl, rfl, rfl⟩, by simp, by simp⟩
  | cons i is ih =>
    intro s s' h hn hr hc
    obtain ⟨out, t, h1, h2⟩ := hc
    simp only [List.map_cons, List.nodup_cons] at hn
    obtain ⟨a, w, hw⟩ := hr i.1 (by simp)
    obtain ⟨k1, k2, k3⟩ := H.drops h hw h1
    have hkeep : ∀ l, l ≠ (true, i.1) → abs t l = abs s l := by
      intro l hl
      simp [k3, Spec.drop, upd, hl]
    obtain ⟨m1, m2, m3, m4⟩ := ih t s' k1 hn.2 (by
      intro j hj
      have hne : j ≠ i.1 := by rintro rfl; exact hn.1 hj
      obtain ⟨b, u, hu⟩ := hr j (by simp only [List.map_cons, List.mem_cons]; exact .inr hj)
      exact ⟨b, u, by rw [hkeep _ (by simp [hne])]; exact hu⟩) h2
    refine ⟨m1, ?_, ?_, ?_⟩
    · have := k2.trans m2
      simpa [Nat.add_comm] using this
    · intro j hj
      simp only [List.map_cons, List.mem_cons] at hj
      rcases hj with rfl | hj
      · rw [m4 _ (by intro j hj; rintro ⟨⟩; exact hn.1 hj)]
        simp [k3, Spec.drop, upd]
      · exact m3 j hj
    · intro l hl
      rw [m4 l (fun j hj => hl j (by simp only [List.map_cons, List.mem_cons]; exact .inr hj)),
        hkeep l (hl _ (by simp))]

/-- Nor can the calls end in any other way than these. -/
structure Ends (call : C → Env → S → Res S O) (copy : Elem → Elem → C) (destroy : Elem → C)
    (abs : S → Spec.Boxes Elem A W) (Re : S → Prop) : Prop where
  copies : ∀ {s x y a w} (e : Env), Re s → Spec.Dead (abs s) x → abs s y = some ⟨a, some w⟩ →
    (∃ out s', call (copy x y) e s = .ok out s') ∨ ∃ ex s', call (copy x y) e s = .threw ex s'
  drops : ∀ {s x a w} (e : Env), Re s → abs s x = some ⟨a, some w⟩ → ∃ out s', call (destroy x) e s = .ok out s'

theorem copies_end (H : Works call copy destroy abs trace Re) (E : Ends call copy destroy abs Re) :
    ∀ (is : List (Nat × Env)) (s : S), Re s →
    (is.map Prod.fst).Nodup → (∀ i ∈ is.map Prod.fst, (∃ a w, abs s (false, i) = some ⟨a, some w⟩) ∧
      Spec.Dead (abs s) (true, i)) →
    (∃ s', Completes call (is.map fun i => (copy (true, i.1) (false, i.1), i.2)) s s') ∨
    ∃ js i ks t ex t', is = js ++ i :: ks ∧
      Completes call (js.map fun i => (copy (true, i.1) (false, i.1), i.2)) s t ∧
      call (copy (true, i.1) (false, i.1)) i.2 t = .threw ex t' := by
  intro is
  induction is with
  | nil => exact fun s _ _ _ => .inl ⟨s, rfl⟩
  | cons i is ih =>
    intro s h hn hr
    simp only [List.map_cons, List.nodup_cons] at hn
    obtain ⟨⟨a, w, hw⟩, hd⟩ := hr i.1 (by simp)
    rcases E.copies i.2 h hd hw with ⟨out, t, h1⟩ | ⟨ex, t, h1⟩
    · obtain ⟨k1, _, a', w', k3⟩ := H.copies h hd hw h1
      have hkeep : ∀ l, l ≠ (true, i.1) → abs t l = abs s l := by
        intro l hl
        simp [k3, Spec.put, upd, hl]
      rcases ih t k1 hn.2 (by
        intro j hj
        have hne : j ≠ i.1 := by rintro rfl; exact hn.1 hj
        obtain ⟨⟨b, u, hu⟩, hdj⟩ := hr j (by simp only [List.map_cons, List.mem_cons]; exact .inr hj)
        refine ⟨⟨b, u, by rw [hkeep _ (by simp)]; exact hu⟩, ?_⟩
        have := hkeep (true, j) (by simp [hne])
        simp only [Spec.Dead] at hdj ⊢
        rw [this]; exact hdj) with ⟨s', h2⟩ | ⟨js, j, ks, u, ex, u', h2, h3, h4⟩
      · exact .inl ⟨s', out, t, h1, h2⟩
      · exact .inr ⟨i :: js, j, ks, u, ex, u', by rw [h2]; rfl, ⟨out, t, h1, h3⟩, h4⟩
    · exact .inr ⟨[], i, is, s, ex, t, rfl, rfl, h1⟩

theorem drops_end (H : Works call copy destroy abs trace Re) (E : Ends call copy destroy abs Re) :
    ∀ (ds : List (Nat × Env)) (s : S), Re s →
    (ds.map Prod.fst).Nodup → (∀ i ∈ ds.map Prod.fst, ∃ a w, abs s (true, i) = some ⟨a, some w⟩) →
    ∃ s', Completes call (ds.map fun i => (destroy (true, i.1), i.2)) s s' := by
  intro ds
  induction ds with
  | nil => exact fun s _ _ _ => ⟨s, rfl⟩
  | cons i is ih =>
    intro s h hn hr
    simp only [List.map_cons, List.nodup_cons] at hn
    obtain ⟨a, w, hw⟩ := hr i.1 (by simp)
    obtain ⟨out, t, h1⟩ := E.drops i.2 h hw
    obtain ⟨k1, _, k3⟩ := H.drops h hw h1
    obtain ⟨s', h2⟩ := ih t k1 hn.2 (by
      intro j hj
      have hne : j ≠ i.1 := by rintro rfl; exact hn.1 hj
      obtain ⟨b, u, hu⟩ := hr j (by simp only [List.map_cons, List.mem_cons]; exact .inr hj)
      exact ⟨b, u, by rw [k3]; simp [Spec.drop, upd, hne]; exact hu⟩)
    exact ⟨s', out, t, h1, h2⟩

theorem iteration_end (H : Works call copy destroy abs trace Re) (E : Ends call copy destroy abs Re) {n : Nat}
    {is ds : List (Nat × Env)} {s : S} (h : Re s) (hi : Covers n is) (hd : Covers n ds) (hr : Ready n (abs s)) :
    (∃ s', Completes call (iteration copy destroy is ds) s s') ∨
    ∃ js i ks t ex t', is = js ++ i :: ks ∧
      Completes call (js.map fun i => (copy (true, i.1) (false, i.1), i.2)) s t ∧
      call (copy (true, i.1) (false, i.1)) i.2 t = .threw ex t' ∧
      Costs (trace s) (trace t) js.length js.length 0 0 := by
  have mi : ∀ i, i ∈ is.map Prod.fst ↔ i < n := fun i => by rw [hi.mem_iff, List.mem_range]
  have md : ∀ i, i ∈ ds.map Prod.fst ↔ i < n := fun i => by rw [hd.mem_iff, List.mem_range]
  have ni : (is.map Prod.fst).Nodup := hi.nodup_iff.mpr List.nodup_range
  rcases copies_end H E is s h ni (fun i hm => hr i ((mi i).mp hm)) with ⟨t, h1⟩ | ⟨js, i, ks, t, ex, t', h1, h2, h3⟩
  · obtain ⟨k1, _, k3, _⟩ := copies_run H is s t h ni (fun i hm => hr i ((mi i).mp hm)) h1
    obtain ⟨s', h2⟩ := drops_end H E ds t k1 (hd.nodup_iff.mpr List.nodup_range)
      (fun i hm => k3 i ((mi i).mpr ((md i).mp hm)))
    exact .inl ⟨s', completes_append.mpr ⟨t, h1, h2⟩⟩
  · subst h1
    rw [List.map_append] at ni mi
    obtain ⟨_, k2, _⟩ := copies_run H js s t h (List.nodup_append.mp ni).1
      (fun i hm => hr i ((mi i).mp (List.mem_append_left _ hm))) h2
    exact .inr ⟨js, i, ks, t, ex, t', rfl, h2, h3, k2⟩

theorem iteration_run (H : Works call copy destroy abs trace Re) {n : Nat} {is ds : List (Nat × Env)} {s s' : S}
    (h : Re s) (hi : Covers n is) (hd : Covers n ds) (hr : Ready n (abs s))
    (hc : Completes call (iteration copy destroy is ds) s s') :
    Re s' ∧ Costs (trace s) (trace s') n n n n ∧ abs s' = abs s := by
  obtain ⟨t, h1, h2⟩ := completes_append.mp hc
  have mi : ∀ i, i ∈ is.map Prod.fst ↔ i < n := fun i => by rw [hi.mem_iff, List.mem_range]
  have md : ∀ i, i ∈ ds.map Prod.fst ↔ i < n := fun i => by rw [hd.mem_iff, List.mem_range]
  have li : is.length = n := by simpa using hi.length_eq
  have ld : ds.length = n := by simpa using hd.length_eq
  obtain ⟨k1, k2, k3, k4⟩ := copies_run H is s t h (hi.nodup_iff.mpr List.nodup_range)
    (fun i hm => hr i ((mi i).mp hm)) h1
  obtain ⟨m1, m2, m3, m4⟩ := drops_run H ds t s' k1 (hd.nodup_iff.mpr List.nodup_range)
    (fun i hm => k3 i ((mi i).mpr ((md i).mp hm))) h2
  refine ⟨m1, ?_, ?_⟩
  · have := k2.trans m2
    simpa [li, ld] using this
  · funext l
    by_cases hl : ∃ i, i < n ∧ l = (true, i)
    · obtain ⟨i, hi', rfl⟩ := hl
      rw [m3 i ((md i).mpr hi')]
      exact (show abs s (true, i) = none from (hr i hi').2).symm
    · rw [m4 l (fun i hm e => hl ⟨i, (md i).mp hm, e⟩), k4 l (fun i hm e => hl ⟨i, (mi i).mp hm, e⟩)]

end

section
variable {A R V X Ty : Type} [DecidableEq R] {tr : ATraits A R}

theorem indirect_works {T : TSpec V X} (S : tr.Sound) :
    Works (Indirect.call tr (plain T)) (.copy : Elem → Elem → Op Elem A V X) .destroy Indirect.abs (fun s => s.trace)
      (Indirect.Reach tr T) where
  copies := by
    intro s s' x y a w e out h hd hy hc
    have hl : Spec.Legal tr (Indirect.abs s) (.copy x y : Op Elem A V X) := ⟨hd, _, hy⟩
    obtain ⟨_, _, q, p, w', _, _, _, k, _⟩ := Props.C05_copy_engaged h S hd hy hc
    have c := Props.C22_cost S h hl hc
    simp [Spec.allocCost, Spec.deallocCost, Spec.opCost, Spec.has, Spec.valueOf, hy] at c
    exact ⟨.ret _ _ _ h hl hc, ⟨c.1, c.2.2.1, c.2.2.2, c.2.1⟩, _, w', k⟩
  drops := by
    intro s s' x a w e out h hx hc
    have hl : Spec.Legal tr (Indirect.abs s) (.destroy x : Op Elem A V X) := ⟨_, hx⟩
    obtain ⟨t, p, k1, _, _, _, _, _, _, k2⟩ := Props.C21_destroy_engaged (T := T) S h hx e
    have c := Props.C22_cost S h hl hc
    simp [Spec.allocCost, Spec.deallocCost, Spec.opCost, Spec.has, Spec.valueOf, hx] at c
    rw [k1] at hc
    cases hc
    exact ⟨.ret _ _ _ h hl k1, ⟨c.1, c.2.2.1, c.2.2.2, c.2.1⟩, k2⟩

theorem raw_works {T : TSpec V X} :
    Works (rawCall (plain T)) (.clone : Elem → Elem → Stmt Elem X) .drop Indirect.abs (fun s => s.trace)
      (Indirect.Reach newDelete T) where
  copies := by
    intro s s' x y a w e out h hd hy hc
    rw [raw_call (o := .clone x y) (h.inv newDelete_sound) e ⟨hd, _, hy⟩] at hc
    exact (indirect_works newDelete_sound).copies h hd hy hc
  drops := by
    intro s s' x a w e out h hx hc
    rw [raw_call (o := .drop x) (h.inv newDelete_sound) e ⟨_, hx⟩] at hc
    exact (indirect_works newDelete_sound).drops h hx hc

theorem unique_works {T : TSpec V X} :
    Works (uniqueCall (plain T)) (.clone : Elem → Elem → Stmt Elem X) .drop Indirect.abs (fun s => s.trace)
      (Indirect.Reach newDelete T) where
  copies := by
    intro s s' x y a w e out h hd hy hc
    rw [unique_call (o := .clone x y) (h.inv newDelete_sound) e ⟨hd, _, hy⟩] at hc
    exact raw_works.copies h hd hy hc
  drops := by
    intro s s' x a w e out h hx hc
    rw [unique_call (o := .drop x) (h.inv newDelete_sound) e ⟨_, hx⟩] at hc
    exact raw_works.drops h hx hc

theorem indirect_ends {T : TSpec V X} (S : tr.Sound) :
    Ends (Indirect.call tr (plain T)) (.copy : Elem → Elem → Op Elem A V X) .destroy Indirect.abs
      (Indirect.Reach tr T) where
  copies := by
    intro s x y a w e h hd hy
    have := Props.C05_copy_outcome (tr := tr) (T := T) hd hy e
    by_cases k : available s e = true ∧ ∃ w', T.copy w (e.choice 0) = .ok w'
    · exact .inl (this.1.mpr k)
    · exact .inr (this.2.mpr k)
  drops := by
    intro s x a w e h hx
    obtain ⟨t, p, k, _⟩ := Props.C21_destroy_engaged (T := T) S h hx e
    exact ⟨_, t, k⟩

theorem raw_ends {T : TSpec V X} :
    Ends (rawCall (plain T)) (.clone : Elem → Elem → Stmt Elem X) .drop Indirect.abs (Indirect.Reach newDelete T) where
  copies := by
    intro s x y a w e h hd hy
    rw [raw_call (o := .clone x y) (h.inv newDelete_sound) e ⟨hd, _, hy⟩]
    exact (indirect_ends newDelete_sound).copies e h hd hy
  drops := by
    intro s x a w e h hx
    rw [raw_call (o := .drop x) (h.inv newDelete_sound) e ⟨_, hx⟩]
    exact (indirect_ends newDelete_sound).drops e h hx

theorem polymorphic_ends [DecidableEq Ty] {P : PSpec Ty V X} (S : tr.Sound) :
    Ends (Polymorphic.call tr (plainP P)) (.copy : Elem → Elem → POp Elem A Ty V X) .destroy Polymorphic.abs
      (Polymorphic.Reach tr P) where
  copies := by
    rintro s x y a ⟨ty, w⟩ e h hd hy
    have hl : Spec.PLegal tr (Polymorphic.abs s) (.copy x y : POp Elem A Ty V X) := ⟨hd, _, hy⟩
    rcases Props.C31_call_no_undefined_behaviour S h _ e hl with k | k | k
    · exact .inl k
    · exact .inr k
    · obtain ⟨_, _, _, _, _, _, ho, _⟩ := (Props.C39_terminates_iff S h hl e).mp k
      cases ho
  drops := by
    rintro s x a ⟨ty, w⟩ e h hx
    obtain ⟨t, p, k, _⟩ := Props.C38_destroy_engaged (P := P) S h hx e
    exact ⟨_, t, k⟩

theorem polymorphic_works [DecidableEq Ty] {P : PSpec Ty V X} (S : tr.Sound) :
    Works (Polymorphic.call tr (plainP P)) (.copy : Elem → Elem → POp Elem A Ty V X) .destroy Polymorphic.abs
      (fun s => s.trace) (Polymorphic.Reach tr P) where
  copies := by
    rintro s s' x y a ⟨ty, w⟩ e out h hd hy hc
    have hl : Spec.PLegal tr (Polymorphic.abs s) (.copy x y : POp Elem A Ty V X) := ⟨hd, _, hy⟩
    obtain ⟨_, _, q, p, w', _, _, _, k, _⟩ := Props.C33_copy_engaged S h hd hy hc
    have c := Props.C53_cost S h hl hc
    simp [Spec.pallocCost, Spec.pdeallocCost, Spec.has, Spec.valueOf, hy] at c
    exact ⟨.ret _ _ _ h hl hc, ⟨c.1, c.2.2.1, c.2.2.2, c.2.1⟩, _, _, k⟩
  drops := by
    rintro s s' x a ⟨ty, w⟩ e out h hx hc
    have hl : Spec.PLegal tr (Polymorphic.abs s) (.destroy x : POp Elem A Ty V X) := ⟨_, hx⟩
    obtain ⟨t, p, k1, _, _, _, _, _, _, k2⟩ := Props.C38_destroy_engaged (P := P) S h hx e
    have c := Props.C53_cost S h hl hc
    simp [Spec.pallocCost, Spec.pdeallocCost, Spec.has, Spec.valueOf, hx] at c
    rw [k1] at hc
    cases hc
    exact ⟨.ret _ _ _ h hl k1, ⟨c.1, c.2.2.1, c.2.2.2, c.2.1⟩, k2⟩

end
section
variable {L Ty V X : Type} [DecidableEq L] [DecidableEq Ty] {P : PSpec Ty V X} {s : St L Unit Unit (PBody Ty V)}

theorem legal_p {o : Stmt L (Ty × X)} (hl : Legal (Polymorphic.view s) o) :
    Spec.PLegal newDelete (Polymorphic.abs s) (toPOp o : POp L Unit Ty V X) := by
  cases o with
  | make x u =>
    have h : Spec.Dead (Indirect.abs (Polymorphic.view s)) x := hl
    rw [Polymorphic.abs_view] at h
    exact ⟨h, trivial⟩
  | clone x y =>
    obtain ⟨hd, v, hv⟩ := hl
    rw [Polymorphic.abs_view] at hd hv
    exact ⟨hd, _, hv⟩
  | drop x =>
    obtain ⟨v, hv⟩ := hl
    rw [Polymorphic.abs_view] at hv
    exact ⟨_, hv⟩
  | value x =>
    obtain ⟨v, hv⟩ := hl
    rw [Polymorphic.abs_view] at hv
    exact ⟨v, by rw [Spec.valueOf, hv]; rfl⟩

theorem legal_owned {t : St L Unit Unit (Obj (Ty × V))} {o : Stmt L (Ty × X)} : Legal t (ownedStmt o) ↔ Legal t o := by
  cases o <;> rfl

theorem to_owned (o : Stmt L (Ty × X)) (e : Env) (t : St L Unit Unit (Obj (Ty × V))) :
    Indirect.call newDelete (plain P.owned) (toOp (ownedStmt o)) e t =
      Indirect.call newDelete (plain P.owned) (Polymorphic.toOp (toPOp o)) e t := by
  cases o <;> rfl

theorem p_call (h : Polymorphic.Reach newDelete P s) {o : Stmt L (Ty × X)} (hl : Legal (Polymorphic.view s) o) (e : Env) :
    Polymorphic.RSim (Polymorphic.call newDelete (plainP P) (toPOp o) e s)
      (rawCall (plain P.owned) (ownedStmt o) e (Polymorphic.view s)) := by
  rw [raw_call ((h.sim newDelete_sound).2.inv newDelete_sound) e (legal_owned.mpr hl), to_owned]
  exact h.call newDelete_sound (legal_p hl) e

end
section
variable {L A V S N : Type} {read : L → Env → S → Res S (Out L A V)} {add : N → V → N} {Re : S → Prop} {f : S → L → Option V}
  {same : S → S → Prop}

theorem accumulate_run (hrefl : ∀ s, same s s) (htrans : ∀ {s t u}, same s t → same t u → same s u)
    (hf : ∀ {s t}, same s t → f t = f s)
    (H : ∀ {s x v} (e : Env), Re s → f s x = some v → ∃ t, read x e s = .ok (.value v) t ∧ Re t ∧ same s t) :
    ∀ (xs : List (L × Env)) (vs : List V) (acc : N) (s : S), Re s → xs.map (fun x => f s x.1) = vs.map some →
      ∃ t, accumulate read add xs acc s = .ok (vs.foldl add acc) t ∧ same s t := by
  intro xs
  induction xs with
  | nil =>
    intro vs acc s _ hv
    cases vs with
    | nil => exact ⟨s, rfl, hrefl s⟩
    | cons _ _ => cases hv
  | cons x xs ih =>
    intro vs acc s h hv
    cases vs with
    | nil => cases hv
    | cons v vs =>
      simp only [List.map_cons, List.cons.injEq] at hv
      obtain ⟨t, h1, h2, h3⟩ := H x.2 h hv.1
      obtain ⟨u, h4, h5⟩ := ih vs (add acc v) t h2 (by rw [hf h3]; exact hv.2)
      exact ⟨u, by simp only [accumulate, h1, List.foldl_cons]; exact h4, htrans h3 h5⟩

/-- Two readers that agree as long as the elements have a value accumulate the same. -/
theorem accumulate_eq {read' : L → Env → S → Res S (Out L A V)}
    (H : ∀ {s x v} (e : Env), Re s → f s x = some v → read' x e s = read x e s ∧
      ∃ t, read x e s = .ok (.value v) t ∧ Re t ∧ f t = f s) :
    ∀ (xs : List (L × Env)) (vs : List V) (acc : N) (s : S), Re s → xs.map (fun x => f s x.1) = vs.map some →
      accumulate read' add xs acc s = accumulate read add xs acc s := by
  intro xs
  induction xs with
  | nil => intros; rfl
  | cons x xs ih =>
    intro vs acc s h hv
    cases vs with
    | nil => cases hv
    | cons v vs =>
      simp only [List.map_cons, List.cons.injEq] at hv
      obtain ⟨h0, t, h1, h2, h3⟩ := H x.2 h hv.1
      simp only [accumulate, h0, h1]
      exact ih vs (add acc v) t h2 (by rw [h3]; exact hv.2)

end

section
variable {L A R V X Ty : Type} [DecidableEq L] [DecidableEq R] {tr : ATraits A R}

theorem abs_untouched {s t : St L A R (Obj V)} (h : Spec.Untouched s t) : Indirect.abs t = Indirect.abs s := by
  funext x
  simp [Indirect.abs, h.1, h.2]

theorem indirect_reads {T : TSpec V X} (S : tr.Sound) {s : St L A R (Obj V)} {x : L} {v : V} (e : Env)
    (h : Indirect.Reach tr T s) (hv : Spec.valueOf (Indirect.abs s) x = some v) :
    ∃ t, Indirect.call tr (plain T) (.arrow x) e s = .ok (.value v) t ∧ Indirect.Reach tr T t ∧
      (Spec.Untouched s t ∧ Spec.Silent s t) := by
  obtain ⟨t, h1, h2, h3⟩ := (Props.C20_arrow (T := T) S h x e).1 v hv
  exact ⟨t, h1, .ret (.arrow x) _ _ h ⟨v, hv⟩ h1, h2, h3⟩

theorem polymorphic_reads [DecidableEq Ty] {P : PSpec Ty V X} (S : tr.Sound) {s : St L A R (PBody Ty V)} {x : L}
    {v : Ty × V} (e : Env) (h : Polymorphic.Reach tr P s) (hv : Spec.valueOf (Polymorphic.abs s) x = some v) :
    ∃ t, Polymorphic.call tr (plainP P) (.arrow x) e s = .ok (.value v) t ∧ Polymorphic.Reach tr P t ∧
      (Spec.Untouched (Polymorphic.view s) (Polymorphic.view t) ∧ Spec.Silent s t) := by
  obtain ⟨t, h1, h2, h3⟩ := (Props.C38_deref (P := P) S h x e).1 v hv
  rw [← Props.C38_arrow] at h1
  exact ⟨t, h1, .ret (.arrow x) _ _ h ⟨v, hv⟩ h1, h2, h3⟩

end
end Verif.Benchmark
