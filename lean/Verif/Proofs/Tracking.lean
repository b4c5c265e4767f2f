import Verif.Spec.Tracking
import Verif.Proofs.TraceFacts
import Verif.Proofs.IndirectReach
import Verif.Proofs.IndirectEffects

/-!
# Counting storage events
-/

set_option autoImplicit false
set_option linter.unusedSectionVars false

namespace Verif
open Spec

/-- The number of blocks got from, and returned to, resource `r`. -/
def gotten {R : Type} [DecidableEq R] (r : R) : List (Ev R) → Nat
  | [] => 0
  | .alloc r' _ :: t => (if r' = r then 1 else 0) + gotten r t
  | _ :: t => gotten r t

@[inherit_doc gotten]
def returned {R : Type} [DecidableEq R] (r : R) : List (Ev R) → Nat
  | [] => 0
  | .dealloc r' _ :: t => (if r' = r then 1 else 0) + returned r t
  | _ :: t => returned r t

section
variable {R : Type} [DecidableEq R]

/-- `ps` lists the blocks of resource `r`. -/
structure BlocksOf (m : Mem R) (r : R) (ps : List Addr) : Prop where
  nodup : ps.Nodup
  mem : ∀ p, p ∈ ps ↔ ∃ b, m p = some b ∧ b.arena = r

theorem BlocksOf.same {m m' : Mem R} {r : R} {ps : List Addr} (h : BlocksOf m r ps)
    (he : ∀ p, (m' p).map Blk.arena = (m p).map Blk.arena) : BlocksOf m' r ps := by
  refine ⟨h.nodup, fun p => ?_⟩
  rw [h.mem]
  have := he p
  cases h1 : m p <;> cases h2 : m' p <;> simp_all

theorem setBlk_arena {m : Mem R} {p : Addr} {b : Blk R} (r : R) (live : Bool) (h : m p = some b) (hb : b.arena = r)
    (q : Addr) : (setBlk m p (some ⟨r, live⟩) q).map Blk.arena = (m q).map Blk.arena := by
  unfold setBlk
  split
  · rename_i e; subst e; simp [h, hb]
  · rfl

theorem blocks_count {r : R} (t : List (Ev R)) : ∀ {m m' : Mem R} {ps : List Addr}, BlocksOf m r ps →
    replayFrom m t = some m' →
    ∃ ps', BlocksOf m' r ps' ∧ ps'.length + returned r t = ps.length + gotten r t := by
  induction t with
  | nil => intro m m' ps h hr; cases hr; exact ⟨ps, h, by simp [gotten, returned]⟩
  | cons ev t ih =>
    intro m m' ps h hr
    simp only [replayFrom] at hr
    cases ho : obey m ev with
    | none => simp [ho] at hr
    | some m₁ =>
      simp only [ho] at hr
      cases ev with
      | alloc r' p =>
        simp only [obey] at ho
        split at ho <;> simp at ho
        rename_i hp
        subst ho
        by_cases e : r' = r
        · subst e
          have hnm : p ∉ ps := by rw [h.mem]; simp [hp]
          obtain ⟨ps', h', hl⟩ := ih (ps := p :: ps)
            ⟨List.nodup_cons.2 ⟨hnm, h.nodup⟩, fun q => by
              rw [List.mem_cons, h.mem]; unfold setBlk
              by_cases e : q = p <;> simp [e]⟩ hr
          refine ⟨ps', h', ?_⟩
          simp only [gotten, returned, List.length_cons, if_true] at hl ⊢
          omega
        · obtain ⟨ps', h', hl⟩ := ih (ps := ps)
            ⟨h.nodup, fun q => by
              rw [h.mem]; unfold setBlk
              by_cases e' : q = p
              · subst e'; simp [hp, e]
              · simp [e']⟩ hr
          refine ⟨ps', h', ?_⟩
          simp only [gotten, returned, e, if_false] at hl ⊢
          omega
      | dealloc r' p =>
        simp only [obey] at ho
        split at ho <;> simp at ho
        rename_i hp
        subst ho
        by_cases e : r' = r
        · subst e
          have hm : p ∈ ps := by rw [h.mem]; exact ⟨_, hp, rfl⟩
          obtain ⟨ps', h', hl⟩ := ih (ps := ps.erase p)
            ⟨h.nodup.erase p, fun q => by
              rw [h.nodup.mem_erase_iff, h.mem]; unfold setBlk
              by_cases e : q = p <;> simp [e]⟩ hr
          refine ⟨ps', h', ?_⟩
          rw [List.length_erase_of_mem hm] at hl
          have := List.length_pos_of_mem hm
          simp only [gotten, returned, if_true] at hl ⊢
          omega
        · obtain ⟨ps', h', hl⟩ := ih (ps := ps)
            ⟨h.nodup, fun q => by
              rw [h.mem]; unfold setBlk
              by_cases e' : q = p
              · subst e'; simp [hp, e]
              · simp [e']⟩ hr
          refine ⟨ps', h', ?_⟩
          simp only [gotten, returned, e, if_false] at hl ⊢
          omega
      | construct p how =>
        obtain ⟨ps', h', hl⟩ := ih (ps := ps) (h.same (by
          simp only [obey] at ho
          split at ho
          · rename_i r' hp
            split at ho <;> simp at ho
            subst ho
            exact setBlk_arena r' true hp rfl
          · simp at ho)) hr
        exact ⟨ps', h', by simpa [gotten, returned] using hl⟩
      | assign p how =>
        obtain ⟨ps', h', hl⟩ := ih (ps := ps) (h.same (by
          simp only [obey] at ho
          split at ho <;> simp at ho
          subst ho; exact fun _ => rfl)) hr
        exact ⟨ps', h', by simpa [gotten, returned] using hl⟩
      | custom c k r' p =>
        obtain ⟨ps', h', hl⟩ := ih (ps := ps) (h.same (by
          simp only [obey] at ho
          simp at ho
          subst ho; exact fun _ => rfl)) hr
        exact ⟨ps', h', by simpa [gotten, returned] using hl⟩
      | destroy p =>
        obtain ⟨ps', h', hl⟩ := ih (ps := ps) (h.same (by
          simp only [obey] at ho
          split at ho
          · rename_i r' hp
            simp at ho
            subst ho
            exact setBlk_arena r' false hp rfl
          · simp at ho)) hr
        exact ⟨ps', h', by simpa [gotten, returned] using hl⟩

theorem replay_blocks {r : R} {t : List (Ev R)} {m : Mem R} (h : replay t = some m) :
    ∃ ps, BlocksOf m r ps ∧ ps.length + returned r t = gotten r t := by
  obtain ⟨ps, h, hl⟩ := blocks_count (r := r) (ps := []) t ⟨by simp, by simp⟩ h
  exact ⟨ps, h, by simpa using hl⟩

end

/-! ## Owners -/

section
variable {L A R V X : Type} [DecidableEq L] [DecidableEq R]
open Indirect

/-- The objects that own a block of the list, in the order of the blocks. -/
theorem owners {s : St L A R (Obj V)} {tr : ATraits A R} (I : IInv tr s) (ps : List Addr)
    (hps : ∀ p ∈ ps, ∃ c, s.heap p = some c) (hn : ps.Nodup) :
    ∃ xs : List L, xs.length = ps.length ∧ xs.Nodup ∧ ∀ x, x ∈ xs ↔ ∃ p ∈ ps, addr s x = some p := by
  induction ps with
  | nil => exact ⟨[], rfl, by simp, by simp⟩
  | cons p ps ih =>
    obtain ⟨hnp, hn⟩ := List.nodup_cons.1 hn
    obtain ⟨xs, hl, hx, hm⟩ := ih (fun q hq => hps q (List.mem_cons_of_mem _ hq)) hn
    obtain ⟨c, hc⟩ := hps p List.mem_cons_self
    obtain ⟨l, k, hk, hp⟩ := I.owned p c hc
    have ha : addr s l = some p := by simp [addr, hk, hp]
    have hu : ∀ x, addr s x = some p → x = l := by
      intro x hx
      simp only [addr] at hx
      cases hh : s.hs x with
      | none => simp [hh] at hx
      | some k' => exact I.uniq _ _ _ _ _ hh hk (by simpa [hh] using hx) hp
    refine ⟨l :: xs, by simp [hl], List.nodup_cons.2 ⟨?_, hx⟩, fun x => ?_⟩
    · rw [hm]; rintro ⟨q, hq, hq'⟩
      rw [ha] at hq'; cases hq'; exact hnp hq
    · rw [List.mem_cons, hm]
      constructor
      · rintro (rfl | ⟨q, hq, hq'⟩)
        · exact ⟨p, List.mem_cons_self, ha⟩
        · exact ⟨q, List.mem_cons_of_mem _ hq, hq'⟩
      · rintro ⟨q, hq, hq'⟩
        rcases List.mem_cons.1 hq with rfl | hq
        · exact .inl (hu x hq')
        · exact .inr ⟨q, hq, hq'⟩

theorem nodup_length {α : Type} [DecidableEq α] {xs ys : List α} (hx : xs.Nodup) (hy : ys.Nodup)
    (h : ∀ x, x ∈ xs ↔ x ∈ ys) : xs.length = ys.length :=
  ((List.perm_ext_iff_of_nodup hx hy).2 h).length_eq

/-- Where every allocator is its own resource, the engaged objects with allocator `a` can be listed, and are as many
as blocks that the history got from `a` and did not return. -/
theorem engaged_count {s : St L R R (Obj V)} {tr : ATraits R R} {T : TSpec V X} (S : tr.Sound)
    (hres : ∀ a, tr.res a = a) (h : Reach tr T s) (a : R) :
    ∃ xs, EngagedWith (abs s) a xs ∧ xs.length + returned a s.trace = gotten a s.trace := by
  have I := h.inv S
  obtain ⟨ps, hps, hl⟩ := replay_blocks (r := a) h.traceOk
  have hm : ∀ p, p ∈ ps ↔ ∃ b, s.heap p = some ⟨a, b⟩ := by
    intro p
    rw [hps.mem]
    simp only [shape]
    cases hh : s.heap p with
    | none => simp
    | some c =>
      obtain ⟨ar, bd⟩ := c
      simp
  obtain ⟨xs, hxl, hxn, hxm⟩ := owners I ps (fun p hp => let ⟨b, hb⟩ := (hm p).1 hp; ⟨_, hb⟩) hps.nodup
  refine ⟨xs, ⟨hxn, fun x => ?_⟩, by omega⟩
  rw [hxm]
  constructor
  · rintro ⟨p, hp, hx⟩
    obtain ⟨k, hk, hkp⟩ := addr_some hx
    obtain ⟨v, hv⟩ := I.own' hk hkp
    obtain ⟨b, hb⟩ := (hm p).1 hp
    rw [hv] at hb
    simp only [Option.some.injEq, Cell.mk.injEq, hres] at hb
    refine ⟨v, ?_⟩
    obtain ⟨kp, ka⟩ := k
    simp at hkp hb
    simp [abs, absWith, hk, hkp, hv, hb.1]
  · rintro ⟨v, hv⟩
    obtain ⟨k, p, r, hk, hp, hh⟩ := abs_valueOf (s := s) (y := x) (v := v) (by simp [valueOf, hv])
    refine ⟨p, ?_, by simp [addr, hk, hp]⟩
    rw [hm]
    obtain ⟨v', hv'⟩ := I.own' hk hp
    refine ⟨some v', ?_⟩
    rw [hv', hres]
    obtain ⟨kp, ka⟩ := k
    simp at hp
    simp [abs, absWith, hk, hp, hv'] at hv
    simp [hv.1]

end

/-! ## Counters -/

namespace Tracking

/-- The calls that count as allocations and as deallocations of `a`. -/
def asked (a : Tracking) : List Call → Nat
  | [] => 0
  | .allocate b _ :: cs => (if b = a then 1 else 0) + asked a cs
  | _ :: cs => asked a cs

@[inherit_doc asked]
def gaveBack (a : Tracking) : List Call → Nat
  | [] => 0
  | .deallocate b _ :: cs => (if b = a then 1 else 0) + gaveBack a cs
  | _ :: cs => gaveBack a cs

theorem asked_eq (a : Tracking) (cs : List Call) : asked a cs = asked a (succeeded cs) + refused a cs := by
  induction cs with
  | nil => rfl
  | cons c cs ih =>
    cases c with
    | allocate b p => cases p <;> simp only [asked, succeeded, refused] <;> omega
    | deallocate b p => simpa [asked, succeeded, refused] using ih

theorem gaveBack_eq (a : Tracking) (cs : List Call) : gaveBack a cs = gaveBack a (succeeded cs) := by
  induction cs with
  | nil => rfl
  | cons c cs ih =>
    cases c with
    | allocate b p => cases p <;> simpa [gaveBack, succeeded] using ih
    | deallocate b p => simpa [gaveBack, succeeded] using ih

theorem asked_storage (a : Tracking) (t : List (Ev Tracking)) : asked a (storage t) = gotten a t := by
  induction t with
  | nil => rfl
  | cons ev t ih => cases ev <;> simp [asked, storage, gotten, ih]

theorem gaveBack_storage (a : Tracking) (t : List (Ev Tracking)) : gaveBack a (storage t) = returned a t := by
  induction t with
  | nil => rfl
  | cons ev t ih => cases ev <;> simp [gaveBack, storage, returned, ih]

theorem run_counters {w : Nat} {a : Tracking} {cs : List Call} (ho : OwnCounters a cs) : ∀ (m : Counters w),
    run m cs a.allocCounter = m a.allocCounter + BitVec.ofNat w (asked a cs) ∧
    run m cs a.deallocCounter = m a.deallocCounter + BitVec.ofNat w (gaveBack a cs) := by
  induction cs with
  | nil => intro m; simp [run, asked, gaveBack]
  | cons c cs ih =>
    intro m
    obtain ⟨h1, h2⟩ := ih ⟨ho.two, fun c hc => ho.only c (List.mem_cons_of_mem _ hc)⟩ (step m c)
    have hc := ho.only c List.mem_cons_self
    have two := ho.two
    rw [run, h1, h2]
    cases c with
    | allocate b p =>
      simp only [callee] at hc
      by_cases e : b = a
      · subst e
        simp [step, increment, asked, gaveBack, BitVec.ofNat_add, BitVec.add_assoc, two.symm]
      · obtain ⟨e1, e2, e3, e4⟩ := hc e
        simp [step, increment, asked, gaveBack, e, e1.symm, e3.symm]
    | deallocate b p =>
      simp only [callee] at hc
      by_cases e : b = a
      · subst e
        simp [step, increment, asked, gaveBack, BitVec.ofNat_add, BitVec.add_assoc, two]
      · obtain ⟨e1, e2, e3, e4⟩ := hc e
        simp [step, increment, asked, gaveBack, e, e2.symm, e4.symm]

end Tracking
end Verif
