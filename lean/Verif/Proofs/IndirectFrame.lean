import Verif.Proofs.IndirectKeeps

/-! No call changes the data members of an object that it does not mention. -/

set_option autoImplicit false
set_option linter.unusedSectionVars false
set_option linter.unusedSimpArgs false

namespace Verif
section
variable {L A R V X : Type} [DecidableEq L] [DecidableEq R]

/-- Object `z` has the data members `h`. -/
def HsAt {B : Type} (z : L) (h : Option (Handle A)) (s : St L A R B) : Prop := s.hs z = h

variable {z : L} {h : Option (Handle A)}

theorem hsAt_prims {B : Type} [Body B] : PrimsKeep (HsAt z h : St L A R B → Prop) (fun l => l ≠ z) where
  getH l := by intro s hs; unfold getH; split <;> first | exact hs | trivial
  setP l hl p := by
    intro s hs; unfold setP; split
    · simpa [Res.All, HsAt, upd_other _ _ (Ne.symm hl)] using hs
    · trivial
  setAlloc l hl p := by
    intro s hs; unfold setAlloc; split
    · simpa [Res.All, HsAt, upd_other _ _ (Ne.symm hl)] using hs
    · trivial
  emplace l hl p := by
    intro s hs; unfold emplace; split
    · trivial
    · simpa [Res.All, HsAt, upd_other _ _ (Ne.symm hl)] using hs
  endLife l hl := by
    intro s hs; unfold endLife; split
    · simpa [Res.All, HsAt, upd_other _ _ (Ne.symm hl)] using hs
    · trivial
  allocate r := by
    intro s hs; rw [allocate_eq]; split <;> exact hs
  deallocate r p := by
    intro s hs; unfold deallocate; split
    · trivial
    · split
      · trivial
      · split
        · trivial
        · exact hs

theorem hsAt_readBody {B : Type} [Body B] (p : Addr) : Keeps (HsAt z h : St L A R B → Prop) (readBody p) := by
  intro s hs; unfold readBody; split <;> first | exact hs | trivial

theorem hsAt_writeBody {B : Type} [Body B] (p : Addr) (b : B) : Keeps (HsAt z h : St L A R B → Prop) (writeBody p b) := by
  intro s hs; unfold writeBody; split <;> first | exact hs | trivial

theorem hsAt_emit {B : Type} [Body B] (ev : Ev R) : Keeps (HsAt z h : St L A R B → Prop) (emit ev) :=
  fun _ hs => hs

theorem hsAt_choose {B : Type} [Body B] : Keeps (HsAt z h : St L A R B → Prop) choose :=
  fun _ hs => hs

theorem hsAt_readObj (p : Addr) : Keeps (HsAt z h : St L A R (Obj V) → Prop) (readObj p) := by
  unfold readObj
  repeat' first | with_reducible exact hsAt_readBody _ | keeps_step | split

theorem hsAt_writeObj (p : Addr) (v : V) : Keeps (HsAt z h : St L A R (Obj V) → Prop) (writeObj p v) := by
  unfold writeObj
  repeat' first | with_reducible exact hsAt_readObj _ | with_reducible exact hsAt_writeBody _ _ | keeps_step

theorem hsAt_finish (p : Addr) (how : How) (r : Except Exn V) :
    Keeps (HsAt z h : St L A R (Obj V) → Prop) (finish p how r) := by
  cases r with
  | error e => exact keeps_throwE _
  | ok v => intro s hs; simp only [finish, beginObj]; split <;> first | exact hs | trivial

theorem hsAt_rethrow (o : Option Exn) : Keeps (HsAt z h : St L A R (Obj V) → Prop) (rethrow o) := by
  cases o
  · exact keeps_pure _
  · exact keeps_throwE _

theorem hsAt_plain (T : TSpec V X) : TKeep (HsAt z h : St L A R (Obj V) → Prop) (plain T) := by
  constructor <;> intros <;> simp only [plain, endObj] <;>
  repeat' first
    | with_reducible exact hsAt_choose
    | with_reducible exact hsAt_emit _
    | with_reducible exact hsAt_readObj _
    | with_reducible exact hsAt_writeObj _ _
    | with_reducible exact hsAt_writeBody _ _
    | with_reducible exact hsAt_finish _ _ _
    | with_reducible exact hsAt_rethrow _
    | keeps_step

namespace Indirect

/-- The frame of a call. -/
theorem hsAt_call (tr : ATraits A R) (T : TSpec V X) (o : Op L A V X) (e : Env) (s : St L A R (Obj V))
    (hz : z ∉ Spec.rebinds o) (hs : s.hs z = h) : (call tr (plain T) o e s).All (HsAt z h) :=
  keeps_step' (W := fun l => l ≠ z) hsAt_prims tr (hsAt_plain T) hsAt_readObj hsAt_writeObj o
    (by rintro l hl rfl; exact hz hl) _ hs

end Indirect
end
end Verif
