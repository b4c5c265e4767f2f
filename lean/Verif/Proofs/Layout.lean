import Verif.Spec.Layout

/-!
# Lemmas about sizes and offsets
-/

set_option autoImplicit false
set_option linter.unusedSectionVars false
set_option linter.unusedSimpArgs false

namespace Verif.Layout
open Verif.Spec.Sizes

theorem roundUp_padded (n a : Nat) (ha : 0 < a) : Padded n a (roundUp n a) := by
  unfold roundUp Padded
  have h1 := Nat.div_add_mod (n + (a - 1)) a
  have h2 := Nat.mod_lt (n + (a - 1)) ha
  rw [Nat.mul_comm] at h1
  refine ⟨Nat.dvd_mul_left _ _, ?_, ?_⟩ <;> omega

theorem padded_unique {n a s s' : Nat} (h : Padded n a s) (h' : Padded n a s') : s = s' := by
  obtain ⟨⟨k, rfl⟩, h1, h2⟩ := h
  obtain ⟨⟨k', rfl⟩, h1', h2'⟩ := h'
  have hk : k = k' := by
    rcases Nat.lt_trichotomy k k' with hlt | heq | hgt
    · have := Nat.mul_le_mul_left a (Nat.succ_le_of_lt hlt)
      rw [Nat.mul_succ] at this
      omega
    · exact heq
    · have := Nat.mul_le_mul_left a (Nat.succ_le_of_lt hgt)
      rw [Nat.mul_succ] at this
      omega
  rw [hk]

theorem roundUp_eq {n a s : Nat} (h : Padded n a s) : roundUp n a = s := by
  have ha : 0 < a := by obtain ⟨_, h1, h2⟩ := h; omega
  exact padded_unique (roundUp_padded n a ha) h

theorem roundUp_of_dvd {n a : Nat} (ha : 0 < a) (h : a ∣ n) : roundUp n a = n :=
  roundUp_eq ⟨h, Nat.le_refl _, by omega⟩

theorem roundUp_le (n a : Nat) (ha : 0 < a) : n ≤ roundUp n a := (roundUp_padded n a ha).2.1

theorem roundUp_zero (a : Nat) (ha : 0 < a) : roundUp 0 a = 0 := roundUp_of_dvd ha (Nat.dvd_zero a)

theorem pow_cases {a b : Nat} (ha : ∃ k, a = 2 ^ k) (hb : ∃ k, b = 2 ^ k) : (a ≤ b ∧ a ∣ b) ∨ (b ≤ a ∧ b ∣ a) := by
  obtain ⟨k, rfl⟩ := ha
  obtain ⟨j, rfl⟩ := hb
  rcases Nat.le_total k j with h | h
  · exact .inl ⟨Nat.pow_le_pow_right (by omega) h, Nat.pow_dvd_pow 2 h⟩
  · exact .inr ⟨Nat.pow_le_pow_right (by omega) h, Nat.pow_dvd_pow 2 h⟩

theorem max_pow {a b : Nat} (ha : ∃ k, a = 2 ^ k) (hb : ∃ k, b = 2 ^ k) :
    (∃ k, max a b = 2 ^ k) ∧ a ∣ max a b ∧ b ∣ max a b := by
  rcases pow_cases ha hb with ⟨h, hd⟩ | ⟨h, hd⟩
  · rw [Nat.max_eq_right h]; exact ⟨hb, hd, Nat.dvd_refl _⟩
  · rw [Nat.max_eq_left h]; exact ⟨ha, Nat.dvd_refl _, hd⟩

theorem pow_pos' {a : Nat} (ha : ∃ k, a = 2 ^ k) : 0 < a := by
  obtain ⟨k, rfl⟩ := ha
  exact Nat.two_pow_pos k

section
variable {N : Type} [DecidableEq N]

theorem greatest_le {es : List (N × Nat)} {e : N × Nat} (h : e ∈ es) : e.2 ≤ greatest es := by
  induction es with
  | nil => cases h
  | cons d ds ih =>
    rcases List.mem_cons.1 h with rfl | h
    · exact Nat.le_max_left _ _
    · exact Nat.le_trans (ih h) (Nat.le_max_right _ _)

theorem clash_false {es ds : List (N × Nat)} {o : Nat} : clash es ds o = false ↔ ∀ d ∈ ds, (d.1, d.2 + o) ∉ es := by
  unfold clash
  rw [List.any_eq_false]
  constructor
  · intro h d hd hm
    exact h d hd (List.contains_iff_mem.2 hm)
  · intro h d hd hc
    exact h d hd (List.contains_iff_mem.1 hc)

theorem clash_far {es ds : List (N × Nat)} {o : Nat} (h : ∀ e ∈ es, e.2 < o) : clash es ds o = false :=
  clash_false.2 fun d _ hm => by
    have := h _ hm
    dsimp only at this
    omega

theorem search_first {es ds : List (N × Nat)} {a n o : Nat} (h : clash es ds o = false) : search es ds a n o = o := by
  cases n with
  | zero => rfl
  | succ n => simp [search, h]

theorem search_ok (es ds : List (N × Nat)) (a : Nat) (ha : 0 < a) (n o : Nat) (h : greatest es < o + n) :
    clash es ds (search es ds a n o) = false ∧ o ≤ search es ds a n o ∧ (a ∣ o → a ∣ search es ds a n o) := by
  induction n generalizing o with
  | zero =>
    unfold search
    refine ⟨clash_far fun e he => ?_, Nat.le_refl _, id⟩
    have := greatest_le he
    omega
  | succ n ih =>
    unfold search
    by_cases hc : clash es ds o = true
    · rw [if_pos hc]
      obtain ⟨h1, h2, h3⟩ := ih (o + a) (by omega)
      exact ⟨h1, by omega, fun hd => h3 (Nat.dvd_add hd (Nat.dvd_refl a))⟩
    · rw [if_neg hc]
      exact ⟨by simpa using hc, Nat.le_refl _, id⟩

theorem behind_ok (c : Partial N) (t : Ty N) (ha : 0 < t.align) :
    clash c.empties t.empties (behind c t) = false ∧ c.dsize ≤ behind c t ∧ t.align ∣ behind c t := by
  obtain ⟨h1, h2, h3⟩ := search_ok c.empties t.empties t.align ha (greatest c.empties + 1) (roundUp c.dsize t.align) (by omega)
  obtain ⟨p1, p2, _⟩ := roundUp_padded c.dsize t.align ha
  exact ⟨h1, Nat.le_trans p2 h2, h3 p1⟩

/-- Is it one that may share its bytes? -/
def shares (p : Bool × Ty N) : Bool := p.1 && p.2.isEmpty

/-- What holds while a class is laid out. -/
structure Inv (c : Partial N) (done : List (Bool × Ty N)) : Prop where
  length : c.offsets.length = done.length
  pow : ∃ k, c.align = 2 ^ k
  aligns : ∀ p ∈ done, p.2.align ∣ c.align
  inside : ∀ x ∈ done.zip c.offsets, x.1.2.align ∣ x.2 ∧ x.2 + room x.1 ≤ c.size
  before : ∀ x ∈ done.zip c.offsets, shares x.1 = false → x.2 + bytes x.1 ≤ c.dsize
  apart : (done.zip c.offsets).Pairwise fun x y => Disjoint x.2 (bytes x.1) y.2 (bytes y.1)
  dsize : c.dsize ≤ c.size
  empties : ∀ e ∈ c.empties, e.2 < c.size
  nodup : c.empties.Nodup
  pos : done ≠ [] → 0 < c.size
  none : c.size = 0 → c.empties = []

theorem bytes_shares {p : Bool × Ty N} (h : shares p = true) : bytes p = 0 := by
  obtain ⟨b, t⟩ := p
  cases b <;> simp_all [shares, bytes]

theorem bytes_room (p : Bool × Ty N) : bytes p ≤ room p := by
  obtain ⟨b, t⟩ := p
  cases b
  · simp [bytes, room]
  · by_cases h : t.isEmpty = true <;> simp [bytes, room, h]

theorem room_eq {p : Bool × Ty N} (h : shares p = false) : room p = bytes p := by
  obtain ⟨b, t⟩ := p
  cases b <;> simp_all [shares, bytes, room]

theorem room_pos {p : Bool × Ty N} (h : Sound p.2) : 0 < room p := by
  obtain ⟨b, t⟩ := p
  cases b
  · exact h.pos
  · by_cases he : t.isEmpty = true
    · simp [room, he]; exact h.pos
    · simp [room, he]; exact (h.fits (by simpa using he)).1

theorem place_eq (c : Partial N) (p : Bool × Ty N) :
    place c p.1 p.2 = ⟨max c.size (offset c p.1 p.2 + room p), if shares p then c.dsize else offset c p.1 p.2 + bytes p,
      max c.align p.2.align, c.empties ++ p.2.empties.map fun d => (d.1, d.2 + offset c p.1 p.2), c.offsets ++ [offset c p.1 p.2]⟩ := by
  obtain ⟨b, t⟩ := p
  unfold place
  cases b
  · simp [shares, bytes, room, span]
  · by_cases he : t.isEmpty = true <;> simp [shares, bytes, room, span, he]

theorem offset_ok (c : Partial N) (p : Bool × Ty N) (hp : Sound p.2) :
    clash c.empties p.2.empties (offset c p.1 p.2) = false ∧ p.2.align ∣ offset c p.1 p.2 ∧
      (shares p = false → c.dsize ≤ offset c p.1 p.2) := by
  obtain ⟨b1, b2, b3⟩ := behind_ok c p.2 (pow_pos' hp.pow)
  unfold offset
  by_cases h : (p.1 && p.2.isEmpty && !clash c.empties p.2.empties 0) = true
  · rw [if_pos h]
    simp only [Bool.and_eq_true, Bool.not_eq_true'] at h
    refine ⟨h.2, Nat.dvd_zero _, fun hs => ?_⟩
    simp [shares, h.1.1, h.1.2] at hs
  · rw [if_neg h]
    exact ⟨b1, b3, fun _ => b2⟩

theorem inv_place {c : Partial N} {done : List (Bool × Ty N)} (p : Bool × Ty N) (h : Inv c done) (hp : Sound p.2) :
    Inv (place c p.1 p.2) (done ++ [p]) := by
  obtain ⟨o1, o2, o3⟩ := offset_ok c p hp
  rw [place_eq]
  generalize offset c p.1 p.2 = o at o1 o2 o3 ⊢
  obtain ⟨m1, m2, m3⟩ := max_pow h.pow hp.pow
  have hz : (done ++ [p]).zip (c.offsets ++ [o]) = done.zip c.offsets ++ [(p, o)] := by
    rw [List.zip_append h.length.symm]; rfl
  have hr := room_pos hp
  refine ⟨?_, m1, ?_, ?_, ?_, ?_, ?_, ?_, ?_, ?_, ?_⟩ <;> dsimp only
  · simp [h.length]
  · intro q hq
    rcases List.mem_append.1 hq with hq | hq
    · exact Nat.dvd_trans (h.aligns q hq) m2
    · simp only [List.mem_singleton] at hq
      subst hq
      exact m3
  · rw [hz]
    intro x hx
    rcases List.mem_append.1 hx with hx | hx
    · exact ⟨(h.inside x hx).1, Nat.le_trans (h.inside x hx).2 (Nat.le_max_left _ _)⟩
    · simp only [List.mem_singleton] at hx
      subst hx
      exact ⟨o2, Nat.le_max_right _ _⟩
  · rw [hz]
    intro x hx hs
    by_cases hps : shares p = true
    · rw [if_pos hps]
      rcases List.mem_append.1 hx with hx | hx
      · exact h.before x hx hs
      · simp only [List.mem_singleton] at hx
        subst hx
        rw [hps] at hs
        cases hs
    · have hps : shares p = false := by simpa using hps
      simp only [hps, Bool.false_eq_true, if_false]
      rcases List.mem_append.1 hx with hx | hx
      · have := h.before x hx hs
        have := o3 hps
        omega
      · simp only [List.mem_singleton] at hx
        subst hx
        exact Nat.le_refl _
  · rw [hz, List.pairwise_append]
    refine ⟨h.apart, List.pairwise_singleton _ _, ?_⟩
    intro x hx y hy
    simp only [List.mem_singleton] at hy
    subst hy
    intro b ⟨b1, b2, b3, b4⟩
    dsimp only at b3 b4
    by_cases hs : shares x.1 = true
    · rw [bytes_shares hs] at b2
      omega
    · by_cases hps : shares p = true
      · rw [bytes_shares hps] at b4
        omega
      · have h1 := h.before x hx (by simpa using hs)
        have h2 := o3 (by simpa using hps)
        omega
  · by_cases hps : shares p = true
    · rw [if_pos hps]
      exact Nat.le_trans h.dsize (Nat.le_max_left _ _)
    · have hps : shares p = false := by simpa using hps
      simp only [hps, Bool.false_eq_true, if_false]
      rw [room_eq hps]
      exact Nat.le_max_right _ _
  · intro e he
    rcases List.mem_append.1 he with he | he
    · exact Nat.lt_of_lt_of_le (h.empties e he) (Nat.le_max_left _ _)
    · obtain ⟨d, hd, rfl⟩ := List.mem_map.1 he
      refine Nat.lt_of_lt_of_le ?_ (Nat.le_max_right _ _)
      have h1 := hp.inside d hd
      have h2 : (if p.2.isEmpty then p.2.size else p.2.data) ≤ room p := by
        obtain ⟨b, t⟩ := p
        cases b
        · by_cases he : t.isEmpty = true
          · simp [room, he]
          · simp [room, he]; exact (hp.fits (by simpa using he)).2.1
        · simp [room]
      dsimp only
      omega
  · rw [List.nodup_append]
    refine ⟨h.nodup, ?_, ?_⟩
    · refine List.Pairwise.map _ ?_ hp.distinct
      intro x y hxy heq
      apply hxy
      have h1 := congrArg Prod.fst heq
      have h2 := congrArg Prod.snd heq
      dsimp only at h1 h2
      exact Prod.ext h1 (by omega)
    · intro x hx y hy heq
      obtain ⟨d, hd, rfl⟩ := List.mem_map.1 hy
      exact clash_false.1 o1 d hd (heq ▸ hx)
  · intro _
    exact Nat.lt_of_lt_of_le (Nat.lt_of_lt_of_le hr (Nat.le_add_left _ _)) (Nat.le_max_right _ _)
  · intro h0
    exfalso
    have := Nat.le_max_right c.size (o + room p)
    omega

theorem inv_places {ps : List (Bool × Ty N)} : ∀ {c : Partial N} {done : List (Bool × Ty N)}, Inv c done → (∀ p ∈ ps, Sound p.2) →
    Inv (places c ps) (done ++ ps) := by
  induction ps with
  | nil => intro c done h _; simpa [places] using h
  | cons p ps ih =>
    intro c done h hs
    have := ih (inv_place p h (hs p (List.mem_cons_self ..))) fun q hq => hs q (List.mem_cons_of_mem _ hq)
    simpa [places] using this

theorem inv_start : Inv (start : Partial N) [] :=
  ⟨rfl, ⟨0, rfl⟩, by simp, by simp, by simp, by simp, Nat.le_refl _, by simp [start], by simp [start], by simp, fun _ => rfl⟩

theorem inv_parts {ps : List (Bool × Ty N)} (hs : ∀ p ∈ ps, Sound p.2) : Inv (places start ps) ps := by
  simpa using inv_places inv_start hs

theorem cls_size_le (name : N) (pod : Bool) {ps : List (Bool × Ty N)} (hs : ∀ p ∈ ps, Sound p.2) :
    (places start ps).size ≤ (cls name pod ps).size := by
  have h := inv_parts hs
  exact Nat.le_trans (Nat.le_max_right _ _) (roundUp_le _ _ (pow_pos' h.pow))

theorem sound_cls (name : N) (pod : Bool) {ps : List (Bool × Ty N)} (hs : ∀ p ∈ ps, Sound p.2)
    (hn : ∀ p ∈ ps, ∀ e ∈ p.2.empties, e.1 ≠ name) : Sound (cls name pod ps) := by
  have h := inv_parts hs
  have ha := pow_pos' h.pow
  obtain ⟨r1, r2, r3⟩ := roundUp_padded (max 1 (places start ps).size) (places start ps).align ha
  have names : ∀ e ∈ (places start ps).empties, e.1 ≠ name := by
    have : ∀ (ps : List (Bool × Ty N)) (c : Partial N), (∀ e ∈ c.empties, e.1 ≠ name) → (∀ p ∈ ps, ∀ e ∈ p.2.empties, e.1 ≠ name) →
        ∀ e ∈ (places c ps).empties, e.1 ≠ name := by
      intro ps
      induction ps with
      | nil => intro c hc _; exact hc
      | cons p ps ih =>
        intro c hc hp
        refine ih _ ?_ fun q hq => hp q (List.mem_cons_of_mem _ hq)
        intro e he
        rw [place_eq] at he
        rcases List.mem_append.1 he with he | he
        · exact hc e he
        · obtain ⟨d, hd, rfl⟩ := List.mem_map.1 he
          exact hp p (List.mem_cons_self ..) d hd
    exact this ps start (by simp [start]) hn
  refine ⟨h.pow, r1, ?_, ?_, ?_, ?_⟩
  · exact Nat.lt_of_lt_of_le (Nat.lt_of_lt_of_le Nat.zero_lt_one (Nat.le_max_left _ _)) r2
  · intro he
    have hne : ps ≠ [] := by
      rintro rfl
      simp [cls] at he
    have hpos := h.pos hne
    have hm : max 1 (places start ps).size = (places start ps).size := Nat.max_eq_right hpos
    rw [hm] at r2 r3
    cases pod
    · simp only [cls, Bool.false_eq_true, if_false, hm]
      exact ⟨hpos, r2, r3⟩
    · simp only [cls, if_true, hm]
      refine ⟨Nat.lt_of_lt_of_le hpos r2, Nat.le_refl _, ?_⟩
      omega
  · intro e he
    have key : e.2 < (cls name pod ps).size ∧ (e ∈ (places start ps).empties → e.2 < (places start ps).size) := by
      refine ⟨?_, fun hm => h.empties e hm⟩
      rcases List.mem_append.1 he with hm | hm
      · exact Nat.lt_of_lt_of_le (h.empties e hm) (Nat.le_trans (Nat.le_max_right _ _) r2)
      · split at hm
        · simp only [List.mem_singleton] at hm
          subst hm
          exact Nat.lt_of_lt_of_le (Nat.lt_of_lt_of_le Nat.zero_lt_one (Nat.le_max_left _ _)) r2
        · cases hm
    by_cases hE : (cls name pod ps).isEmpty = true
    · rw [if_pos hE]; exact key.1
    · rw [if_neg hE]
      have hE' : (ps.all fun p => p.1 && p.2.isEmpty) = false := Bool.eq_false_iff.2 hE
      cases pod
      · have hm : e ∈ (places start ps).empties := by
          have he' := he
          simp only [cls, hE', Bool.false_eq_true, if_false, List.append_nil] at he'
          exact he'
        exact key.2 hm
      · exact key.1
  · show ((places start ps).empties ++ if (ps.all fun p => p.1 && p.2.isEmpty) = true then [(name, 0)] else []).Nodup
    rw [List.nodup_append]
    refine ⟨h.nodup, ?_, ?_⟩
    · split <;> simp
    · intro x hx y hy heq
      split at hy
      · simp only [List.mem_singleton] at hy
        subst hy
        subst heq
        exact names _ hx rfl
      · cases hy

/-! ### The owners -/

theorem clash_nil (ds : List (N × Nat)) (o : Nat) : clash [] ds o = false := by
  apply clash_false.2
  intro d _ h
  cases h

theorem offset_start (b : Bool) (t : Ty N) (ha : 0 < t.align) : offset (start : Partial N) b t = 0 := by
  unfold offset
  split
  · rfl
  · unfold behind
    simp only [start]
    rw [roundUp_zero _ ha, search_first (clash_nil _ _)]

theorem place_start (p : Bool × Ty N) (hp : Sound p.2) :
    place start p.1 p.2 = ⟨room p, if shares p then 0 else bytes p, p.2.align, p.2.empties, [0]⟩ := by
  rw [place_eq, offset_start _ _ (pow_pos' hp.pow)]
  have ha := pow_pos' hp.pow
  have : max 1 p.2.align = p.2.align := Nat.max_eq_right ha
  simp [start, this]

/-- The two places where an allocator that is not shared can be. -/
theorem second (c : Partial N) (p : Bool × Ty N) (hp : Sound p.2) (hs : shares p = false) (hc : ∀ e ∈ c.empties, e.2 < c.dsize) :
    offset c p.1 p.2 = roundUp c.dsize p.2.align := by
  unfold offset
  have : (p.1 && p.2.isEmpty) = false := hs
  simp only [this, Bool.false_and, Bool.false_eq_true, if_false]
  unfold behind
  apply search_first
  apply clash_far
  intro e he
  exact Nat.lt_of_lt_of_le (hc e he) (roundUp_le _ _ (pow_pos' hp.pow))

/-- A class with two parts of which neither shares. -/
theorem two_size (name : N) (p q : Bool × Ty N) (hp : Sound p.2) (hq : Sound q.2) (sp : shares p = false) (sq : shares q = false) :
    (cls name false [p, q]).size = roundUp (roundUp (bytes p) q.2.align + bytes q) (max p.2.align q.2.align) ∧
      offsets [p, q] = [0, roundUp (bytes p) q.2.align] := by
  have hpos : 0 < bytes q := by rw [← room_eq sq]; exact room_pos hq
  have h1 := place_start p hp
  simp only [sp, Bool.false_eq_true, if_false, room_eq sp] at h1
  have hin : ∀ e ∈ p.2.empties, e.2 < bytes p := by
    intro e he
    have h1 := hp.inside e he
    obtain ⟨b, t⟩ := p
    cases b
    · by_cases he : t.isEmpty = true
      · simpa [bytes, he] using h1
      · simp only [he, if_false, Bool.false_eq_true] at h1
        exact Nat.lt_of_lt_of_le h1 (hp.fits (by simpa using he)).2.1
    · have he : t.isEmpty = false := by simpa [shares] using sp
      simpa [bytes, he] using h1
  have h2 := second (place start p.1 p.2) q hq sq (by rw [h1]; exact hin)
  have h3 := place_eq (place start p.1 p.2) q
  rw [h2, h1] at h3
  have hle := roundUp_le (bytes p) q.2.align (pow_pos' hq.pow)
  simp only [sq, Bool.false_eq_true, if_false, room_eq sq] at h3
  have hm : max (bytes p) (roundUp (bytes p) q.2.align + bytes q) = roundUp (bytes p) q.2.align + bytes q := Nat.max_eq_right (by omega)
  rw [hm] at h3
  constructor
  · simp only [cls, places, h1, h3]
    congr 1
    omega
  · simp only [offsets, places, h1, h3]
    rfl

/-- An empty base or member that shares, in front of or behind another. -/
theorem shared_size (p a : Ty N) (hp : Sound p) (he : a.isEmpty = true) (hc : clash p.empties a.empties 0 = false) (name : N) :
    (owner20 name p a).size = roundUp (max p.size a.size) (max p.align a.align) ∧ offsets (parts20 p a) = [0, 0] := by
  have h1 := place_start (false, p) hp
  simp only [shares, Bool.false_and, Bool.false_eq_true, if_false, room, bytes] at h1
  have h2 := place_eq (place start false p) (true, a)
  have ho : offset (place start false p) true a = 0 := by
    unfold offset
    rw [h1]
    simp [he, hc]
  rw [ho, h1] at h2
  simp only [shares, he, Bool.and_self, if_true, room, Nat.zero_add] at h2
  have hpos := hp.pos
  constructor
  · simp only [owner20, parts20, cls, places, h1, h2]
    congr 1
    omega
  · simp only [offsets, parts20, places, h1, h2]
    rfl

theorem base_kept (nb : N) (a : Ty N) (ha : Sound a) (h : (a.isEmpty && !a.isFinal) = false) :
    base14 nb a = ⟨a.size, a.align, a.size, false, false, a.empties⟩ := by
  have h1 := place_start (false, a) ha
  simp only [shares, Bool.false_and, Bool.false_eq_true, if_false, room, bytes] at h1
  have hpos := ha.pos
  have hm : max 1 a.size = a.size := Nat.max_eq_right hpos
  simp [base14, h, cls, places, h1, hm, roundUp_of_dvd (pow_pos' ha.pow) ha.mult]

theorem base_shared (nb : N) (a : Ty N) (ha : Sound a) (he : a.isEmpty = true) (hf : a.isFinal = false) :
    base14 nb a = ⟨a.size, a.align, a.size, true, false, a.empties ++ [(nb, 0)]⟩ := by
  have h1 := place_start (true, a) ha
  simp only [shares, he, Bool.and_self, if_true, room] at h1
  have hpos := ha.pos
  have hm : max 1 a.size = a.size := Nat.max_eq_right hpos
  simp [base14, he, hf, cls, places, h1, hm, roundUp_of_dvd (pow_pos' ha.pow) ha.mult]

theorem sound_kept {a : Ty N} (ha : Sound a) : Sound (⟨a.size, a.align, a.size, false, false, a.empties⟩ : Ty N) := by
  refine ⟨ha.pow, ha.mult, ha.pos, fun _ => ⟨ha.pos, Nat.le_refl _, ?_⟩, ?_, ha.distinct⟩
  · have := pow_pos' ha.pow
    dsimp only
    omega
  · intro e he
    have := ha.inside e he
    simp only [Bool.false_eq_true, if_false]
    by_cases hE : a.isEmpty = true
    · simpa [hE] using this
    · simp only [hE, if_false, Bool.false_eq_true] at this
      exact Nat.lt_of_lt_of_le this (ha.fits (by simpa using hE)).2.1

theorem owner14_kept (name nb : N) (p a : Ty N) (hp : Sound p) (ha : Sound a) (h : (a.isEmpty && !a.isFinal) = false) :
    (owner14 name nb p a).size = roundUp (roundUp a.size p.align + p.size) (max a.align p.align) ∧
      offsets (parts14 nb p a) = [0, roundUp a.size p.align] := by
  unfold owner14 parts14
  rw [base_kept nb a ha h]
  exact two_size name (true, _) (false, p) (sound_kept ha) hp rfl rfl

theorem owner14_shared (name nb : N) (p a : Ty N) (hp : Sound p) (ha : Sound a) (he : a.isEmpty = true) (hf : a.isFinal = false)
    (hu : Unrelated p a) (hb : ∀ d ∈ p.empties, d.1 ≠ nb) :
    (owner14 name nb p a).size = roundUp (max a.size p.size) (max a.align p.align) ∧ offsets (parts14 nb p a) = [0, 0] := by
  unfold owner14 parts14
  rw [base_shared nb a ha he hf]
  generalize hB : (⟨a.size, a.align, a.size, true, false, a.empties ++ [(nb, 0)]⟩ : Ty N) = B
  have hal := pow_pos' ha.pow
  have hpl := pow_pos' hp.pow
  have hBa : B.align = a.align := by rw [← hB]
  have hBs : B.size = a.size := by rw [← hB]
  have hBe : B.isEmpty = true := by rw [← hB]
  have hBm : B.empties = a.empties ++ [(nb, 0)] := by rw [← hB]
  have h1 : place start true B = ⟨a.size, 0, a.align, a.empties ++ [(nb, 0)], [0]⟩ := by
    have := place_eq (start : Partial N) (true, B)
    rw [offset_start _ _ (by rw [hBa]; exact hal)] at this
    simp only [shares, hBe, Bool.and_self, if_true, room, hBs, hBa, hBm] at this
    have hm : max 1 a.align = a.align := Nat.max_eq_right hal
    simpa [start, hm] using this
  have hc : clash (a.empties ++ [(nb, 0)]) p.empties 0 = false := by
    apply clash_false.2
    intro d hd hm
    rcases List.mem_append.1 hm with hm | hm
    · exact hu d hd _ hm rfl
    · simp only [List.mem_singleton] at hm
      exact hb d hd (congrArg Prod.fst hm)
  have ho : offset (place start true B) false p = 0 := by
    unfold offset behind
    rw [h1]
    simp only [Bool.false_and, Bool.false_eq_true, if_false]
    rw [roundUp_zero _ hpl, search_first hc]
  have h2 := place_eq (place start true B) (false, p)
  rw [ho, h1] at h2
  simp only [shares, Bool.false_and, Bool.false_eq_true, if_false, room, Nat.zero_add] at h2
  have hpos := hp.pos
  constructor
  · simp only [cls, places, h1, h2]
    congr 1
    omega
  · simp only [offsets, places, h1, h2]
    rfl

/-- Which of the two comes first does not matter. -/
theorem order_of_parts {p a : Ty N} (hp : Sound p) (ha : Sound a) (he : a.isEmpty = false) :
    roundUp (roundUp p.size a.align + a.data) (max p.align a.align) = roundUp (roundUp a.size p.align + p.size) (max a.align p.align) := by
  obtain ⟨f1, f2, f3⟩ := ha.fits he
  have hpl := pow_pos' hp.pow
  have hal := pow_pos' ha.pow
  rcases pow_cases hp.pow ha.pow with ⟨hle, hd⟩ | ⟨hle, hd⟩
  · -- the allocator is aligned more strictly
    rw [Nat.max_eq_right hle, Nat.max_eq_left hle, roundUp_of_dvd hpl (Nat.dvd_trans hd ha.mult)]
    obtain ⟨r1, r2, r3⟩ := roundUp_padded p.size a.align hal
    have e1 : roundUp (roundUp p.size a.align + a.data) a.align = roundUp p.size a.align + a.size :=
      roundUp_eq ⟨Nat.dvd_add r1 ha.mult, by omega, by omega⟩
    have e2 : roundUp (a.size + p.size) a.align = roundUp p.size a.align + a.size :=
      roundUp_eq ⟨Nat.dvd_add r1 ha.mult, by omega, by omega⟩
    rw [e1, e2]
  · rw [Nat.max_eq_left hle, Nat.max_eq_right hle, roundUp_of_dvd hal (Nat.dvd_trans hd hp.mult)]
    obtain ⟨r1, r2, r3⟩ := roundUp_padded a.size p.align hpl
    have e2 : roundUp (roundUp a.size p.align + p.size) p.align = roundUp a.size p.align + p.size :=
      roundUp_of_dvd hpl (Nat.dvd_add r1 hp.mult)
    rw [e2]
    refine roundUp_eq ⟨Nat.dvd_add r1 hp.mult, by omega, ?_⟩
    -- `R - p.align` is a multiple of `a.align` below `a.size`
    generalize roundUp a.size p.align = R at r1 r2 r3 ⊢
    have hR : a.align ∣ R - p.align := Nat.dvd_sub (Nat.dvd_trans hd r1) hd
    obtain ⟨x, hx⟩ := hR
    obtain ⟨y, hy⟩ := ha.mult
    have hxy : x < y := by
      rcases Nat.lt_or_ge x y with h | h
      · exact h
      · have := Nat.mul_le_mul_left a.align h
        omega
    have := Nat.mul_le_mul_left a.align (Nat.succ_le_of_lt hxy)
    rw [Nat.mul_succ] at this
    omega

/-- Members of one type, one after the other. -/
theorem places_replicate (t : Ty N) (ht : Sound t) (n : Nat) : ∀ (c : Partial N) (k : Nat), c.size = k * t.size → c.dsize = k * t.size →
    c.align = (if k = 0 then 1 else t.align) → (∀ e ∈ c.empties, e.2 < k * t.size) → c.offsets = (List.range k).map (· * t.size) →
    (places c (List.replicate n (false, t))).size = (k + n) * t.size ∧
      (places c (List.replicate n (false, t))).align = (if k + n = 0 then 1 else t.align) ∧
      (places c (List.replicate n (false, t))).offsets = (List.range (k + n)).map (· * t.size) := by
  have hal := pow_pos' ht.pow
  induction n with
  | zero => intro c k h1 h2 h3 _ h5; exact ⟨h1, h3, h5⟩
  | succ n ih =>
    intro c k h1 h2 h3 h4 h5
    have ho : offset c false t = k * t.size := by
      have := second c (false, t) ht rfl (by rw [h2]; exact h4)
      rw [h2] at this
      dsimp only at this
      rw [this]
      exact roundUp_of_dvd hal (Nat.dvd_trans ht.mult (Nat.dvd_mul_left _ _))
    have h := place_eq c (false, t)
    dsimp only at h
    rw [ho] at h
    simp only [shares, Bool.false_and, Bool.false_eq_true, if_false, room, bytes] at h
    have hk : k * t.size + t.size = (k + 1) * t.size := (Nat.succ_mul k t.size).symm
    have hmax : max c.align t.align = t.align := by
      rw [h3]
      split
      · exact Nat.max_eq_right hal
      · exact Nat.max_self _
    have := ih (place c false t) (k + 1) (by rw [h]; dsimp only; rw [h1, hk]; apply Nat.max_eq_right; exact Nat.mul_le_mul_right _ (by omega))
      (by rw [h]; exact hk) (by rw [h]; simpa using hmax)
      (by
        rw [h]
        intro e he
        rcases List.mem_append.1 he with he | he
        · have := h4 e he
          omega
        · obtain ⟨d, hd, rfl⟩ := List.mem_map.1 he
          have h6 := ht.inside d hd
          have h7 : (if t.isEmpty then t.size else t.data) ≤ t.size := by
            split
            · exact Nat.le_refl _
            · rename_i hE
              exact (ht.fits (by simpa using hE)).2.1
          dsimp only
          omega)
      (by rw [h]; dsimp only; rw [h5, List.range_succ]; simp)
    rw [show k + (n + 1) = k + 1 + n by omega]
    exact this

theorem sound_scalar' (k : Nat) : Sound (scalar (2 ^ k) (2 ^ k) : Ty N) := by
  have := Nat.two_pow_pos k
  refine ⟨⟨k, rfl⟩, Nat.dvd_refl _, this, fun _ => ⟨this, Nat.le_refl _, ?_⟩, by simp [scalar], by simp [scalar]⟩
  simp only [scalar]
  omega

theorem sound_control (nc : N) (k : Nat) (p : Ty N) (hp : Sound p) (hn : ∀ e ∈ p.empties, e.1 ≠ nc) : Sound (controlBlock nc (2 ^ k) p) := by
  apply sound_cls
  · simp only [List.mem_cons, List.not_mem_nil, or_false, forall_eq_or_imp, forall_eq]
    exact ⟨sound_scalar' k, hp⟩
  · simp only [List.mem_cons, List.not_mem_nil, or_false, forall_eq_or_imp, forall_eq]
    exact ⟨by simp [scalar], hn⟩

theorem control_data (nc : N) (k : Nat) (p : Ty N) (hp : Sound p) :
    (controlBlock nc (2 ^ k) p).data = roundUp (2 ^ k) p.align + p.size := by
  have h1 := place_start (false, (scalar (2 ^ k) (2 ^ k) : Ty N)) (sound_scalar' k)
  simp only [shares, Bool.false_and, Bool.false_eq_true, if_false, room, bytes] at h1
  have h2 := second (place start false (scalar (2 ^ k) (2 ^ k))) (false, p) hp rfl (by rw [h1]; simp [scalar])
  have hle := roundUp_le (2 ^ k) p.align (pow_pos' hp.pow)
  have h3 := place_eq (place start false (scalar (2 ^ k) (2 ^ k) : Ty N)) (false, p)
  dsimp only at h2 h3
  have h4 : (place (place start false (scalar (2 ^ k) (2 ^ k) : Ty N)) false p).size = roundUp (2 ^ k) p.align + p.size := by
    rw [h3, h2, h1]
    simp only [room, scalar]
    omega
  simp only [controlBlock, cls, places, Bool.false_eq_true, if_false]
  exact h4

theorem sound_storage {u : Ty N} (hu : Sound u) : Sound (storage u) := by
  have h := sound_kept hu
  exact ⟨h.pow, h.mult, h.pos, h.fits, h.inside, h.distinct⟩

end
end Verif.Layout
