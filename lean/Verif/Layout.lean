import Verif.Mem

/-
  Registered structs and the Struct-of-Arrays layout of a buffer.
-/
set_option linter.unusedSectionVars false
namespace LFA

/-- One entry of the member list given to `LIBFLATARRAY_REGISTER_SOA`: `((type)(name))` or
    `((type)(name)(arity))` (macros.hpp:38-101, detail/macros.hpp:36-42).  `dflt` is the value of the
    value-initialised type `T()` (detail/macros.hpp:275-287). Names are represented by positions. -/
structure Member (V : Type) where
  ty : Ty
  arity : Option Nat
  dflt : V

/-- A registered struct: its member list, in registration order. -/
abbrev Layout (V : Type) := List (Member V)

/-- `LIBFLATARRAY_ARRAY_CONDITIONAL(MEMBER, 1, LIBFLATARRAY_ARRAY_ARITY(MEMBER))` (detail/macros.hpp:54-57). -/
def Member.elems {V : Type} (m : Member V) : Nat :=
  match m.arity with
  | none => 1
  | some n => n

/-- `detail::flat_array::offset<CELL, r>::OFFSET` (detail/offset.hpp:36-41, detail/macros.hpp:44-57). -/
def offset {V : Type} (L : Layout V) : Nat → Nat
  | 0 => 0
  | r + 1 => offset L r + (match L[r]? with | some m => m.ty.size * m.elems | none => 0)

/-- `aggregated_member_size<CELL>::VALUE` (macros.hpp:117-127). -/
def aggSize {V : Type} (L : Layout V) : Nat := offset L L.length

/-- C++ guarantees `sizeof(T) > 0`, and arrays in structs have at least one element. -/
def Layout.WF {V : Type} (L : Layout V) : Prop := ∀ m ∈ L, 0 < m.ty.size ∧ 0 < m.elems

/-- Specification of a packed struct of arrays holding `P` structs: byte address of array element `k` of the
    member with size `s` and offset `off`, for struct number `i`. -/
def slot (P off s k i : Nat) : Nat := P * (s * k + off) + i * s

/-- `LIBFLATARRAY_FOR_EACH(MACRO, UNUSED, MEMBERS)` used to emit statements: runs `f r member` for all members
    in order (detail/preprocessor.hpp:183-238; the macro itself is treated in `Verif.Preproc`). -/
def forEach {V σ : Type} (f : Nat → Member V → σ → Except UB σ) : Layout V → Nat → σ → Except UB σ
  | [], _, s => .ok s
  | m :: ms, r, s => (f r m s).bind (forEach f ms (r + 1))

section
variable {V : Type}

theorem Layout.WF.size_pos {L : Layout V} (h : L.WF) {r : Nat} {m : Member V} (hm : L[r]? = some m) :
    0 < m.ty.size := (h m (List.mem_of_getElem? hm)).1

theorem Layout.WF.elems_pos {L : Layout V} (h : L.WF) {r : Nat} {m : Member V} (hm : L[r]? = some m) :
    0 < m.elems := (h m (List.mem_of_getElem? hm)).2

theorem offset_succ {L : Layout V} {r : Nat} {m : Member V} (hm : L[r]? = some m) :
    offset L (r + 1) = offset L r + m.ty.size * m.elems := by
  simp only [offset, hm]

theorem offset_mono (L : Layout V) {r r' : Nat} (h : r ≤ r') : offset L r ≤ offset L r' := by
  induction h with
  | refl => exact Nat.le_refl _
  | step _ ih => simp only [offset]; omega

theorem lt_length_of_getElem? {L : Layout V} {r : Nat} {m : Member V} (hm : L[r]? = some m) : r < L.length := by
  rcases List.getElem?_eq_some_iff.1 hm with ⟨h, _⟩
  exact h

/-- End of a slot does not go beyond its "plane" (all structs of one array element of one member). -/
theorem slot_end_le_plane {P off s k i : Nat} (hi : i < P) : slot P off s k i + s ≤ P * (s * (k + 1) + off) := by
  have h1 : (i + 1) * s ≤ P * s := Nat.mul_le_mul_right s hi
  have h2 : P * (s * (k + 1) + off) = P * (s * k + off) + P * s := by
    rw [Nat.mul_succ, Nat.add_right_comm, Nat.mul_add P (s * k + off) s]
  have h3 : (i + 1) * s = i * s + s := Nat.succ_mul i s
  unfold slot
  omega

theorem plane_le {L : Layout V} (P : Nat) {r : Nat} {m : Member V} (hm : L[r]? = some m) {k : Nat}
    (hk : k < m.elems) : P * (m.ty.size * (k + 1) + offset L r) ≤ P * offset L (r + 1) := by
  rw [offset_succ hm]
  apply Nat.mul_le_mul_left
  have := Nat.mul_le_mul_left m.ty.size (show k + 1 ≤ m.elems from hk)
  omega

theorem slot_in_bounds {L : Layout V} {P r : Nat} {m : Member V} (hm : L[r]? = some m) {k i : Nat}
    (hk : k < m.elems) (hi : i < P) :
    slot P (offset L r) m.ty.size k i + m.ty.size ≤ aggSize L * P := by
  have h1 := slot_end_le_plane (off := offset L r) (s := m.ty.size) (k := k) hi
  have h2 := plane_le P hm hk
  have h3 : offset L (r + 1) ≤ aggSize L := offset_mono L (lt_length_of_getElem? hm)
  have h4 := Nat.mul_le_mul_left P h3
  rw [Nat.mul_comm (aggSize L) P]
  omega

theorem slot_disjoint {L : Layout V} {P r r' : Nat} {m m' : Member V}
    (hm : L[r]? = some m) (hm' : L[r']? = some m') {k k' i i' : Nat}
    (hk : k < m.elems) (hk' : k' < m'.elems) (hi : i < P) (hi' : i' < P)
    (hne : ¬ (r = r' ∧ k = k' ∧ i = i')) :
    Block.Disj (slot P (offset L r) m.ty.size k i) m.ty.size
      (slot P (offset L r') m'.ty.size k' i') m'.ty.size := by
  -- a member registered earlier, lies completely below
  have lower : ∀ {r r' : Nat} {m m' : Member V}, L[r]? = some m → L[r']? = some m' →
      ∀ {k k' i i' : Nat}, k < m.elems → i < P → r < r' →
      slot P (offset L r) m.ty.size k i + m.ty.size ≤ slot P (offset L r') m'.ty.size k' i' := by
    intro r r' m m' hm hm' k k' i i' hk hi hlt
    have h1 := slot_end_le_plane (off := offset L r) (s := m.ty.size) (k := k) hi
    have h2 := plane_le P hm hk
    have h3 := Nat.mul_le_mul_left P (offset_mono L (show r + 1 ≤ r' from hlt))
    have h4 : P * offset L r' ≤ slot P (offset L r') m'.ty.size k' i' := by
      unfold slot
      have := Nat.mul_le_mul_left P (Nat.le_add_left (offset L r') (m'.ty.size * k'))
      omega
    omega
  have lowerK : ∀ {off s k k' i i' : Nat}, i < P → k < k' → slot P off s k i + s ≤ slot P off s k' i' := by
    intro off s k k' i i' hi hlt
    have h1 := slot_end_le_plane (off := off) (s := s) (k := k) hi
    have h2 := Nat.mul_le_mul_left s (show k + 1 ≤ k' from hlt)
    have h3 := Nat.mul_le_mul_left P (show s * (k + 1) + off ≤ s * k' + off by omega)
    unfold slot at *
    omega
  have lowerI : ∀ {off s k i i' : Nat}, i < i' → slot P off s k i + s ≤ slot P off s k i' := by
    intro off s k i i' hlt
    have h1 := Nat.mul_le_mul_right s (show i + 1 ≤ i' from hlt)
    rw [Nat.succ_mul] at h1
    unfold slot
    omega
  unfold Block.Disj
  rcases Nat.lt_trichotomy r r' with h | h | h
  · exact .inl (lower hm hm' hk hi h)
  · subst h
    rw [hm] at hm'
    cases hm'
    rcases Nat.lt_trichotomy k k' with h | h | h
    · exact .inl (lowerK hi h)
    · subst h
      rcases Nat.lt_trichotomy i i' with h | h | h
      · exact .inl (lowerI h)
      · subst h; exact absurd ⟨rfl, rfl, rfl⟩ hne
      · exact .inr (lowerI h)
    · exact .inr (lowerK hi' h)
  · exact .inr (lower hm' hm hk' hi' h)

/-- Every byte of the buffer belongs to a slot. -/
theorem slot_cover {L : Layout V} (hL : L.WF) {P a : Nat} (ha : a < aggSize L * P) :
    ∃ r m k i j, L[r]? = some m ∧ k < m.elems ∧ i < P ∧ j < m.ty.size ∧
      a = slot P (offset L r) m.ty.size k i + j := by
  have hP : 0 < P := by
    rcases Nat.eq_zero_or_pos P with h | h
    · subst h; simp at ha
    · exact h
  -- find the member
  have find : ∀ n, n ≤ L.length → a < P * offset L n →
      ∃ r, r < n ∧ P * offset L r ≤ a ∧ a < P * offset L (r + 1) := by
    intro n
    induction n with
    | zero => intro _ h; simp [offset] at h
    | succ n ih =>
      intro hn h
      by_cases hlt : a < P * offset L n
      · obtain ⟨r, h1, h2⟩ := ih (by omega) hlt
        exact ⟨r, by omega, h2⟩
      · exact ⟨n, by omega, by omega, h⟩
  obtain ⟨r, hr, h1, h2⟩ := find L.length (Nat.le_refl _) (by rw [Nat.mul_comm]; exact ha)
  have hm : L[r]? = some L[r] := List.getElem?_eq_getElem hr
  generalize L[r] = m at hm
  have hs : 0 < m.ty.size := hL.size_pos hm
  rw [offset_succ hm, Nat.mul_add] at h2
  -- split the rest into element, struct and byte
  let d := a - P * offset L r
  have hd : a = P * offset L r + d := by omega
  have hPs : 0 < P * m.ty.size := Nat.mul_pos hP hs
  have hd2 : d < P * m.ty.size * m.elems := by
    rw [Nat.mul_assoc]; omega
  have e1 := Nat.div_add_mod d (P * m.ty.size)
  have e2 := Nat.div_add_mod (d % (P * m.ty.size)) m.ty.size
  refine ⟨r, m, d / (P * m.ty.size), (d % (P * m.ty.size)) / m.ty.size, (d % (P * m.ty.size)) % m.ty.size,
    hm, Nat.div_lt_of_lt_mul hd2, ?_, Nat.mod_lt _ hs, ?_⟩
  · apply Nat.div_lt_of_lt_mul
    rw [Nat.mul_comm m.ty.size P]
    exact Nat.mod_lt _ hPs
  · unfold slot
    rw [Nat.mul_add, ← Nat.mul_assoc, Nat.mul_comm (_ / m.ty.size) m.ty.size]
    omega

end

/-! ### Abstract content of a buffer -/

/-- Abstract content: (member, array element, struct number) ↦ value; `none` = no (known) object. -/
abbrev Cont (V : Type) := Nat → Nat → Nat → Option V

/-- `b` is a packed struct of arrays for `P` structs, whose objects have the values `c`. Where `c` is `none`, no byte
    belongs to a live non-trivial object. -/
structure View {V : Type} (L : Layout V) (P : Nat) (b : Block V) (c : Cont V) : Prop where
  size : aggSize L * P ≤ b.size
  hsome : ∀ r m k i v, L[r]? = some m → k < m.elems → i < P → c r k i = some v →
    b.Holds (slot P (offset L r) m.ty.size k i) m.ty v
  hnone : ∀ r m k i, L[r]? = some m → k < m.elems → i < P → c r k i = none →
    b.NoNT (slot P (offset L r) m.ty.size k i) m.ty.size

/-- `b` contains a packed struct of arrays for `P` structs, in which at least the values `c` can be read. -/
structure Reads {V : Type} (L : Layout V) (P : Nat) (b : Block V) (c : Cont V) : Prop where
  size : aggSize L * P ≤ b.size
  hsome : ∀ r m k i v, L[r]? = some m → k < m.elems → i < P → c r k i = some v →
    b.Holds (slot P (offset L r) m.ty.size k i) m.ty v

theorem View.reads {V : Type} {L : Layout V} {P : Nat} {b : Block V} {c : Cont V} (h : View L P b c) : Reads L P b c :=
  ⟨h.size, h.hsome⟩

open Classical in
/-- `c`, with the values `w` at the keys in `S`. -/
noncomputable def mark {V : Type} (c w : Cont V) (S : Nat → Nat → Nat → Prop) : Cont V :=
  fun r k i => if S r k i then w r k i else c r k i

section
variable {V : Type} {L : Layout V} {P : Nat}

theorem View.congr {b : Block V} {c c' : Cont V} (h : View L P b c)
    (hc : ∀ r m k i, L[r]? = .some m → k < m.elems → i < P → c' r k i = c r k i) : View L P b c' :=
  ⟨h.size,
   fun r m k i v hm hk hi hv => h.hsome r m k i v hm hk hi (by rw [← hc r m k i hm hk hi]; exact hv),
   fun r m k i hm hk hi hv => h.hnone r m k i hm hk hi (by rw [← hc r m k i hm hk hi]; exact hv)⟩

/-- Forget values of trivial objects. -/
theorem View.weaken {b : Block V} {c c' : Cont V} (h : View L P b c)
    (hc : ∀ r m k i, L[r]? = .some m → k < m.elems → i < P →
      c' r k i = c r k i ∨ (m.ty.triv = true ∧ c' r k i = .none)) : View L P b c' := by
  refine ⟨h.size, ?_, ?_⟩
  · intro r m k i v hm hk hi hv
    rcases hc r m k i hm hk hi with e | ⟨_, e⟩
    · exact h.hsome r m k i v hm hk hi (by rw [← e]; exact hv)
    · rw [e] at hv; cases hv
  · intro r m k i hm hk hi hv
    rcases hc r m k i hm hk hi with e | ⟨ht, _⟩
    · exact h.hnone r m k i hm hk hi (by rw [← e]; exact hv)
    · cases hcv : c r k i with
      | none => exact h.hnone r m k i hm hk hi hcv
      | some v => exact (h.hsome r m k i v hm hk hi hcv).noNT ht

theorem View.fresh (L : Layout V) (P : Nat) : View L P (Block.fresh (aggSize L * P)) (fun _ _ _ => Option.none) :=
  ⟨Nat.le_refl _, fun _ _ _ _ _ _ _ _ h => (nomatch h), fun _ _ _ _ _ _ _ _ _ _ => rfl⟩

theorem mark_empty (c w : Cont V) : mark c w (fun _ _ _ => False) = c := by
  funext r k i; simp [mark]

theorem mark_pos {c w : Cont V} {S : Nat → Nat → Nat → Prop} {r k i} (h : S r k i) : mark c w S r k i = w r k i := by
  simp [mark, h]

theorem mark_neg {c w : Cont V} {S : Nat → Nat → Nat → Prop} {r k i} (h : ¬ S r k i) : mark c w S r k i = c r k i := by
  simp [mark, h]

theorem View.bound {b : Block V} {c : Cont V} (h : View L P b c) {r m k i} (hm : L[r]? = .some m) (hk : k < m.elems)
    (hi : i < P) : slot P (offset L r) m.ty.size k i + m.ty.size ≤ b.size :=
  Nat.le_trans (slot_in_bounds hm hk hi) h.size

variable [DecidableEq V]

theorem Reads.read {b : Block V} {c : Cont V} (hL : L.WF) (h : Reads L P b c) {r m k i v} (hm : L[r]? = .some m)
    (hk : k < m.elems) (hi : i < P) (hv : c r k i = .some v) :
    b.read (slot P (offset L r) m.ty.size k i : Nat) m.ty = .ok v :=
  Block.read_of_holds (hL.size_pos hm) (Nat.le_trans (slot_in_bounds hm hk hi) h.size)
    (h.hsome r m k i v hm hk hi hv)

theorem View.read {b : Block V} {c : Cont V} (hL : L.WF) (h : View L P b c) {r m k i v} (hm : L[r]? = .some m)
    (hk : k < m.elems) (hi : i < P) (hv : c r k i = .some v) :
    b.read (slot P (offset L r) m.ty.size k i : Nat) m.ty = .ok v :=
  Block.read_of_holds (hL.size_pos hm) (h.bound hm hk hi) (h.hsome r m k i v hm hk hi hv)

/-- Effect of overwriting one slot. -/
theorem View.put {b : Block V} {c : Cont V} (h : View L P b c) {r m k i} (hm : L[r]? = .some m)
    (hk : k < m.elems) (hi : i < P) (v : V) {c' : Cont V} (h1 : c' r k i = .some v)
    (h2 : ∀ r' k' i', ¬ (r = r' ∧ k = k' ∧ i = i') → c' r' k' i' = c r' k' i') :
    View L P (b.put (slot P (offset L r) m.ty.size k i) m.ty v) c' := by
  refine ⟨h.size, ?_, ?_⟩
  · intro r' m' k' i' v' hm' hk' hi' hv'
    by_cases he : r = r' ∧ k = k' ∧ i = i'
    · obtain ⟨rfl, rfl, rfl⟩ := he
      rw [hm] at hm'; cases hm'
      rw [h1] at hv'; cases hv'
      exact Block.holds_put _ _ _ _
    · rw [h2 r' k' i' he] at hv'
      exact Block.holds_put_disj _ _ (slot_disjoint hm hm' hk hk' hi hi' he) (h.hsome r' m' k' i' v' hm' hk' hi' hv')
  · intro r' m' k' i' hm' hk' hi' hv'
    by_cases he : r = r' ∧ k = k' ∧ i = i'
    · obtain ⟨rfl, rfl, rfl⟩ := he
      rw [h1] at hv'; cases hv'
    · rw [h2 r' k' i' he] at hv'
      exact Block.noNT_put_disj _ _ (slot_disjoint hm hm' hk hk' hi hi' he) (h.hnone r' m' k' i' hm' hk' hi' hv')

theorem View.wipe {b : Block V} {c : Cont V} (h : View L P b c) {r m k i} (hm : L[r]? = .some m)
    (hk : k < m.elems) (hi : i < P) {c' : Cont V} (h1 : c' r k i = .none)
    (h2 : ∀ r' k' i', ¬ (r = r' ∧ k = k' ∧ i = i') → c' r' k' i' = c r' k' i') :
    View L P (b.wipe (slot P (offset L r) m.ty.size k i) m.ty.size) c' := by
  refine ⟨h.size, ?_, ?_⟩
  · intro r' m' k' i' v' hm' hk' hi' hv'
    by_cases he : r = r' ∧ k = k' ∧ i = i'
    · obtain ⟨rfl, rfl, rfl⟩ := he
      rw [h1] at hv'; cases hv'
    · rw [h2 r' k' i' he] at hv'
      exact Block.holds_wipe_disj _ (slot_disjoint hm hm' hk hk' hi hi' he) (h.hsome r' m' k' i' v' hm' hk' hi' hv')
  · intro r' m' k' i' hm' hk' hi' hv'
    by_cases he : r = r' ∧ k = k' ∧ i = i'
    · obtain ⟨rfl, rfl, rfl⟩ := he
      rw [hm] at hm'; cases hm'
      exact Block.noNT_wipe _ _ _
    · rw [h2 r' k' i' he] at hv'
      exact Block.noNT_wipe_disj _ (slot_disjoint hm hm' hk hk' hi hi' he) (h.hnone r' m' k' i' hm' hk' hi' hv')

/-! ### Operations which set a collection of slots -/

/-- `b'` has the same size as `b` and the same bytes behind the `P` structs. -/
def Same (L : Layout V) (P : Nat) (b b' : Block V) : Prop :=
  b'.size = b.size ∧ ∀ a, aggSize L * P ≤ a → b'.get a = b.get a

theorem Same.refl (b : Block V) : Same L P b b := ⟨rfl, fun _ _ => rfl⟩

theorem Same.trans {b b1 b2 : Block V} (h : Same L P b b1) (h' : Same L P b1 b2) : Same L P b b2 :=
  ⟨h'.1.trans h.1, fun a ha => (h'.2 a ha).trans (h.2 a ha)⟩

theorem Same.put (b : Block V) {r m k i} (hm : L[r]? = some m) (hk : k < m.elems) (hi : i < P) (v : V) :
    Same L P b (b.put (slot P (offset L r) m.ty.size k i) m.ty v) :=
  ⟨rfl, fun _ ha => Block.get_put_disj _ _ _ _ _ (.inr (Nat.le_trans (slot_in_bounds hm hk hi) ha))⟩

theorem Same.wipe (b : Block V) {r m k i} (hm : L[r]? = some m) (hk : k < m.elems) (hi : i < P) :
    Same L P b (b.wipe (slot P (offset L r) m.ty.size k i) m.ty.size) :=
  ⟨rfl, fun _ ha => Block.get_wipe_disj _ _ _ _ (.inr (Nat.le_trans (slot_in_bounds hm hk hi) ha))⟩

/-- `f` is safe and sets exactly the keys in `D` to the values `w`, when started on content `c` some of whose keys outside
    of `D` have already been set. -/
def Marks (L : Layout V) (P : Nat) (c w : Cont V) (f : Block V → Except UB (Block V)) (D : Nat → Nat → Nat → Prop) :
    Prop :=
  ∀ (b : Block V) (S : Nat → Nat → Nat → Prop), (∀ r k i, S r k i → ¬ D r k i) → View L P b (mark c w S) →
    ∃ b', f b = .ok b' ∧ Same L P b b' ∧ View L P b' (mark c w (fun r k i => S r k i ∨ D r k i))

theorem Marks.run {c w : Cont V} {f : Block V → Except UB (Block V)} {D} (h : Marks L P c w f D) {b : Block V}
    (hb : View L P b c) : ∃ b', f b = .ok b' ∧ Same L P b b' ∧ View L P b' (mark c w D) := by
  obtain ⟨b', h1, h2, h3⟩ := h b (fun _ _ _ => False) (fun _ _ _ h => h.elim) (by rw [mark_empty]; exact hb)
  refine ⟨b', h1, h2, ?_⟩
  have : (fun r k i => False ∨ D r k i) = D := by funext r k i; simp
  rw [this] at h3; exact h3

theorem Marks.congrD {c w : Cont V} {f : Block V → Except UB (Block V)} {D D' : Nat → Nat → Nat → Prop}
    (h : Marks L P c w f D) (hD : ∀ r k i, D r k i ↔ D' r k i) : Marks L P c w f D' := by
  have : D = D' := by funext r k i; exact propext (hD r k i)
  rw [← this]; exact h

theorem Marks.congrF {c w : Cont V} {f f' : Block V → Except UB (Block V)} {D : Nat → Nat → Nat → Prop}
    (h : Marks L P c w f D) (hf : ∀ b, f' b = f b) : Marks L P c w f' D := by
  intro b S hS hb
  rw [hf]; exact h b S hS hb

theorem Marks.skip {c w : Cont V} : Marks L P c w (fun b => .ok b) (fun _ _ _ => False) := by
  intro b S _ hb
  refine ⟨b, rfl, Same.refl b, ?_⟩
  have : (fun r k i => S r k i ∨ False) = S := by funext r k i; simp
  rw [this]; exact hb

theorem Marks.seq {c w : Cont V} {f g : Block V → Except UB (Block V)} {D E : Nat → Nat → Nat → Prop}
    (hf : Marks L P c w f D) (hg : Marks L P c w g E) (hd : ∀ r k i, D r k i → ¬ E r k i) :
    Marks L P c w (fun b => (f b).bind g) (fun r k i => D r k i ∨ E r k i) := by
  intro b S hS hb
  obtain ⟨b1, h1, s1, v1⟩ := hf b S (fun r k i hs hd => hS r k i hs (.inl hd)) hb
  obtain ⟨b2, h2, s2, v2⟩ := hg b1 _ (fun r k i hs he => by
    rcases hs with hs | hs
    · exact hS r k i hs (.inr he)
    · exact hd r k i hs he) v1
  refine ⟨b2, ?_, s1.trans s2, ?_⟩
  · simp only [h1]; exact h2
  · have : (fun r k i => S r k i ∨ D r k i ∨ E r k i) = (fun r k i => (S r k i ∨ D r k i) ∨ E r k i) := by
      funext r k i; simp [or_assoc]
    rw [this]; exact v2

theorem Marks.loop {c w : Cont V} {n : Nat} {f : Nat → Block V → Except UB (Block V)}
    {D : Nat → Nat → Nat → Nat → Prop}
    (hf : ∀ j, j < n → Marks L P c w (f j) (D j))
    (hd : ∀ j j' r k i, j < j' → j' < n → D j r k i → ¬ D j' r k i) :
    Marks L P c w (loopM n f) (fun r k i => ∃ j, j < n ∧ D j r k i) := by
  induction n with
  | zero =>
    refine (Marks.skip (L := L) (P := P)).congrD (fun r k i => ?_)
    simp
  | succ n ih =>
    have h1 := ih (fun j hj => hf j (by omega)) (fun j j' r k i a b => hd j j' r k i a (by omega))
    have h2 := Marks.seq h1 (hf n (by omega)) (fun r k i ⟨j, hj, hD⟩ => hd j n r k i hj (by omega) hD)
    refine h2.congrD (fun r k i => ?_)
    constructor
    · rintro (⟨j, hj, hD⟩ | hD)
      · exact ⟨j, by omega, hD⟩
      · exact ⟨n, by omega, hD⟩
    · rintro ⟨j, hj, hD⟩
      by_cases hjn : j = n
      · subst hjn; exact .inr hD
      · exact .inl ⟨j, by omega, hD⟩

/-- Member loop: if the statement for member `r` sets keys of member `r` only, given by `D r k i`. -/
theorem Marks.forEach {c w : Cont V} {f : Nat → Member V → Block V → Except UB (Block V)}
    {D : Nat → Nat → Nat → Prop} (r0 : Nat) (ms : Layout V)
    (hf : ∀ r m, ms[r]? = some m → Marks L P c w (f (r0 + r) m) (fun r' k i => r' = r0 + r ∧ D r' k i)) :
    Marks L P c w (fun b => LFA.forEach f ms r0 b)
      (fun r k i => r0 ≤ r ∧ r < r0 + ms.length ∧ D r k i) := by
  induction ms generalizing r0 with
  | nil =>
    refine (Marks.skip (L := L) (P := P)).congrD (fun r k i => ?_)
    simp; omega
  | cons m ms ih =>
    have h1 := hf 0 m rfl
    have h2 := ih (r0 + 1) (fun r m' hm' => by
      have := hf (r + 1) m' (by simpa using hm')
      have e : r0 + 1 + r = r0 + (r + 1) := by omega
      rw [e]; exact this)
    have h3 := Marks.seq h1 h2 (fun r k i h h' => by omega)
    refine h3.congrD (fun r k i => ?_)
    simp only [List.length_cons, Nat.add_zero]
    constructor
    · rintro (⟨h, hD⟩ | ⟨h, h', hD⟩)
      · exact ⟨by omega, by omega, hD⟩
      · exact ⟨by omega, by omega, hD⟩
    · rintro ⟨h, h', hD⟩
      by_cases hr : r = r0
      · exact .inl ⟨hr, hD⟩
      · exact .inr ⟨by omega, by omega, hD⟩

theorem mark_add_self {c w : Cont V} {S : Nat → Nat → Nat → Prop} {r k i : Nat} :
    mark c w (fun r' k' i' => S r' k' i' ∨ (r' = r ∧ k' = k ∧ i' = i)) r k i = w r k i :=
  mark_pos (.inr ⟨rfl, rfl, rfl⟩)

theorem mark_add_other {c w : Cont V} {S : Nat → Nat → Nat → Prop} {r k i r' k' i' : Nat}
    (h : ¬ (r = r' ∧ k = k' ∧ i = i')) :
    mark c w (fun r' k' i' => S r' k' i' ∨ (r' = r ∧ k' = k ∧ i' = i)) r' k' i' = mark c w S r' k' i' := by
  have h' : ¬ (r' = r ∧ k' = k ∧ i' = i) := fun ⟨a, b, d⟩ => h ⟨a.symm, b.symm, d.symm⟩
  by_cases hs : S r' k' i'
  · rw [mark_pos hs]; exact mark_pos (.inl hs)
  · rw [mark_neg hs]; exact mark_neg (fun hh => hh.elim hs h')

/-- A single assignment. -/
theorem Marks.assign {c w : Cont V} (hL : L.WF) {r m k i} (hm : L[r]? = some m) (hk : k < m.elems) (hi : i < P)
    {a : Int} (ha : a = (slot P (offset L r) m.ty.size k i : Nat)) {v : V} (hw : w r k i = some v)
    (hlive : m.ty.triv = false → (c r k i).isSome) :
    Marks L P c w (fun b => b.assign a m.ty v) (fun r' k' i' => r' = r ∧ k' = k ∧ i' = i) := by
  intro b S hS hb
  have hn : ¬ S r k i := fun h => hS r k i h ⟨rfl, rfl, rfl⟩
  refine ⟨b.put (slot P (offset L r) m.ty.size k i) m.ty v, ?_, Same.put b hm hk hi v, hb.put hm hk hi v (mark_add_self.trans hw) (fun r' k' i' h => mark_add_other h)⟩
  rw [ha]
  apply Block.assign_ok v (hL.size_pos hm) (hb.bound hm hk hi)
  cases hc : c r k i with
  | none =>
    left
    have ht : m.ty.triv = true := by
      cases ht : m.ty.triv with
      | true => rfl
      | false => have := hlive ht; rw [hc] at this; cases this
    exact ⟨ht, hb.hnone r m k i hm hk hi (by rw [mark_neg hn, hc])⟩
  | some v' => exact .inr ⟨v', hb.hsome r m k i v' hm hk hi (by rw [mark_neg hn, hc])⟩

/-- A single placement new. -/
theorem Marks.construct {c w : Cont V} {r m k i} (hm : L[r]? = some m) (hk : k < m.elems) (hi : i < P)
    {a : Int} (ha : a = (slot P (offset L r) m.ty.size k i : Nat)) {v : V} (hw : w r k i = some v)
    (hlive : m.ty.triv = false → c r k i = none) :
    Marks L P c w (fun b => b.construct a m.ty v) (fun r' k' i' => r' = r ∧ k' = k ∧ i' = i) := by
  intro b S hS hb
  have hn : ¬ S r k i := fun h => hS r k i h ⟨rfl, rfl, rfl⟩
  refine ⟨b.put (slot P (offset L r) m.ty.size k i) m.ty v, ?_, Same.put b hm hk hi v, hb.put hm hk hi v (mark_add_self.trans hw) (fun r' k' i' h => mark_add_other h)⟩
  rw [ha]
  apply Block.construct_ok v (hb.bound hm hk hi)
  cases hc : c r k i with
  | none => exact hb.hnone r m k i hm hk hi (by rw [mark_neg hn, hc])
  | some v' =>
    have ht : m.ty.triv = true := by
      cases ht : m.ty.triv with
      | true => rfl
      | false => have := hlive ht; rw [hc] at this; cases this
    exact (hb.hsome r m k i v' hm hk hi (by rw [mark_neg hn, hc])).noNT ht

/-- A single destructor call. -/
theorem Marks.destroy {c w : Cont V} (hL : L.WF) {r m k i} (hm : L[r]? = some m) (hk : k < m.elems) (hi : i < P)
    {a : Int} (ha : a = (slot P (offset L r) m.ty.size k i : Nat)) (hw : w r k i = none)
    (hlive : m.ty.triv = false → (c r k i).isSome) :
    Marks L P c w (fun b => b.destroy a m.ty) (fun r' k' i' => r' = r ∧ k' = k ∧ i' = i) := by
  intro b S hS hb
  have hn : ¬ S r k i := fun h => hS r k i h ⟨rfl, rfl, rfl⟩
  cases ht : m.ty.triv with
  | true =>
    refine ⟨b, ?_, Same.refl b, ?_⟩
    · rw [ha]; exact Block.destroy_triv (hb.bound hm hk hi) ht
    · refine hb.weaken (fun r' m' k' i' hm' hk' hi' => ?_)
      by_cases he : r = r' ∧ k = k' ∧ i = i'
      · obtain ⟨rfl, rfl, rfl⟩ := he
        rw [hm] at hm'; cases hm'
        exact .inr ⟨ht, mark_add_self.trans hw⟩
      · exact .inl (mark_add_other he)
  | false =>
    have hl := hlive ht
    cases hc : c r k i with
    | none => rw [hc] at hl; cases hl
    | some v =>
      refine ⟨b.wipe (slot P (offset L r) m.ty.size k i) m.ty.size, ?_, Same.wipe b hm hk hi, hb.wipe hm hk hi (mark_add_self.trans hw) (fun r' k' i' h => mark_add_other h)⟩
      rw [ha]
      exact Block.destroy_ok (hL.size_pos hm) (hb.bound hm hk hi) ht
        (hb.hsome r m k i v hm hk hi (by rw [mark_neg hn, hc]))

end
end LFA
