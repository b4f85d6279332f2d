import Verif.Layout
import Mathlib.Tactic.Ring

/-
  soa_accessor / soa_accessor_light (macros.hpp:129-386, 537-786) and the member macros (detail/macros.hpp).

  All addresses are relative to `my_data`, the start of the buffer.
-/
set_option linter.unusedSectionVars false
namespace LFA

/-- Template parameters `DIM_X, DIM_Y, DIM_Z` of an accessor (the padded extents of a grid). -/
structure Ext where
  x : Nat
  y : Nat
  z : Nat
deriving DecidableEq, Repr

/-- `DIM_PROD` (macros.hpp:138). -/
def Ext.prod (e : Ext) : Nat := e.x * e.y * e.z

/-- `soa_accessor::gen_index` (macros.hpp:140-157). The two overloads only differ in the argument type. -/
def genIndex (e : Ext) (x y z : Int) : Int := z * e.x * e.y + y * e.x + x

/-- `soa_accessor<CELL, DIM_X, DIM_Y, DIM_Z, INDEX>` and `soa_accessor_light<…>`: `idx` is `my_index`
    (`*my_index` for the light ones), `INDEX` the accumulated static offset (macros.hpp:129-164, 537-570).
    The `const_` variants have the same address computation (macros.hpp:390-535, 788-933). -/
structure Acc where
  ext : Ext
  INDEX : Int
  idx : Int

/-- A registered struct's value: (member, array element) ↦ value. -/
abbrev Cell (V : Type) := Nat → Nat → V

/-- `cell.member[k] = v`. -/
def Cell.set {V : Type} (c : Cell V) (r k : Nat) (v : V) : Cell V :=
  fun r' k' => if r' = r ∧ k' = k then v else c r' k'

/-- The cell in which every member (array element) is value-initialised. -/
def dfltCell {V : Type} (L : Layout V) (d : V) : Cell V := fun r _ => match L[r]? with | some m => m.dflt | none => d

namespace Acc
variable {V : Type}

/-- `accessor[coord<X, Y, Z>()]` (macros.hpp:207-225 and 27-34 of detail/macros.hpp: `LIBFLATARRAY_INDEX`). -/
def shift (A : Acc) (X Y Z : Int) : Acc :=
  { A with INDEX := A.INDEX + Z * ((A.ext.x : Int) * A.ext.y) + Y * A.ext.x + X }

/-- Address of `accessor.member()` / `accessor.member<k>()` (detail/macros.hpp:92-107). -/
def member (L : Layout V) (A : Acc) (r : Nat) (m : Member V) (k : Nat) : Int :=
  (A.ext.prod : Int) * ((m.ty.size : Int) * (match m.arity with | none => 0 | some _ => (k : Int)) + offset L r) +
    A.idx * m.ty.size + A.INDEX * m.ty.size

/-- Address of `accessor.member()[k]`, with `k` known at runtime only (detail/macros.hpp:109-125,
    `reference::operator[]` in detail/soa_array_member_copy_helper.hpp:150-170). -/
def arrayRef (L : Layout V) (A : Acc) (r : Nat) (m : Member V) (k : Nat) : Int :=
  A.member L r m 0 + (k : Int) * A.ext.prod * m.ty.size

/-- `accessor.access_member<T, r>()` (macros.hpp:327-338). -/
def accessMember (L : Layout V) (A : Acc) (r : Nat) (s : Nat) : Int :=
  (A.ext.prod : Int) * offset L r + A.idx * s + A.INDEX * s

/-- `accessor.access_member(size_of_member, offset)` (macros.hpp:340-349). -/
def accessMemberAt (A : Acc) (s : Nat) (off : Int) : Int :=
  (A.ext.prod : Int) * off + A.idx * s + A.INDEX * s

variable [DecidableEq V]

/-- `accessor << cell`, `accessor = cell` (macros.hpp:227-242, detail/macros.hpp:140-159,
    `copy_in` in detail/soa_array_member_copy_helper.hpp:202-234). -/
def setCell (L : Layout V) (A : Acc) (cell : Cell V) : Block V → Except UB (Block V) :=
  forEach (fun r m b =>
    match m.arity with
    | none => b.assign (A.member L r m 0) m.ty (cell r 0)
    | some n => loopM n (fun k b => b.assign (A.member L r m 0 + (A.ext.prod : Int) * k * m.ty.size) m.ty (cell r k)) b)
    L 0

/-- `accessor >> cell` (macros.hpp:244-252, detail/macros.hpp:161-181,
    `copy_out` in detail/soa_array_member_copy_helper.hpp:236-268). -/
def getCell (L : Layout V) (A : Acc) (b : Block V) : Cell V → Except UB (Cell V) :=
  forEach (fun r m cell =>
    match m.arity with
    | none => (b.read (A.member L r m 0) m.ty).map (fun v => cell.set r 0 v)
    | some n => loopM n (fun k (cell : Cell V) =>
        (b.read (A.member L r m 0 + (A.ext.prod : Int) * k * m.ty.size) m.ty).map (fun v => cell.set r k v)) cell)
    L 0

/-- `accessor.load(source, count, offset, stride)` (macros.hpp:261-273, detail/macros.hpp:183-214,
    `copy_array_in` in detail/soa_array_member_copy_helper.hpp:42-89). The memory `source` points to is `src b`, where `b` is
    the current state of the target: `fun _ => sb` for another buffer, `id` for the same one. -/
def loadRaw (L : Layout V) (A : Acc) (src : Block V → Block V) (count off stride : Nat) :
    Block V → Except UB (Block V) :=
  forEach (fun r m b =>
    match m.arity with
    | none => loopM count (fun i b =>
        ((src b).read ((offset L r : Int) * stride + ((off : Int) + i) * m.ty.size) m.ty).bind fun v =>
          b.assign (A.member L r m 0 + (i : Int) * m.ty.size) m.ty v) b
    | some n => loopM n (fun k b => loopM count (fun i b =>
        ((src b).read ((offset L r : Int) * stride + ((stride : Int) * k + off + i) * m.ty.size) m.ty).bind fun v =>
          b.assign (A.arrayRef L r m 0 + ((A.ext.prod : Int) * k + i) * m.ty.size) m.ty v) b) b)
    L 0

/-- `accessor.save(target, count, offset, stride)` (macros.hpp:282-294, detail/macros.hpp:217-248,
    `copy_array_out` in detail/soa_array_member_copy_helper.hpp:91-138). -/
def saveRaw (L : Layout V) (A : Acc) (b : Block V) (count off stride : Nat) : Block V → Except UB (Block V) :=
  forEach (fun r m tgt =>
    match m.arity with
    | none => loopM count (fun i tgt =>
        (b.read (A.member L r m 0 + (i : Int) * m.ty.size) m.ty).bind fun v =>
          tgt.assign ((offset L r : Int) * stride + ((off : Int) + i) * m.ty.size) m.ty v) tgt
    | some n => loopM n (fun k tgt => loopM count (fun i tgt =>
        (b.read (A.arrayRef L r m 0 + ((A.ext.prod : Int) * k + i) * m.ty.size) m.ty).bind fun v =>
          tgt.assign ((offset L r : Int) * stride + ((stride : Int) * k + off + i) * m.ty.size) m.ty v) tgt) tgt)
    L 0

/-- `accessor.construct_members()` (macros.hpp:296-304, detail/macros.hpp:275-293). -/
def constructMembers (L : Layout V) (A : Acc) : Block V → Except UB (Block V) :=
  forEach (fun r m b =>
    match m.arity with
    | none => b.construct (A.member L r m 0) m.ty m.dflt
    | some n => loopM n (fun k b => b.construct (A.arrayRef L r m k) m.ty m.dflt) b)
    L 0

/-- `accessor.destroy_members()` (macros.hpp:306-314, detail/macros.hpp:295-314, detail/generic_destruct.hpp:33-63). -/
def destroyMembers (L : Layout V) (A : Acc) : Block V → Except UB (Block V) :=
  forEach (fun r m b =>
    match m.arity with
    | none => b.destroy (A.member L r m 0) m.ty
    | some n => loopM n (fun k b => b.destroy (A.arrayRef L r m k) m.ty) b)
    L 0

/-- `accessor.copy_members(other, count)` (macros.hpp:316-325, detail/macros.hpp:250-272). The block read by `other` is
    `src b`, where `b` is the current state of the target: `fun _ => sb` for another buffer, `id` for the same one.
    `std::copy` is modelled as its element by element loop. -/
def copyMembers (L : Layout V) (A : Acc) (O : Acc) (src : Block V → Block V) (count : Nat) :
    Block V → Except UB (Block V) :=
  forEach (fun r m b =>
    match m.arity with
    | none => loopM count (fun i b =>
        ((src b).read (O.member L r m 0 + (i : Int) * m.ty.size) m.ty).bind fun v =>
          b.assign (A.member L r m 0 + (i : Int) * m.ty.size) m.ty v) b
    | some n => loopM n (fun k b => loopM count (fun i b =>
        ((src b).read (O.arrayRef L r m k + (i : Int) * m.ty.size) m.ty).bind fun v =>
          b.assign (A.arrayRef L r m k + (i : Int) * m.ty.size) m.ty v) b) b)
    L 0

/-! ### Addresses -/

/-- The accessor currently denotes struct number `i`. -/
def At (A : Acc) (i : Nat) : Prop := A.idx + A.INDEX = (i : Int)

theorem member_slot (L : Layout V) {A : Acc} {i : Nat} (h : A.At i) (r : Nat) (m : Member V) (k : Nat)
    (hk : k < m.elems) : A.member L r m k = (slot A.ext.prod (offset L r) m.ty.size k i : Nat) := by
  unfold member slot
  unfold At at h
  cases ha : m.arity with
  | none =>
    have : k = 0 := by simp only [Member.elems, ha] at hk; omega
    subst this
    push_cast
    rw [← h]; ring
  | some n =>
    push_cast
    rw [← h]; ring

theorem arrayRef_slot (L : Layout V) {A : Acc} {i : Nat} (h : A.At i) (r : Nat) (m : Member V) (k : Nat)
    (h0 : 0 < m.elems) : A.arrayRef L r m k = (slot A.ext.prod (offset L r) m.ty.size k i : Nat) := by
  unfold arrayRef
  rw [member_slot L h r m 0 h0]
  unfold slot
  push_cast; ring

theorem member_row_slot (L : Layout V) {A : Acc} {i : Nat} (h : A.At i) (r : Nat) (m : Member V) (j : Nat)
    (h0 : 0 < m.elems) :
    A.member L r m 0 + (j : Int) * m.ty.size = (slot A.ext.prod (offset L r) m.ty.size 0 (i + j) : Nat) := by
  rw [member_slot L h r m 0 h0]
  unfold slot
  push_cast; ring

theorem arrayRef_row_slot (L : Layout V) {A : Acc} {i : Nat} (h : A.At i) (r : Nat) (m : Member V) (k j : Nat)
    (h0 : 0 < m.elems) :
    A.arrayRef L r m k + (j : Int) * m.ty.size = (slot A.ext.prod (offset L r) m.ty.size k (i + j) : Nat) := by
  rw [arrayRef_slot L h r m k h0]
  unfold slot
  push_cast; ring

theorem arrayRef_plane_row_slot (L : Layout V) {A : Acc} {i : Nat} (h : A.At i) (r : Nat) (m : Member V) (k j : Nat)
    (h0 : 0 < m.elems) :
    A.arrayRef L r m 0 + ((A.ext.prod : Int) * k + j) * m.ty.size =
      (slot A.ext.prod (offset L r) m.ty.size k (i + j) : Nat) := by
  rw [arrayRef_slot L h r m 0 h0]
  unfold slot
  push_cast; ring

theorem member_plane_slot (L : Layout V) {A : Acc} {i : Nat} (h : A.At i) (r : Nat) (m : Member V) (k : Nat)
    (h0 : 0 < m.elems) :
    A.member L r m 0 + (A.ext.prod : Int) * k * m.ty.size = (slot A.ext.prod (offset L r) m.ty.size k i : Nat) := by
  rw [member_slot L h r m 0 h0]
  unfold slot
  push_cast; ring

theorem raw_slot (off stride o s i : Nat) :
    ((off : Int) * stride + ((o : Int) + i) * s) = (slot stride off s 0 (o + i) : Nat) := by
  unfold slot
  push_cast; ring

theorem raw_plane_slot (off stride o s k i : Nat) :
    ((off : Int) * stride + ((stride : Int) * k + o + i) * s) = (slot stride off s k (o + i) : Nat) := by
  unfold slot
  push_cast; ring

end Acc

/-! ### What the operations do to the abstract content -/

section
variable {V : Type} [DecidableEq V] {L : Layout V}

theorem elems_none {m : Member V} (h : m.arity = none) : m.elems = 1 := by simp [Member.elems, h]
theorem elems_some {m : Member V} {n : Nat} (h : m.arity = some n) : m.elems = n := by simp [Member.elems, h]

/-- Keys of all members of struct `i`. -/
def CellKeys (L : Layout V) (i0 : Nat) : Nat → Nat → Nat → Prop :=
  fun r k i => i = i0 ∧ ∃ m, L[r]? = some m ∧ k < m.elems

/-- Keys of all members of structs `i0 … i0+n-1`. -/
def RowKeys (L : Layout V) (i0 n : Nat) : Nat → Nat → Nat → Prop :=
  fun r k i => (i0 ≤ i ∧ i < i0 + n) ∧ ∃ m, L[r]? = some m ∧ k < m.elems

/-- Auxiliary: from statements per member to the whole struct. -/
theorem Marks.members {P : Nat} {c w : Cont V} {f : Nat → Member V → Block V → Except UB (Block V)}
    {I : Nat → Prop}
    (hf : ∀ r m, L[r]? = some m →
      Marks L P c w (f r m) (fun r' k i => r' = r ∧ k < m.elems ∧ I i)) :
    Marks L P c w (fun b => LFA.forEach f L 0 b) (fun r k i => I i ∧ ∃ m, L[r]? = some m ∧ k < m.elems) := by
  have := Marks.forEach (L := L) (P := P) (c := c) (w := w) (f := f)
    (D := fun r k i => I i ∧ ∃ m, L[r]? = some m ∧ k < m.elems) 0 L (fun r m hm => by
      refine (by simpa using hf r m hm : Marks L P c w (f (0 + r) m) _).congrD (fun r' k i => ?_)
      constructor
      · rintro ⟨rfl, hk, hi⟩; exact ⟨by omega, hi, m, hm, hk⟩
      · rintro ⟨he, hi, m', hm', hk⟩
        have : r' = r := by omega
        subst this
        rw [hm] at hm'; cases hm'
        exact ⟨rfl, hk, hi⟩)
  refine this.congrD (fun r k i => ?_)
  constructor
  · rintro ⟨_, _, h⟩; exact h
  · rintro ⟨hi, m, hm, hk⟩
    exact ⟨by omega, by have := lt_length_of_getElem? hm; omega, hi, m, hm, hk⟩

theorem Marks.setCell (hL : L.WF) {A : Acc} {i0 : Nat} (hA : A.At i0) (hi : i0 < A.ext.prod) {c w : Cont V} {cell : Cell V}
    (hw : ∀ r m k, L[r]? = some m → k < m.elems → w r k i0 = some (cell r k))
    (hlive : ∀ r m k, L[r]? = some m → k < m.elems → m.ty.triv = false → (c r k i0).isSome) :
    Marks L A.ext.prod c w (A.setCell L cell) (CellKeys L i0) := by
  refine Marks.members (I := fun i => i = i0) (fun r m hm => ?_)
  have hpos := hL.elems_pos hm
  cases ha : m.arity with
  | none =>
    refine (Marks.assign hL hm hpos hi (A.member_slot L hA r m 0 hpos) (hw r m 0 hm hpos)
      (hlive r m 0 hm hpos)).congrD (fun r' k i => ?_)
    rw [elems_none ha]
    constructor
    · rintro ⟨rfl, rfl, rfl⟩; exact ⟨rfl, by omega, rfl⟩
    · rintro ⟨rfl, hk, rfl⟩; exact ⟨rfl, by omega, rfl⟩
  | some n =>
    have hn := elems_some ha
    refine (Marks.loop (D := fun j r' k i => r' = r ∧ k = j ∧ i = i0) (fun j hj => ?_) ?_).congrD (fun r' k i => ?_)
    · have hj' : j < m.elems := by omega
      exact Marks.assign hL hm hj' hi (A.member_plane_slot L hA r m j hpos) (hw r m j hm hj') (hlive r m j hm hj')
    · rintro j j' r' k i hlt _ ⟨_, h1, _⟩ ⟨_, h2, _⟩; omega
    · rw [hn]
      constructor
      · rintro ⟨j, hj, rfl, rfl, rfl⟩; exact ⟨rfl, hj, rfl⟩
      · rintro ⟨rfl, hk, rfl⟩; exact ⟨k, hk, rfl, rfl, rfl⟩

theorem Marks.constructMembers (hL : L.WF) {A : Acc} {i0 : Nat} (hA : A.At i0) (hi : i0 < A.ext.prod) {c w : Cont V}
    (hw : ∀ r m k, L[r]? = some m → k < m.elems → w r k i0 = some m.dflt)
    (hlive : ∀ r m k, L[r]? = some m → k < m.elems → m.ty.triv = false → c r k i0 = none) :
    Marks L A.ext.prod c w (A.constructMembers L) (CellKeys L i0) := by
  refine Marks.members (I := fun i => i = i0) (fun r m hm => ?_)
  have hpos := hL.elems_pos hm
  cases ha : m.arity with
  | none =>
    refine (Marks.construct hm hpos hi (A.member_slot L hA r m 0 hpos) (hw r m 0 hm hpos)
      (hlive r m 0 hm hpos)).congrD (fun r' k i => ?_)
    rw [elems_none ha]
    constructor
    · rintro ⟨rfl, rfl, rfl⟩; exact ⟨rfl, by omega, rfl⟩
    · rintro ⟨rfl, hk, rfl⟩; exact ⟨rfl, by omega, rfl⟩
  | some n =>
    have hn := elems_some ha
    refine (Marks.loop (D := fun j r' k i => r' = r ∧ k = j ∧ i = i0) (fun j hj => ?_) ?_).congrD (fun r' k i => ?_)
    · have hj' : j < m.elems := by omega
      exact Marks.construct hm hj' hi (A.arrayRef_slot L hA r m j hpos) (hw r m j hm hj') (hlive r m j hm hj')
    · rintro j j' r' k i hlt _ ⟨_, h1, _⟩ ⟨_, h2, _⟩; omega
    · rw [hn]
      constructor
      · rintro ⟨j, hj, rfl, rfl, rfl⟩; exact ⟨rfl, hj, rfl⟩
      · rintro ⟨rfl, hk, rfl⟩; exact ⟨k, hk, rfl, rfl, rfl⟩

theorem Marks.destroyMembers (hL : L.WF) {A : Acc} {i0 : Nat} (hA : A.At i0) (hi : i0 < A.ext.prod) {c w : Cont V}
    (hw : ∀ r m k, L[r]? = some m → k < m.elems → w r k i0 = none)
    (hlive : ∀ r m k, L[r]? = some m → k < m.elems → m.ty.triv = false → (c r k i0).isSome) :
    Marks L A.ext.prod c w (A.destroyMembers L) (CellKeys L i0) := by
  refine Marks.members (I := fun i => i = i0) (fun r m hm => ?_)
  have hpos := hL.elems_pos hm
  cases ha : m.arity with
  | none =>
    refine (Marks.destroy hL hm hpos hi (A.member_slot L hA r m 0 hpos) (hw r m 0 hm hpos)
      (hlive r m 0 hm hpos)).congrD (fun r' k i => ?_)
    rw [elems_none ha]
    constructor
    · rintro ⟨rfl, rfl, rfl⟩; exact ⟨rfl, by omega, rfl⟩
    · rintro ⟨rfl, hk, rfl⟩; exact ⟨rfl, by omega, rfl⟩
  | some n =>
    have hn := elems_some ha
    refine (Marks.loop (D := fun j r' k i => r' = r ∧ k = j ∧ i = i0) (fun j hj => ?_) ?_).congrD (fun r' k i => ?_)
    · have hj' : j < m.elems := by omega
      exact Marks.destroy hL hm hj' hi (A.arrayRef_slot L hA r m j hpos) (hw r m j hm hj') (hlive r m j hm hj')
    · rintro j j' r' k i hlt _ ⟨_, h1, _⟩ ⟨_, h2, _⟩; omega
    · rw [hn]
      constructor
      · rintro ⟨j, hj, rfl, rfl, rfl⟩; exact ⟨rfl, hj, rfl⟩
      · rintro ⟨rfl, hk, rfl⟩; exact ⟨k, hk, rfl, rfl, rfl⟩

/-- A read, whose value is known, followed by an assignment. -/
theorem Marks.readAssign {P : Nat} {c w : Cont V} (hL : L.WF) {r m k i} (hm : L[r]? = some m) (hk : k < m.elems) (hi : i < P)
    {a : Int} (ha : a = (slot P (offset L r) m.ty.size k i : Nat)) {v : V} (hw : w r k i = some v)
    (hlive : m.ty.triv = false → (c r k i).isSome)
    {rdv : Block V → Except UB V}
    (hrd : ∀ b S, View L P b (mark c w S) → rdv b = .ok v) :
    Marks L P c w (fun b => (rdv b).bind fun v => b.assign a m.ty v) (fun r' k' i' => r' = r ∧ k' = k ∧ i' = i) := by
  intro b S hS hb
  obtain ⟨b', h1, h2⟩ := Marks.assign hL hm hk hi ha hw hlive b S hS hb
  refine ⟨b', ?_, h2⟩
  simp only [hrd b S hb]
  exact h1

/-- Copying `count` structs from a source buffer (content `cs`, `Ps` structs, starting at struct `s0`) to the target (starting
    at struct `t0`), given the per-member statement. Covers load, save and copy_members. -/
theorem Marks.rowCopy {P : Nat} {c w cs : Cont V} (hL : L.WF) {t0 s0 count Ps : Nat}
    (ht : t0 + count ≤ P) (hs : s0 + count ≤ Ps)
    (hw : ∀ r m k j, L[r]? = some m → k < m.elems → j < count → ∃ v, cs r k (s0 + j) = some v ∧ w r k (t0 + j) = some v)
    (hlive : ∀ r m k j, L[r]? = some m → k < m.elems → j < count → m.ty.triv = false → (c r k (t0 + j)).isSome)
    {src : Block V → Block V} (hsrc : ∀ b S, View L P b (mark c w S) → Reads L Ps (src b) cs)
    {sa ta : Nat → Member V → Nat → Nat → Int}
    (hsa : ∀ r m k j, L[r]? = some m → k < m.elems → sa r m k j = (slot Ps (offset L r) m.ty.size k (s0 + j) : Nat))
    (hta : ∀ r m k j, L[r]? = some m → k < m.elems → ta r m k j = (slot P (offset L r) m.ty.size k (t0 + j) : Nat))
    {f : Nat → Member V → Block V → Except UB (Block V)}
    (hf0 : ∀ r m b, m.arity = none → f r m b = loopM count (fun j b =>
      ((src b).read (sa r m 0 j) m.ty).bind fun v => b.assign (ta r m 0 j) m.ty v) b)
    (hfn : ∀ r m n b, m.arity = some n → f r m b = loopM n (fun k b => loopM count (fun j b =>
      ((src b).read (sa r m k j) m.ty).bind fun v => b.assign (ta r m k j) m.ty v) b) b) :
    Marks L P c w (fun b => LFA.forEach f L 0 b) (RowKeys L t0 count) := by
  refine Marks.members (I := fun i => t0 ≤ i ∧ i < t0 + count) (fun r m hm => ?_)
  have hpos := hL.elems_pos hm
  have row : ∀ k, k < m.elems → Marks L P c w (loopM count (fun j b =>
      ((src b).read (sa r m k j) m.ty).bind fun v => b.assign (ta r m k j) m.ty v))
      (fun r' k' i => ∃ j, j < count ∧ r' = r ∧ k' = k ∧ i = t0 + j) := by
    intro k hk
    refine Marks.loop (D := fun j r' k' i => r' = r ∧ k' = k ∧ i = t0 + j) (fun j hj => ?_) ?_
    · obtain ⟨v, hv1, hv2⟩ := hw r m k j hm hk hj
      refine Marks.readAssign hL hm hk (by omega) (hta r m k j hm hk) hv2 (hlive r m k j hm hk hj)
        (rdv := fun b => (src b).read (sa r m k j) m.ty) (fun b S hb => ?_)
      rw [hsa r m k j hm hk]
      exact (hsrc b S hb).read hL hm hk (by omega) hv1
    · rintro j j' r' k' i hlt _ ⟨_, _, h1⟩ ⟨_, _, h2⟩; omega
  cases ha : m.arity with
  | none =>
    refine ((row 0 hpos).congrF (fun b => hf0 r m b ha)).congrD (fun r' k i => ?_)
    rw [elems_none ha]
    constructor
    · rintro ⟨j, hj, rfl, rfl, rfl⟩; exact ⟨rfl, by omega, by omega, by omega⟩
    · rintro ⟨rfl, hk, h1, h2⟩; exact ⟨i - t0, by omega, rfl, by omega, by omega⟩
  | some n =>
    have hn := elems_some ha
    refine ((Marks.loop (fun k hk => row k (by omega)) ?_).congrF (fun b => hfn r m n b ha)).congrD (fun r' k i => ?_)
    · rintro k k' r' q i hlt _ ⟨_, _, _, h1, _⟩ ⟨_, _, _, h2, _⟩; omega
    · rw [hn]
      constructor
      · rintro ⟨k', hk', j, hj, rfl, rfl, rfl⟩; exact ⟨rfl, hk', by omega, by omega⟩
      · rintro ⟨rfl, hk, h1, h2⟩; exact ⟨k, hk, i - t0, by omega, rfl, rfl, by omega⟩

theorem Marks.loadRaw (hL : L.WF) {A : Acc} {i0 : Nat} (hA : A.At i0) {count off stride : Nat}
    (hi : i0 + count ≤ A.ext.prod) (ho : off + count ≤ stride) {c w cs : Cont V} {src : Block V → Block V}
    (hsrc : ∀ b S, View L A.ext.prod b (mark c w S) → Reads L stride (src b) cs)
    (hw : ∀ r m k j, L[r]? = some m → k < m.elems → j < count →
      ∃ v, cs r k (off + j) = some v ∧ w r k (i0 + j) = some v)
    (hlive : ∀ r m k j, L[r]? = some m → k < m.elems → j < count → m.ty.triv = false → (c r k (i0 + j)).isSome) :
    Marks L A.ext.prod c w (A.loadRaw L src count off stride) (RowKeys L i0 count) := by
  refine Marks.rowCopy hL hi ho hw hlive (src := src) hsrc
    (sa := fun r m k j => match m.arity with
      | none => (offset L r : Int) * stride + ((off : Int) + j) * m.ty.size
      | some _ => (offset L r : Int) * stride + ((stride : Int) * k + off + j) * m.ty.size)
    (ta := fun r m k j => match m.arity with
      | none => A.member L r m 0 + (j : Int) * m.ty.size
      | some _ => A.arrayRef L r m 0 + ((A.ext.prod : Int) * k + j) * m.ty.size)
    ?_ ?_ ?_ ?_
  · intro r m k j hm hk
    cases ha : m.arity with
    | none =>
      have := elems_none ha
      have : k = 0 := by omega
      subst this
      exact Acc.raw_slot _ _ _ _ _
    | some n => exact Acc.raw_plane_slot _ _ _ _ _ _
  · intro r m k j hm hk
    have hpos := hL.elems_pos hm
    cases ha : m.arity with
    | none =>
      have := elems_none ha
      have : k = 0 := by omega
      subst this
      exact A.member_row_slot L hA r m j hpos
    | some n => exact A.arrayRef_plane_row_slot L hA r m k j hpos
  · intro r m b ha; simp only [ha]
  · intro r m n b ha; simp only [ha]

theorem Marks.saveRaw (hL : L.WF) {A : Acc} {i0 : Nat} (hA : A.At i0) {count off stride : Nat}
    (hi : i0 + count ≤ A.ext.prod) (ho : off + count ≤ stride) {c w cs : Cont V} {b : Block V}
    (hb : Reads L A.ext.prod b cs)
    (hw : ∀ r m k j, L[r]? = some m → k < m.elems → j < count →
      ∃ v, cs r k (i0 + j) = some v ∧ w r k (off + j) = some v)
    (hlive : ∀ r m k j, L[r]? = some m → k < m.elems → j < count → m.ty.triv = false → (c r k (off + j)).isSome) :
    Marks L stride c w (A.saveRaw L b count off stride) (RowKeys L off count) := by
  refine Marks.rowCopy hL ho hi hw hlive (src := fun _ => b) (fun _ _ _ => hb)
    (ta := fun r m k j => match m.arity with
      | none => (offset L r : Int) * stride + ((off : Int) + j) * m.ty.size
      | some _ => (offset L r : Int) * stride + ((stride : Int) * k + off + j) * m.ty.size)
    (sa := fun r m k j => match m.arity with
      | none => A.member L r m 0 + (j : Int) * m.ty.size
      | some _ => A.arrayRef L r m 0 + ((A.ext.prod : Int) * k + j) * m.ty.size)
    ?_ ?_ ?_ ?_
  · intro r m k j hm hk
    have hpos := hL.elems_pos hm
    cases ha : m.arity with
    | none =>
      have := elems_none ha
      have : k = 0 := by omega
      subst this
      exact A.member_row_slot L hA r m j hpos
    | some n => exact A.arrayRef_plane_row_slot L hA r m k j hpos
  · intro r m k j hm hk
    cases ha : m.arity with
    | none =>
      have := elems_none ha
      have : k = 0 := by omega
      subst this
      exact Acc.raw_slot _ _ _ _ _
    | some n => exact Acc.raw_plane_slot _ _ _ _ _ _
  · intro r m b ha; simp only [ha]
  · intro r m n b ha; simp only [ha]

theorem Marks.copyMembers (hL : L.WF) {A O : Acc} {i0 s0 : Nat} (hA : A.At i0) (hO : O.At s0) {count : Nat}
    (hi : i0 + count ≤ A.ext.prod) (hs : s0 + count ≤ O.ext.prod) {c w cs : Cont V} {src : Block V → Block V}
    (hsrc : ∀ b S, View L A.ext.prod b (mark c w S) → Reads L O.ext.prod (src b) cs)
    (hw : ∀ r m k j, L[r]? = some m → k < m.elems → j < count →
      ∃ v, cs r k (s0 + j) = some v ∧ w r k (i0 + j) = some v)
    (hlive : ∀ r m k j, L[r]? = some m → k < m.elems → j < count → m.ty.triv = false → (c r k (i0 + j)).isSome) :
    Marks L A.ext.prod c w (A.copyMembers L O src count) (RowKeys L i0 count) := by
  refine Marks.rowCopy hL hi hs hw hlive (src := src) hsrc
    (sa := fun r m k j => match m.arity with
      | none => O.member L r m 0 + (j : Int) * m.ty.size
      | some _ => O.arrayRef L r m k + (j : Int) * m.ty.size)
    (ta := fun r m k j => match m.arity with
      | none => A.member L r m 0 + (j : Int) * m.ty.size
      | some _ => A.arrayRef L r m k + (j : Int) * m.ty.size)
    ?_ ?_ ?_ ?_
  · intro r m k j hm hk
    have hpos := hL.elems_pos hm
    cases ha : m.arity with
    | none =>
      have := elems_none ha
      have : k = 0 := by omega
      subst this
      exact O.member_row_slot L hO r m j hpos
    | some n => exact O.arrayRef_row_slot L hO r m k j hpos
  · intro r m k j hm hk
    have hpos := hL.elems_pos hm
    cases ha : m.arity with
    | none =>
      have := elems_none ha
      have : k = 0 := by omega
      subst this
      exact A.member_row_slot L hA r m j hpos
    | some n => exact A.arrayRef_row_slot L hA r m k j hpos
  · intro r m b ha; simp only [ha]
  · intro r m n b ha; simp only [ha]

/-- Generic rule for `forEach` with an arbitrary state. -/
theorem forEach_inv {σ : Type} (f : Nat → Member V → σ → Except UB σ) (I : Nat → σ → Prop) (r0 : Nat) (ms : Layout V) (s : σ)
    (h0 : I r0 s)
    (hs : ∀ r m, ms[r]? = some m → ∀ s, I (r0 + r) s → ∃ s', f (r0 + r) m s = .ok s' ∧ I (r0 + r + 1) s') :
    ∃ s', forEach f ms r0 s = .ok s' ∧ I (r0 + ms.length) s' := by
  induction ms generalizing r0 s with
  | nil => exact ⟨s, rfl, h0⟩
  | cons m ms ih =>
    obtain ⟨s1, h1, i1⟩ := hs 0 m rfl s h0
    obtain ⟨s2, h2, i2⟩ := ih (r0 + 1) s1 i1 (fun r m' hm' s hI => by
      have e : r0 + 1 + r = r0 + (r + 1) := by omega
      rw [e] at hI ⊢
      exact hs (r + 1) m' (by simpa using hm') s hI)
    refine ⟨s2, ?_, ?_⟩
    · simp only [forEach]
      have h1' : f r0 m s = .ok s1 := h1
      rw [h1']; exact h2
    · have e : r0 + (m :: ms).length = r0 + 1 + ms.length := by simp; omega
      rw [e]; exact i2

/-- Reading a struct yields the stored values and leaves everything that is not registered alone. -/
theorem getCell_ok (hL : L.WF) {A : Acc} {i0 : Nat} (hA : A.At i0) (hi : i0 < A.ext.prod) {c : Cont V} {b : Block V}
    (hb : View L A.ext.prod b c) {val : Cell V} (hv : ∀ r m k, L[r]? = some m → k < m.elems → c r k i0 = some (val r k))
    (cell : Cell V) :
    ∃ cell', A.getCell L b cell = .ok cell' ∧
      (∀ r m k, L[r]? = some m → k < m.elems → cell' r k = val r k) ∧
      (∀ r k, (∀ m, L[r]? = some m → ¬ k < m.elems) → cell' r k = cell r k) := by
  have := forEach_inv (fun r m (cell : Cell V) =>
      match m.arity with
      | none => (b.read (A.member L r m 0) m.ty).map (fun v => cell.set r 0 v)
      | some n => loopM n (fun k (cell : Cell V) =>
          (b.read (A.member L r m 0 + (A.ext.prod : Int) * k * m.ty.size) m.ty).map (fun v => cell.set r k v)) cell)
    (fun r0 cell' => (∀ r m k, r < r0 → L[r]? = some m → k < m.elems → cell' r k = val r k) ∧
      (∀ r k, (∀ m, r < r0 → L[r]? = some m → ¬ k < m.elems) → cell' r k = cell r k)) 0 L cell
    ⟨fun r m k h => by omega, fun _ _ _ => rfl⟩ ?_
  · obtain ⟨cell', h1, h2, h3⟩ := this
    refine ⟨cell', h1, fun r m k hm hk => h2 r m k (by have := lt_length_of_getElem? hm; omega) hm hk,
      fun r k h => h3 r k (fun m _ => h m)⟩
  · intro r m hm cell1 ⟨hI1, hI2⟩
    rw [Nat.zero_add] at *
    have hpos := hL.elems_pos hm
    cases ha : m.arity with
    | none =>
      simp only
      have he := elems_none ha
      rw [A.member_slot L hA r m 0 hpos, hb.read hL hm hpos hi (hv r m 0 hm hpos)]
      refine ⟨_, rfl, ?_, ?_⟩
      · intro r' m' k hr' hm' hk
        by_cases e : r' = r
        · subst e
          rw [hm] at hm'; cases hm'
          have : k = 0 := by omega
          subst this
          simp [Cell.set]
        · simp only [Cell.set, e, false_and, if_false]
          exact hI1 r' m' k (by omega) hm' hk
      · intro r' k h
        have e : ¬ (r' = r ∧ k = 0) := by
          rintro ⟨rfl, rfl⟩; exact h m (by omega) hm hpos
        simp only [Cell.set, e, if_false]
        exact hI2 r' k (fun m' hlt => h m' (by omega))
    | some n =>
      simp only
      have he := elems_some ha
      have := loopM_inv (fun j cell' => (∀ k, k < j → cell' r k = val r k) ∧
          (∀ r' k, ¬ (r' = r ∧ k < j) → cell' r' k = cell1 r' k)) n
        (fun k (cell : Cell V) =>
          (b.read (A.member L r m 0 + (A.ext.prod : Int) * k * m.ty.size) m.ty).map (fun v => cell.set r k v)) cell1
        ⟨fun k h => by omega, fun _ _ _ => rfl⟩ ?_
      · obtain ⟨cell2, h1, h2, h3⟩ := this
        refine ⟨cell2, h1, ?_, ?_⟩
        · intro r' m' k hr' hm' hk
          by_cases e : r' = r
          · subst e
            rw [hm] at hm'; cases hm'
            exact h2 k (by omega)
          · rw [h3 r' k (by rintro ⟨a, _⟩; exact e a)]
            exact hI1 r' m' k (by omega) hm' hk
        · intro r' k h
          have e : ¬ (r' = r ∧ k < n) := by
            rintro ⟨rfl, hk⟩; exact h m (by omega) hm (by omega)
          rw [h3 r' k e]
          exact hI2 r' k (fun m' hlt => h m' (by omega))
      · intro k hk cell2 ⟨h1, h2⟩
        rw [A.member_plane_slot L hA r m k hpos, hb.read hL hm (by omega) hi (hv r m k hm (by omega))]
        refine ⟨_, rfl, ?_, ?_⟩
        · intro k' hk'
          by_cases e : k' = k
          · subst e; simp [Cell.set]
          · simp only [Cell.set, e, and_false, if_false]
            exact h1 k' (by omega)
        · intro r' k' h
          have e : ¬ (r' = r ∧ k' = k) := by rintro ⟨rfl, rfl⟩; exact h ⟨rfl, by omega⟩
          simp only [Cell.set, e, if_false]
          exact h2 r' k' (by rintro ⟨a, b⟩; exact h ⟨a, by omega⟩)

end
end LFA
