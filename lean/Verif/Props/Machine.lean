import Verif.Machine
import Verif.Props.Sizes
import Verif.Demo
import Mathlib.Tactic.Linarith

/-
  C48: no overflow in address computations; C49: alignment; C50: arity heuristics.
-/
namespace LFA.Mach
open LFA LFA.Props

/-! ### C48 -/

/-- The extents selected by the default sizes. -/
theorem default_ext {d e : Ext} (h : selectSizes .dflt d = .ok e) :
    (∃ s ∈ sizes1D, e = ⟨s, 1, 1⟩) ∨ (∃ s ∈ sizes2D, e = ⟨s, s, 1⟩) ∨ (∃ s ∈ sizes3D, e = ⟨s, s, s⟩) := by
  simp only [selectSizes] at h
  by_cases hy : d.y > 1
  · by_cases hz : d.z > 1
    · simp only [hy, hz, and_self, if_true, selectUniform3] at h
      cases hf : firstFit (max d.x (max d.y d.z)) sizes3D with
      | none => rw [hf] at h; cases h
      | some s => rw [hf] at h; cases h; exact .inr (.inr ⟨s, firstFit_mem hf, rfl⟩)
    · simp only [hy, hz, and_false, if_false, if_true, selectUniform2] at h
      by_cases hz1 : d.z = 1
      · cases hf : firstFit (max d.x d.y) sizes2D with
        | none => simp [hz1, hf] at h
        | some s => simp [hz1, hf] at h; cases h; exact .inr (.inl ⟨s, firstFit_mem hf, rfl⟩)
      · simp [hz1] at h
  · simp only [hy, false_and, if_false, selectUniform1] at h
    by_cases hy1 : d.y = 1
    · by_cases hz1 : d.z = 1
      · cases hf : firstFit d.x sizes1D with
        | none => simp [hy1, hz1, hf] at h
        | some s => simp [hy1, hz1, hf] at h; cases h; exact .inl ⟨s, firstFit_mem hf, rfl⟩
      · simp [hy1, hz1] at h
    · simp [hy1] at h

/-- Extents which are small enough for the address computations. -/
structure Small (e : Ext) : Prop where
  px : 0 < e.x
  py : 0 < e.y
  pz : 0 < e.z
  le : e.x * e.y * e.z ≤ 2 ^ 31

theorem default_small {d e : Ext} (h : selectSizes .dflt d = .ok e) : Small e := by
  have m1 : ∀ s ∈ sizes1D, 0 < s ∧ s * 1 * 1 ≤ 2 ^ 31 := by decide
  have m2 : ∀ s ∈ sizes2D, 0 < s ∧ s * s * 1 ≤ 2 ^ 31 := by decide
  have m3 : ∀ s ∈ sizes3D, 0 < s ∧ s * s * s ≤ 2 ^ 31 := by decide
  rcases default_ext h with ⟨s, hs, rfl⟩ | ⟨s, hs, rfl⟩ | ⟨s, hs, rfl⟩
  · exact ⟨(m1 s hs).1, Nat.one_pos, Nat.one_pos, (m1 s hs).2⟩
  · exact ⟨(m2 s hs).1, (m2 s hs).1, Nat.one_pos, (m2 s hs).2⟩
  · exact ⟨(m3 s hs).1, (m3 s hs).1, (m3 s hs).1, (m3 s hs).2⟩

theorem mul_bd {a b : Int} {A B : Nat} (ha1 : -A ≤ a) (ha2 : a ≤ A) (hb1 : -B ≤ b) (hb2 : b ≤ B) :
    -((A * B : Nat) : Int) ≤ a * b ∧ a * b ≤ ((A * B : Nat) : Int) := by
  push_cast
  constructor <;> nlinarith

theorem Small.xy {e : Ext} (h : Small e) : e.x * e.y ≤ 2 ^ 31 :=
  Nat.le_trans (Nat.le_mul_of_pos_right _ h.pz) h.le

theorem Small.x {e : Ext} (h : Small e) : e.x ≤ 2 ^ 31 :=
  Nat.le_trans (Nat.le_mul_of_pos_right _ h.py) h.xy

theorem Small.y {e : Ext} (h : Small e) : e.y ≤ 2 ^ 31 :=
  Nat.le_trans (Nat.le_mul_of_pos_left _ h.px) h.xy

theorem Small.z {e : Ext} (h : Small e) : e.z ≤ 2 ^ 31 :=
  Nat.le_trans (Nat.le_mul_of_pos_left _ (Nat.mul_pos h.px h.py)) h.le

/-- Runs one successful step of a `do` block. -/
theorem bind_some {α β : Type} {o : Option α} {a : α} (h : o = some a) (f : α → Option β) : (o >>= f) = f a := by
  rw [h]; rfl

theorem dimProd_ok {e : Ext} (h : Small e) : dimProd e = some ((e.x * e.y * e.z : Nat) : Int) := by
  have h1 : ((e.x * e.y : Nat) : Int) ≤ 2 ^ 31 := by exact_mod_cast h.xy
  have h2 : ((e.x * e.y * e.z : Nat) : Int) ≤ 2 ^ 31 := by exact_mod_cast h.le
  have e1 : (e.x : Int) * e.y = ((e.x * e.y : Nat) : Int) := by push_cast; rfl
  have e2 : ((e.x * e.y : Nat) : Int) * e.z = ((e.x * e.y * e.z : Nat) : Int) := by push_cast; rfl
  rw [dimProd, e1, bind_some (long_ok (by omega) (by omega)), e2, long_ok (by omega) (by omega)]

theorem genIndex_ok {e : Ext} (h : Small e) {x y z : Nat} (hx : x < e.x) (hy : y < e.y) (hz : z < e.z) :
    genIndex e x y z = some ((z * e.x * e.y + y * e.x + x : Nat) : Int) := by
  have hl := lin_lt hx hy hz
  have hlin : lin e x y z = z * e.x * e.y + y * e.x + x := by unfold lin; ring
  have hP : e.prod ≤ 2 ^ 31 := h.le
  rw [hlin] at hl
  have a1 : z * e.x ≤ z * e.x * e.y := Nat.le_mul_of_pos_right _ h.py
  have c1 : (z : Int) * e.x = ((z * e.x : Nat) : Int) := by push_cast; rfl
  have c2 : ((z * e.x : Nat) : Int) * e.y = ((z * e.x * e.y : Nat) : Int) := by push_cast; rfl
  have c3 : (y : Int) * e.x = ((y * e.x : Nat) : Int) := by push_cast; rfl
  generalize ha : z * e.x = a at *
  generalize hb : a * e.y = b at *
  generalize hc : y * e.x = c at *
  generalize e.prod = P at *
  unfold genIndex
  rw [c1, bind_some (long_ok (by omega) (by omega)), c2, bind_some (long_ok (by omega) (by omega)), c3,
    bind_some (long_ok (by omega) (by omega)), bind_some (long_ok (by omega) (by omega)),
    long_ok (by omega) (by omega)]
  push_cast; rfl

/-- C48, `gen_index`, `DIM_PROD` and the size of the buffer: exact for every grid accepted by the default sizes. -/
theorem C48_index {V : Type} (L : Layout V) (hagg : aggSize L ≤ 2 ^ 31) (d e : Ext) (h : selectSizes .dflt d = .ok e)
    (x y z : Nat) (hx : x < e.x) (hy : y < e.y) (hz : z < e.z) :
    dimProd e = some ((e.x * e.y * e.z : Nat) : Int)
    ∧ genIndex e x y z = some ((z * e.x * e.y + y * e.x + x : Nat) : Int)
    ∧ byteSize L e = some ((aggSize L * (e.x * e.y * e.z) : Nat) : Int) := by
  have hs := default_small h
  refine ⟨dimProd_ok hs, genIndex_ok hs hx hy hz, ?_⟩
  have b0 : aggSize L * (e.x * e.y * e.z) ≤ 2 ^ 31 * 2 ^ 31 := Nat.mul_le_mul hagg hs.le
  have b1 : aggSize L * e.x * e.y ≤ aggSize L * e.x * e.y * e.z := Nat.le_mul_of_pos_right _ hs.pz
  have b2 : aggSize L * e.x ≤ aggSize L * e.x * e.y := Nat.le_mul_of_pos_right _ hs.py
  have e0 : aggSize L * (e.x * e.y * e.z) = aggSize L * e.x * e.y * e.z := by ring
  have c1 : (aggSize L : Int) * e.x = ((aggSize L * e.x : Nat) : Int) := by push_cast; rfl
  have c2 : ((aggSize L * e.x : Nat) : Int) * e.y = ((aggSize L * e.x * e.y : Nat) : Int) := by push_cast; rfl
  have c3 : ((aggSize L * e.x * e.y : Nat) : Int) * e.z = ((aggSize L * e.x * e.y * e.z : Nat) : Int) := by push_cast; rfl
  rw [e0] at b0 ⊢
  have : (2 : Nat) ^ 31 * 2 ^ 31 = 2 ^ 62 := by decide
  unfold byteSize
  generalize aggSize L * e.x * e.y * e.z = p at *
  generalize aggSize L * e.x * e.y = q at *
  generalize aggSize L * e.x = r at *
  rw [c1, bind_some (size_ok (by omega) (by omega)), c2, bind_some (size_ok (by omega) (by omega)), c3,
    size_ok (by omega) (by omega)]

/-- C48, static neighbour offsets: `accessor[coord<X, Y, Z>()]` computes its `INDEX` without overflow. -/
theorem C48_shift (d e : Ext) (h : selectSizes .dflt d = .ok e) (X Y Z : Int)
    (hX : -e.x ≤ X ∧ X ≤ e.x) (hY : -e.y ≤ Y ∧ Y ≤ e.y) (hZ : -e.z ≤ Z ∧ Z ≤ e.z) :
    shiftIndex e 0 X Y Z = some (Z * (e.x * e.y) + Y * e.x + X) := by
  have hs := default_small h
  have b1 := mul_bd (A := e.z) (B := e.x * e.y) (a := Z) (b := ((e.x * e.y : Nat) : Int)) hZ.1 hZ.2 (by omega) (by omega)
  have b2 := mul_bd (A := e.y) (B := e.x) (a := Y) (b := (e.x : Int)) hY.1 hY.2 (by omega) (by omega)
  have h1 := hs.le
  have h2 := hs.xy
  have h3 := hs.x
  have e1 : e.z * (e.x * e.y) = e.x * e.y * e.z := by ring
  have e2 : e.y * e.x = e.x * e.y := by ring
  rw [e1] at b1
  rw [e2] at b2
  have c1 : (e.x : Int) * e.y = ((e.x * e.y : Nat) : Int) := by push_cast; rfl
  unfold shiftIndex
  rw [c1]
  generalize e.x * e.y * e.z = p at *
  generalize hxy : e.x * e.y = q at *
  generalize hu : Z * (q : Int) = u at *
  generalize hv : Y * (e.x : Int) = v at *
  rw [bind_some (long_ok (by omega) (by omega)), hu, bind_some (long_ok (by omega) (by omega)),
    bind_some (long_ok (by omega) (by omega)), bind_some (long_ok (by omega) (by omega)),
    bind_some (long_ok (by omega) (by omega)), long_ok (by omega) (by omega)]
  simp

theorem addr_ok {V : Type} (L : Layout V) (hagg : aggSize L ≤ 2 ^ 31) {e : Ext} (h : Small e)
    {i j r k : Nat} {m : Member V} (hm : L[r]? = some m) (hk : k < m.elems)
    (hi : i < e.x * e.y * e.z) (hj : j < e.x * e.y * e.z) :
    member L (aggSize L * (e.x * e.y * e.z)) e ((j : Int) - i) i r m k =
      some ((slot (e.x * e.y * e.z) (offset L r) m.ty.size k j : Nat) : Int) := by
  have hb := slot_in_bounds hm hk hj
  have hbi := slot_in_bounds hm hk hi
  have hP := h.le
  rw [member, bind_some (dimProd_ok h)]
  have hPpos : 0 < e.x * e.y * e.z := by omega
  generalize e.x * e.y * e.z = P at *
  have hag : aggSize L * P ≤ 2 ^ 31 * 2 ^ 31 := Nat.mul_le_mul hagg hP
  have : (2 : Nat) ^ 31 * 2 ^ 31 = 2 ^ 62 := by decide
  have g1 : m.ty.size * k + offset L r ≤ P * (m.ty.size * k + offset L r) := Nat.le_mul_of_pos_left _ hPpos
  have g2 : j * m.ty.size ≤ aggSize L * P := by unfold slot at hb; omega
  have g3 : i * m.ty.size ≤ aggSize L * P := by unfold slot at hbi; omega
  have c1 : (m.ty.size : Int) * k = ((m.ty.size * k : Nat) : Int) := by push_cast; rfl
  have c2 : ((m.ty.size * k : Nat) : Int) + offset L r = ((m.ty.size * k + offset L r : Nat) : Int) := by push_cast; rfl
  have c3 : (P : Int) * ((m.ty.size * k + offset L r : Nat) : Int) = ((P * (m.ty.size * k + offset L r) : Nat) : Int) := by
    push_cast; rfl
  have c4 : (i : Int) * m.ty.size = ((i * m.ty.size : Nat) : Int) := by push_cast; rfl
  have c5 : ((j : Int) - i) * m.ty.size = ((j * m.ty.size : Nat) : Int) - ((i * m.ty.size : Nat) : Int) := by
    push_cast; ring
  unfold slot at *
  rw [c1, c4, c5]
  generalize hB : aggSize L * P = B at *
  generalize hu : P * (m.ty.size * k + offset L r) = u at *
  generalize hv : i * m.ty.size = v at *
  generalize hw : j * m.ty.size = w at *
  generalize ht : m.ty.size * k = t at *
  rw [bind_some (size_ok (by omega) (by omega)), bind_some (size_ok (by omega) (by omega)), c2,
    bind_some (size_ok (by omega) (by omega)), c3,
    bind_some (size_ok (by omega) (by omega)), bind_some (ptr_ok (by omega) (by omega)),
    bind_some (long_ok (by omega) (by omega)), bind_some (ptr_ok (by omega) (by omega)),
    bind_some (long_ok (by omega) (by omega)), ptr_ok (by omega) (by omega)]
  congr 1; omega

/-- C48, member access: for every grid accepted by the default sizes and every struct of at most 2^31 bytes, starting from the
cell at (x, y, z) the access to member `r` (array element `k`) of the neighbour at (x+X, y+Y, z+Z) overflows nowhere, never
leaves the buffer with an intermediate pointer, and yields the address of exactly that neighbour. Partial:
`accessMemberAt`, the access by size and offset, is not covered. -/
theorem C48_member_partial {V : Type} (L : Layout V) (hagg : aggSize L ≤ 2 ^ 31) (d e : Ext)
    (h : selectSizes .dflt d = .ok e) (x y z : Nat) (hx : x < e.x) (hy : y < e.y) (hz : z < e.z)
    (x' y' z' : Nat) (hx' : x' < e.x) (hy' : y' < e.y) (hz' : z' < e.z)
    (r k : Nat) (m : Member V) (hm : L[r]? = some m) (hk : k < m.elems) :
    (do
      let n ← byteSize L e
      let idx ← genIndex e x y z
      let I ← shiftIndex e 0 ((x' : Int) - x) ((y' : Int) - y) ((z' : Int) - z)
      member L n.toNat e I idx r m k) =
    some (((e.x * e.y * e.z) * (m.ty.size * k + offset L r) + (z' * e.x * e.y + y' * e.x + x') * m.ty.size : Nat) : Int) := by
  have hs := default_small h
  obtain ⟨-, h1, h2⟩ := C48_index L hagg d e h x y z hx hy hz
  have h3 := C48_shift d e h ((x' : Int) - x) ((y' : Int) - y) ((z' : Int) - z) (by omega) (by omega) (by omega)
  rw [bind_some h2, bind_some h1, bind_some h3]
  have l1 := lin_lt hx hy hz
  have l2 := lin_lt hx' hy' hz'
  have e1 : lin e x y z = z * e.x * e.y + y * e.x + x := by unfold lin; ring
  have e2 : lin e x' y' z' = z' * e.x * e.y + y' * e.x + x' := by unfold lin; ring
  rw [e1] at l1
  rw [e2] at l2
  have := addr_ok L hagg hs hm hk l1 l2
  rw [Int.toNat_natCast]
  rw [show ((z' : Int) - z) * ((e.x : Int) * e.y) + ((y' : Int) - y) * e.x + ((x' : Int) - x) =
    ((z' * e.x * e.y + y' * e.x + x' : Nat) : Int) - ((z * e.x * e.y + y * e.x + x : Nat) : Int) by push_cast; ring]
  exact this

/-- C48 needs the default sizes: a custom size list may name extents whose buffer size does not fit into `size_t`; the byte
size then wraps silently (2^33 · 2^33 cells in `LIBFLATARRAY_CUSTOM_SIZES`). -/
theorem C48_custom : selectSizes (.custom [2 ^ 33] [2 ^ 33] [1]) ⟨1, 1, 1⟩ = .ok ⟨2 ^ 33, 2 ^ 33, 1⟩
    ∧ dimProd ⟨2 ^ 33, 2 ^ 33, 1⟩ = none ∧ byteSize demoL ⟨2 ^ 33, 2 ^ 33, 1⟩ = none := by
  refine ⟨by decide, by decide, ?_⟩
  simp only [byteSize, demoL]
  decide

/-- Instance: the largest default 3D grid, first and last cell. -/
example : ∃ a, (do
      let n ← byteSize demoL ⟨1032, 1032, 1032⟩
      let idx ← genIndex ⟨1032, 1032, 1032⟩ 0 0 0
      let I ← shiftIndex ⟨1032, 1032, 1032⟩ 0 1031 1031 1031
      member demoL n.toNat ⟨1032, 1032, 1032⟩ I idx 1 demoL[1] 2) = some a :=
  ⟨_, C48_member_partial demoL (by decide) ⟨1000, 1000, 1000⟩ ⟨1032, 1032, 1032⟩ (by decide) 0 0 0 (by decide) (by decide) (by decide)
    1031 1031 1031 (by decide) (by decide) (by decide) 1 2 demoL[1] rfl (by decide)⟩

/-! ### C49 -/

section
variable {V : Type}

/-- C49: exact condition. The objects of a member with alignment `al` are all aligned iff the member's array starts at an
aligned address. (`base` is the address of the buffer; `sizeof` is a multiple of `alignof`.) -/
theorem C49_iff (L : Layout V) (P base al r : Nat) (m : Member V) (_hm : L[r]? = some m) (hal : al ∣ m.ty.size)
    (hbase : al ∣ base) (hP : 0 < P) (he : 0 < m.elems) :
    (∀ k i, k < m.elems → i < P → al ∣ base + slot P (offset L r) m.ty.size k i) ↔ al ∣ P * offset L r := by
  have key : ∀ k i, base + slot P (offset L r) m.ty.size k i =
      P * offset L r + (base + m.ty.size * (P * k + i)) := by
    intro k i; unfold slot; ring
  have hd : ∀ k i, al ∣ base + m.ty.size * (P * k + i) := fun k i =>
    Nat.dvd_add hbase (Dvd.dvd.mul_right hal _)
  constructor
  · intro h
    have := h 0 0 he hP
    rw [key] at this
    exact (Nat.dvd_add_left (hd 0 0)).1 this
  · intro h k i _ _
    rw [key]
    exact Nat.dvd_add h (hd k i)

/-- C49 for grids with default sizes, part 1: all members with an alignment of up to 32 bytes are aligned. -/
theorem C49_grid_partial (L : Layout V) (d e : Ext) (h : selectSizes .dflt d = .ok e) (base : Nat) (hbase : 4096 ∣ base)
    (r k x y z al : Nat) (m : Member V) (hm : L[r]? = some m) (hk : k < m.elems) (hx : x < e.x) (hy : y < e.y) (hz : z < e.z)
    (hal : al ∣ m.ty.size) (h32 : al ∣ 32) :
    al ∣ base + ((e.x * e.y * e.z) * (m.ty.size * k + offset L r) + (z * e.x * e.y + y * e.x + x) * m.ty.size) := by
  have hs := default_small h
  have hP : 32 ∣ e.x * e.y * e.z := by
    have m1 : ∀ s ∈ sizes1D, 32 ∣ s * 1 * 1 := by decide
    have m2 : ∀ s ∈ sizes2D, 32 ∣ s * s * 1 := by decide
    have m3 : ∀ s ∈ sizes3D, 32 ∣ s * s * s := by decide
    rcases default_ext h with ⟨s, hs', rfl⟩ | ⟨s, hs', rfl⟩ | ⟨s, hs', rfl⟩
    · exact m1 s hs'
    · exact m2 s hs'
    · exact m3 s hs'
  have hl := lin_lt hx hy hz
  have e1 : lin e x y z = z * e.x * e.y + y * e.x + x := by unfold lin; ring
  rw [e1] at hl
  have hb : al ∣ base := Nat.dvd_trans (Nat.dvd_trans h32 (by decide)) hbase
  have hpos : 0 < e.x * e.y * e.z := Nat.mul_pos (Nat.mul_pos hs.px hs.py) hs.pz
  exact (C49_iff L _ base al r m hm hal hb hpos (by omega)).2
    (Dvd.dvd.mul_right (Nat.dvd_trans h32 hP) _) k _ hk hl

/-- C49 for grids with default sizes, part 2: aligned vector access. If the extent along x is a multiple of the arity, then the
first cell of every row of a 2D or 3D grid is aligned for vectors of up to 512 bytes; in a 1D grid for vectors of up to 32. -/
theorem C49_rows_partial (L : Layout V) (d e : Ext) (h : selectSizes .dflt d = .ok e) (base : Nat) (hbase : 4096 ∣ base)
    (r k y z arity : Nat) (m : Member V) (_hm : L[r]? = some m) (_hk : k < m.elems) (_hy : y < e.y) (_hz : z < e.z)
    (hx : arity ∣ e.x) (hv : arity * m.ty.size ∣ if 1 < d.y then 512 else 32) :
    arity * m.ty.size ∣ base + ((e.x * e.y * e.z) * (m.ty.size * k + offset L r) + (z * e.x * e.y + y * e.x) * m.ty.size) := by
  have hP : (if 1 < d.y then 512 else 32) ∣ e.x * e.y * e.z := by
    have m1 : ∀ s ∈ sizes1D, 32 ∣ s * 1 * 1 := by decide
    have m2 : ∀ s ∈ sizes2D, 512 ∣ s * s * 1 := by decide
    have m3 : ∀ s ∈ sizes3D, 512 ∣ s * s * s := by decide
    have h32 : ∀ n, 512 ∣ n → (if 1 < d.y then 512 else 32) ∣ n := by
      intro n hn; split
      · exact hn
      · exact Nat.dvd_trans (by decide) hn
    by_cases hdy : 1 < d.y
    · rcases default_ext h with ⟨s, hs, rfl⟩ | ⟨s, hs, rfl⟩ | ⟨s, hs, rfl⟩
      · have := (selectSizes_fits h).2.1
        exact absurd this (by show ¬ d.y ≤ 1; omega)
      · exact h32 _ (m2 s hs)
      · exact h32 _ (m3 s hs)
    · rw [if_neg hdy]
      rcases default_ext h with ⟨s, hs, rfl⟩ | ⟨s, hs, rfl⟩ | ⟨s, hs, rfl⟩
      · exact m1 s hs
      · exact Nat.dvd_trans (by decide) (m2 s hs)
      · exact Nat.dvd_trans (by decide) (m3 s hs)
  have hb : arity * m.ty.size ∣ base := by
    refine Nat.dvd_trans (Nat.dvd_trans hv ?_) hbase
    split <;> decide
  have e1 : base + ((e.x * e.y * e.z) * (m.ty.size * k + offset L r) + (z * e.x * e.y + y * e.x) * m.ty.size) =
      base + ((e.x * e.y * e.z) * offset L r + (e.x * m.ty.size) * (e.y * e.z * k + (z * e.y + y))) := by ring
  rw [e1]
  exact Nat.dvd_add hb (Nat.dvd_add (Dvd.dvd.mul_right (Nat.dvd_trans hv hP) _)
    (Dvd.dvd.mul_right (Nat.mul_dvd_mul_right hx _) _))

/-- C49 for soa_array: aligned, if the capacity is a multiple of the alignment or the members in front of it occupy a multiple
of it. -/
theorem C49_array_partial (L : Layout V) (N base al r k i : Nat) (m : Member V) (hm : L[r]? = some m) (hk : k < m.elems)
    (hi : i < N) (hbase : al ∣ base) (hal : al ∣ m.ty.size) (h : al ∣ N ∨ al ∣ offset L r) :
    al ∣ base + slot N (offset L r) m.ty.size k i := by
  refine (C49_iff L N base al r m hm hal hbase (by omega) (by omega)).2 ?_ k i hk hi
  rcases h with h | h
  · exact Dvd.dvd.mul_right h _
  · exact Dvd.dvd.mul_left h _

/-- `struct { char a; double b; }`. -/
def charDouble : Layout Nat := [⟨⟨1, true⟩, none, 0⟩, ⟨⟨8, true⟩, none, 0⟩]

/-- C49 is false for soa_array: in `soa_array<struct { char a; double b; }, 5>` no `b` is aligned, wherever the array is placed
at an address suitable for a double. -/
theorem C49_false (base : Nat) (hbase : 8 ∣ base) (i : Nat) : ¬ 8 ∣ base + slot 5 (offset charDouble 1) 8 0 i := by
  show ¬ 8 ∣ base + (5 * (8 * 0 + 1) + i * 8)
  omega

example := C49_false 4096 (by decide) 3

/-- C49 is false for default 1D grids and over-aligned members: a 64-byte aligned member behind a `char` in a grid of 544 cells
(1D, e.g. 513 to 544 cells in use). -/
theorem C49_false_grid (base : Nat) (hbase : 4096 ∣ base) (i : Nat) :
    selectSizes .dflt ⟨513, 1, 1⟩ = .ok ⟨544, 1, 1⟩ ∧
    ¬ 64 ∣ base + slot 544 (offset ([⟨⟨1, true⟩, none, 0⟩, ⟨⟨64, true⟩, none, 0⟩] : Layout Nat) 1) 64 0 i := by
  refine ⟨by decide, ?_⟩
  show ¬ 64 ∣ base + (544 * (64 * 0 + 1) + i * 64)
  omega

example := C49_false_grid 4096 (by decide) 3

/-- Instance of C49 for grids: the doubles of `charDouble` in a 3D grid. -/
example : 8 ∣ 4096 + ((32 * 32 * 32) * (8 * 0 + offset charDouble 1) + (3 * 32 * 32 + 2 * 32 + 1) * 8) :=
  C49_grid_partial charDouble ⟨20, 20, 20⟩ ⟨32, 32, 32⟩ (by decide) 4096 (Nat.dvd_refl _) 1 0 1 2 3 8 charDouble[1] rfl
    (by decide) (by decide) (by decide) (by decide) (by decide) (by decide)

/-- Instance for rows: vectors of 8 doubles. -/
example : 8 * 8 ∣ 4096 + ((32 * 32 * 32) * (8 * 0 + offset charDouble 1) + (3 * 32 * 32 + 2 * 32) * 8) :=
  C49_rows_partial charDouble ⟨20, 20, 20⟩ ⟨32, 32, 32⟩ (by decide) 4096 (Nat.dvd_refl _) 1 0 2 3 8 charDouble[1] rfl
    (by decide) (by decide) (by decide) (by decide) (by decide)

end

/-! ### C50 -/

/-- Width in bits of the vector registers of an instruction set (as documented by the vendors, independent of the code); scalar
code has registers of the size of the cargo. -/
def vectorBits : Isa → Nat → Nat
  | .cudaDevice, s => s * 8
  | .qpx, _ => 256
  | .mic, _ => 512
  | .neon, _ => 128
  | .avx512, _ => 512
  | .avx, _ => 256
  | .sse, _ => 128
  | .plain, s => s * 8

/-- C50, arity: all ISAs but QPX and MIC; on CUDA devices always 1. -/
theorem C50_arity_partial (isa : Isa) (s ilp : Nat) (hs : 0 < s) (h : ilp * vectorBits isa s < 2 ^ 64)
    (h1 : ∀ x ∈ [Isa.qpx, .mic, .cudaDevice], isa ≠ x) :
    arity isa s ilp = some (ilp * vectorBits isa s / (8 * s)) := by
  have key : ∀ w, ilp * w < 2 ^ 64 → (do
      let a ← size ((ilp : Int) * w)
      pure (a.toNat / s / 8)) = some (ilp * w / (8 * s)) := by
    intro w hw
    have e : (ilp : Int) * w = ((ilp * w : Nat) : Int) := by push_cast; rfl
    rw [e, bind_some (size_ok (by omega) (by omega))]
    rw [Nat.div_div_eq_div_mul, Int.toNat_natCast, Nat.mul_comm s 8]
    rfl
  cases isa with
  | cudaDevice => exact absurd rfl (h1 .cudaDevice (by simp))
  | qpx => exact absurd rfl (h1 .qpx (by simp))
  | mic => exact absurd rfl (h1 .mic (by simp))
  | neon => simp only [arity]; rw [bind_some (show bitWidth _ s = some (128) from rfl)]; exact key (128) h
  | avx512 => simp only [arity]; rw [bind_some (show bitWidth _ s = some (512) from rfl)]; exact key (512) h
  | avx => simp only [arity]; rw [bind_some (show bitWidth _ s = some (256) from rfl)]; exact key (256) h
  | sse => simp only [arity]; rw [bind_some (show bitWidth _ s = some (128) from rfl)]; exact key (128) h
  | plain => simp only [arity]; rw [bind_some (show bitWidth _ s = some (s * 8) from rfl)]; exact key (s * 8) h

/-- C50, arity on CUDA devices. -/
theorem C50_cuda (s ilp : Nat) : arity .cudaDevice s ilp = some 1 := rfl

/-- C50: at least `ILP` lanes, as long as a cargo is not wider than a vector. -/
theorem C50_at_least_partial (isa : Isa) (s ilp a : Nat) (hs : 0 < s) (h : ilp * vectorBits isa s < 2 ^ 64)
    (h1 : isa ≠ .cudaDevice) (hw : 8 * s ≤ vectorBits isa s) (ha : arity isa s ilp = some a) : ilp ≤ a := by
  by_cases h2 : ∀ x ∈ [Isa.qpx, .mic, .cudaDevice], isa ≠ x
  · rw [C50_arity_partial isa s ilp hs h h2] at ha
    cases ha
    rw [Nat.le_div_iff_mul_le (by omega)]
    exact Nat.mul_le_mul_left _ hw
  · have : isa = .qpx ∨ isa = .mic := by
      cases isa <;> simp_all
    rcases this with rfl | rfl <;> cases ha

example := C50_at_least_partial .avx 8 2 8 (by decide) (by decide) (by intro h; cases h) (by decide) rfl

/-- C50 is false for QPX and MIC builds: `ilp_to_arity` does not compile there, although the library has short_vec classes for
both. -/
theorem C50_false (s ilp : Nat) : arity .qpx s ilp = none ∧ arity .mic s ilp = none := ⟨rfl, rfl⟩

/-- C50, streaming: the streaming variant is selected iff the working set (all cells of the grid) is at least as large as the
given cache size. -/
theorem C50_streaming (isa : Isa) (s : Nat) (e : Ext) (cell unroll : Nat) (cache : Int) (a : Nat) (kind : VecKind)
    (h : estimate isa s e cell unroll cache = some (a, kind)) :
    arity isa s unroll = some a ∧ (kind = .streaming ↔ cache ≤ ((e.x * e.y * e.z * cell : Nat) : Int)) := by
  unfold estimate at h
  obtain ⟨a', ha, h⟩ := Option.bind_eq_some_iff.1 h
  obtain ⟨P, hP, h⟩ := Option.bind_eq_some_iff.1 h
  obtain ⟨P', hP', h⟩ := Option.bind_eq_some_iff.1 h
  obtain ⟨t, ht, h⟩ := Option.bind_eq_some_iff.1 h
  obtain ⟨c, hc, h⟩ := Option.bind_eq_some_iff.1 h
  have eP : P = (e.x : Int) * e.y * e.z := by
    unfold dimProd at hP
    obtain ⟨q, hq, hP⟩ := Option.bind_eq_some_iff.1 hP
    unfold long at hq hP
    split at hq <;> cases hq
    split at hP <;> cases hP
    rfl
  have eP' : P' = P := by unfold size at hP'; split at hP' <;> cases hP'; rfl
  have et : t = P' * cell := by unfold size at ht; split at ht <;> cases ht; rfl
  have ec : c = cache ∧ 0 ≤ c := by
    unfold size at hc; split at hc
    · rename_i hh; cases hc; exact ⟨rfl, hh.1⟩
    · cases hc
  have et0 : 0 ≤ t := by
    unfold size at ht; split at ht
    · rename_i hh; cases ht; exact hh.1
    · cases ht
  by_cases hc0 : c = 0
  · rw [if_pos hc0] at h; cases h
  rw [if_neg hc0] at h
  by_cases hf : t / c < 2 ^ 31
  · simp only [hf, if_true] at h
    cases h
    refine ⟨ha, ?_⟩
    have : ((e.x * e.y * e.z * cell : Nat) : Int) = t := by rw [et, eP', eP]; push_cast; rfl
    rw [this, ← ec.1]
    have hcp : 0 < c := by have := ec.2; omega
    unfold vecSwitch
    have hz : t / c = 0 ↔ t < c := by
      constructor
      · intro h0
        have := Int.lt_ediv_add_one_mul_self t hcp
        rw [h0] at this; omega
      · intro hlt; exact Int.ediv_eq_zero_of_lt et0 hlt
    by_cases hlt : t < c
    · rw [if_pos (hz.2 hlt)]
      simp; omega
    · rw [if_neg (fun hh => hlt (hz.1 hh))]
      simp; omega
  · simp only [hf, if_false] at h
    cases h

example := C50_streaming .avx 8 ⟨256, 256, 256⟩ 32 2 (2 ^ 25) 8 .streaming (by decide)

/-- Instance: doubles with AVX, a 256³ grid of 32-byte cells, the default cache size. -/
example : estimate .avx 8 ⟨256, 256, 256⟩ 32 2 (2 ^ 25) = some (8, .streaming) := by decide

/-- Instance: a small 2D grid. -/
example : estimate .sse 4 ⟨256, 256, 1⟩ 32 2 (2 ^ 25) = some (8, .temporal) := by decide

example := C49_array_partial charDouble 16 4096 8 1 0 5 charDouble[1] rfl (by decide) (by decide) (by decide) (by decide) (.inl (by decide))

end LFA.Mach
