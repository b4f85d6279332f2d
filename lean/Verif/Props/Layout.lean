import Verif.Demo
import Verif.MemberPtr

/-
  C01–C05: where members are stored.
-/
set_option linter.unusedSectionVars false
namespace LFA.Props
open LFA

section
variable {V : Type} [DecidableEq V]

/-- The accessor for the cell at index `i` of a grid with extents `e` (`index() == i`). -/
abbrev cellAcc (e : Ext) (i : Nat) : Acc := accAt e (i : Int)

/-- C01, part 1: all storage is inside of the buffer. -/
theorem C01_in_bounds (L : Layout V) (hL : L.WF) (e : Ext) (i r k : Nat) (m : Member V)
    (hi : i < e.x * e.y * e.z) (hm : L[r]? = some m) (hk : k < m.elems) :
    0 ≤ (cellAcc e i).userRef L r m k ∧
    (cellAcc e i).userRef L r m k + m.ty.size ≤ Spec.structBytes L * (e.x * e.y * e.z) ∧
    byteSizeOf L e = Spec.structBytes L * (e.x * e.y * e.z) := by
  have h1 := userRef_slot (C := ⟨L, .dflt, false⟩) hL (accAt_At e i) hm hk
  have h2 := slot_in_bounds (P := e.prod) hm hk hi
  simp only at h1
  rw [h1]
  refine ⟨by omega, ?_, ?_⟩
  · rw [structBytes_eq]
    show (slot e.prod (offset L r) m.ty.size k i : Int) + _ ≤ ((aggSize L * e.prod : Nat) : Int)
    exact_mod_cast h2
  · rw [structBytes_eq, byteSizeOf_eq]; rfl

/-- C01, part 2: different (cell, member, array element) triples do not share a byte. -/
theorem C01_no_alias (L : Layout V) (hL : L.WF) (e : Ext) (i r k i' r' k' : Nat) (m m' : Member V)
    (hi : i < e.x * e.y * e.z) (hm : L[r]? = some m) (hk : k < m.elems)
    (hi' : i' < e.x * e.y * e.z) (hm' : L[r']? = some m') (hk' : k' < m'.elems) (hne : (i, r, k) ≠ (i', r', k'))
    (byte : Int) :
    ¬ ((cellAcc e i).userRef L r m k ≤ byte ∧ byte < (cellAcc e i).userRef L r m k + m.ty.size ∧
       (cellAcc e i').userRef L r' m' k' ≤ byte ∧ byte < (cellAcc e i').userRef L r' m' k' + m'.ty.size) := by
  have h1 := userRef_slot (C := ⟨L, .dflt, false⟩) hL (accAt_At e i) hm hk
  have h2 := userRef_slot (C := ⟨L, .dflt, false⟩) hL (accAt_At e i') hm' hk'
  have h3 := slot_disjoint (P := e.prod) hm hm' hk hk' hi hi' (fun h => hne (by
    obtain ⟨rfl, rfl, rfl⟩ := h; rfl))
  simp only [accAt] at h1 h2
  simp only [cellAcc, accAt]
  rw [h1, h2]
  unfold Block.Disj at h3
  omega

/-- C02: in-range coordinates have distinct indices below the number of cells; consecutive x are consecutive. -/
theorem C02_gen_index (e : Ext) (x y z x' y' z' : Nat) (h : InDim e x y z) (h' : InDim e x' y' z') :
    0 ≤ genIndex e x y z ∧ genIndex e x y z < (e.x * e.y * e.z : Nat) ∧
    (genIndex e x y z = genIndex e x' y' z' ↔ (x, y, z) = (x', y', z')) ∧
    genIndex e (x + 1 : Nat) y z = genIndex e x y z + 1 := by
  obtain ⟨hx, hy, hz⟩ := h
  obtain ⟨hx', hy', hz'⟩ := h'
  have hlt := lin_lt hx hy hz
  rw [genIndex_lin, genIndex_lin, genIndex_lin]
  refine ⟨by omega, by exact_mod_cast hlt, ⟨fun h => ?_, fun h => ?_⟩, ?_⟩
  · obtain ⟨rfl, rfl, rfl⟩ := lin_inj hx hy hx' hy' (by exact_mod_cast h)
    rfl
  · cases h; rfl
  · rw [lin_succ]; push_cast; rfl

/-- C03, part 1: `accessor[coord<X, Y, Z>()].m()` is the member of the cell with the shifted coordinate; also for negative
    offsets. `r`, `k`: any member and array element. -/
theorem C03_neighbour (L : Layout V) (hL : L.WF) (e : Ext) (x y z X Y Z : Int) (px py pz r k : Nat) (m : Member V)
    (hm : L[r]? = some m) (hk : k < m.elems) (hx : x + X = px) (hy : y + Y = py) (hz : z + Z = pz)
    (hin : InDim e px py pz) :
    ((accAt e (genIndex e x y z)).shift X Y Z).userRef L r m k = (cellAcc e (lin e px py pz)).userRef L r m k ∧
    (lin e px py pz : Int) = genIndex e px py pz ∧ lin e px py pz < e.x * e.y * e.z := by
  have h1 := userRef_slot (C := ⟨L, .dflt, false⟩) hL (shift_At (e := e) hx hy hz) hm hk
  have h2 := userRef_slot (C := ⟨L, .dflt, false⟩) hL (accAt_At e (lin e px py pz)) hm hk
  refine ⟨?_, (genIndex_lin e px py pz).symm, lin_lt hin.1 hin.2.1 hin.2.2⟩
  simp only [accAt, Acc.shift] at h1 h2 ⊢
  rw [h1, h2]

/-- C03, part 2: neighbour accesses compose by adding the offsets (all address forms of all members agree). -/
theorem C03_compose (L : Layout V) (A : Acc) (X Y Z X' Y' Z' : Int) (r k : Nat) (m : Member V) :
    ((A.shift X Y Z).shift X' Y' Z').userRef L r m k = (A.shift (X + X') (Y + Y') (Z + Z')).userRef L r m k ∧
    ((A.shift X Y Z).shift X' Y' Z').member L r m k = (A.shift (X + X') (Y + Y') (Z + Z')).member L r m k := by
  have : ((A.shift X Y Z).shift X' Y' Z') = A.shift (X + X') (Y + Y') (Z + Z') := by
    unfold Acc.shift; simp only [Acc.mk.injEq, true_and, and_true]; ring
  rw [this]; exact ⟨rfl, rfl⟩

example := C03_compose demoL ⟨⟨4, 3, 2⟩, 5, 1⟩ 1 0 (-1) 2 1 1 1 2 ⟨⟨4, true⟩, some 3, 0⟩

/-- C04: `m()[k]` and `m<k>()` are the same storage; element `k` of the next x cell follows directly. -/
theorem C04_array_access (L : Layout V) (A : Acc) (r k n : Nat) (m : Member V) (ha : m.arity = some n) (hk : k < n) :
    A.arrayRef L r m k = A.member L r m k ∧
    ({ A with idx := A.idx + 1 } : Acc).arrayRef L r m k = A.arrayRef L r m k + m.ty.size ∧
    (A.shift 1 0 0).arrayRef L r m k = A.arrayRef L r m k + m.ty.size := by
  unfold Acc.arrayRef Acc.member Acc.shift
  simp only [ha]
  refine ⟨?_, ?_, ?_⟩ <;> push_cast <;> ring

/-- Every registered member is resolved to the number of bytes of the members registered before it, converted to the
    return type `int`. Names are unique, the type of a member pointer is that of the member. -/
theorem C05_exact (ms : List (RegMember V)) (r : Nat) (m : RegMember V) (hm : ms[r]? = some m)
    (hnames : ∀ (i j : Nat) (a b : RegMember V), ms[i]? = some a → ms[j]? = some b → a.name = b.name → i = j) :
    memberPtrToOffset ms ⟨m.name, m.ty⟩ = .ok ((Spec.bytesBefore (layoutOf ms) r : Int).bmod (2 ^ 32)) := by
  have hconv : ∀ n : Nat, toInt32 n = (n : Int).bmod (2 ^ 32) := by
    intro n
    unfold toInt32
    rw [Int.bmod_def]
    have : (n : Int) % ((2 ^ 32 : Nat) : Int) = ((n % 2 ^ 32 : Nat) : Int) := by push_cast; rfl
    rw [this]
    split <;> split <;> omega
  have key : ∀ n, r < n → n ≤ ms.length →
      offsetOp ms n ⟨m.name, m.ty⟩ = .ok (toInt32 (Spec.bytesBefore (layoutOf ms) r)) := by
    intro n
    induction n with
    | zero => intro h; omega
    | succ n ih =>
      intro hlt hle
      have hn : ms[n]? = some ms[n] := List.getElem?_eq_getElem (by omega)
      simp only [offsetOp, hn]
      by_cases hrn : r = n
      · subst hrn
        rw [hm] at hn; cases hn
        simp only [if_true]
        rw [← bytesBefore_eq]
      · have hne : m.name ≠ ms[n].name := fun h => hrn (hnames r n m ms[n] hm hn h)
        have := ih (by omega) (by omega)
        simp only [hne, if_false, this]
        split
        · rfl
        · split <;> rfl
  have hlt : r < ms.length := by
    rcases List.getElem?_eq_some_iff.1 hm with ⟨h, _⟩; exact h
  rw [← hconv]
  exact key ms.length hlt (Nat.le_refl _)

/-- C05, part 1: every registered member is resolved to the number of bytes of the members registered before. Missing:
    offsets which `int` cannot represent (`C05_false_large`). -/
theorem C05_registered_partial (ms : List (RegMember V)) (r : Nat) (m : RegMember V) (hm : ms[r]? = some m)
    (hnames : ∀ (i j : Nat) (a b : RegMember V), ms[i]? = some a → ms[j]? = some b → a.name = b.name → i = j)
    (hint : Spec.bytesBefore (layoutOf ms) r < 2 ^ 31) :
    memberPtrToOffset ms ⟨m.name, m.ty⟩ = .ok (Spec.bytesBefore (layoutOf ms) r : Int) := by
  rw [C05_exact ms r m hm hnames, Int.bmod_eq_of_le (by omega) (by omega)]

/-- The claim fails for every member behind 2^31 or more bytes of other members: a wrong offset is returned. -/
theorem C05_false_large (ms : List (RegMember V)) (r : Nat) (m : RegMember V) (hm : ms[r]? = some m)
    (hnames : ∀ (i j : Nat) (a b : RegMember V), ms[i]? = some a → ms[j]? = some b → a.name = b.name → i = j)
    (hint : 2 ^ 31 ≤ Spec.bytesBefore (layoutOf ms) r) :
    ∃ o, memberPtrToOffset ms ⟨m.name, m.ty⟩ = .ok o ∧ o < (Spec.bytesBefore (layoutOf ms) r : Int) := by
  refine ⟨_, C05_exact ms r m hm hnames, ?_⟩
  have := Int.bmod_lt (x := (Spec.bytesBefore (layoutOf ms) r : Int)) (m := 2 ^ 32) (by decide)
  omega

/-- C05, part 2: the resolved offset leads to the member's storage. -/
theorem C05_access (ms : List (RegMember V)) (r : Nat) (m : RegMember V) (A : Acc) :
    A.accessMemberAt m.obj.ty.size (Spec.bytesBefore (layoutOf ms) r) = A.member (layoutOf ms) r m.obj 0 ∧
    A.accessMember (layoutOf ms) r m.obj.ty.size = A.member (layoutOf ms) r m.obj 0 := by
  rw [bytesBefore_eq]
  unfold Acc.accessMemberAt Acc.accessMember Acc.member
  cases m.obj.arity <;> simp

/-- C05, part 3: other members are rejected. -/
theorem C05_unregistered (ms : List (RegMember V)) (p : MemPtr) (h : ∀ m ∈ ms, m.name ≠ p.name) :
    memberPtrToOffset ms p = .error (.invalidArgument "member was not registered with LibFlatArray") := by
  have key : ∀ n, n ≤ ms.length →
      offsetOp ms n p = .error (.invalidArgument "member was not registered with LibFlatArray") := by
    intro n
    induction n with
    | zero => intro _; rfl
    | succ n ih =>
      intro hle
      have hn : ms[n]? = some ms[n] := List.getElem?_eq_getElem (by omega)
      have hne : p.name ≠ ms[n].name := fun he => h ms[n] (List.getElem_mem _) he.symm
      simp only [offsetOp, hn, hne, if_false, ih (by omega)]
      split
      · rfl
      · split <;> rfl
  exact key ms.length (Nat.le_refl _)

end

/-! ### Concrete instances -/

example : Spec.structBytes demoL = 52 := by decide
example := C01_in_bounds demoL demoL_WF ⟨4, 3, 2⟩ 23 1 2 ⟨⟨4, true⟩, some 3, 0⟩ (by decide) rfl (by decide)
example := C01_no_alias demoL demoL_WF ⟨4, 3, 2⟩ 23 1 2 0 2 0 ⟨⟨4, true⟩, some 3, 0⟩ ⟨⟨32, false⟩, none, -1⟩ (by decide) rfl
  (by decide) (by decide) rfl (by decide) (by decide)
example := C02_gen_index ⟨4, 3, 2⟩ 3 2 1 0 1 1 (by simp [InDim]) (by simp [InDim])
example := C03_neighbour demoL demoL_WF ⟨4, 3, 2⟩ 1 1 0 (-1) 1 1 0 2 1 1 2 ⟨⟨4, true⟩, some 3, 0⟩ rfl (by decide) rfl rfl rfl
  (by simp [InDim])
example := C04_array_access demoL ⟨⟨4, 3, 2⟩, 5, 1⟩ 1 2 3 ⟨⟨4, true⟩, some 3, 0⟩ rfl (by decide)

/-- Registered with names: two members have the same type, two differ by array size only. -/
def demoReg : List (RegMember Int) :=
  [⟨10, ⟨0, none⟩, ⟨⟨8, true⟩, none, 0⟩⟩, ⟨11, ⟨0, none⟩, ⟨⟨8, true⟩, none, 0⟩⟩, ⟨12, ⟨0, some 3⟩, ⟨⟨8, true⟩, some 3, 0⟩⟩,
   ⟨13, ⟨0, some 2⟩, ⟨⟨8, true⟩, some 2, 0⟩⟩]

example : memberPtrToOffset demoReg ⟨12, ⟨0, some 3⟩⟩ = .ok 16 := by decide
example : memberPtrToOffset demoReg ⟨14, ⟨0, some 3⟩⟩ =
    .error (.invalidArgument "member was not registered with LibFlatArray") := C05_unregistered _ _ (by decide)
example : memberPtrToOffset demoReg ⟨11, ⟨0, none⟩⟩ = .ok 8 :=
  C05_registered_partial demoReg 1 _ rfl (by
    intro i j a b ha hb hab
    have hi : i < 4 := by rcases List.getElem?_eq_some_iff.1 ha with ⟨h, _⟩; exact h
    have hj : j < 4 := by rcases List.getElem?_eq_some_iff.1 hb with ⟨h, _⟩; exact h
    have : ∀ i : Fin 4, ∀ j : Fin 4, (demoReg[i.1]?).map RegMember.name = (demoReg[j.1]?).map RegMember.name → i.1 = j.1 := by
      decide
    exact this ⟨i, hi⟩ ⟨j, hj⟩ (by simp only [ha, hb, Option.map_some, hab])) (by decide)

example := C05_access demoReg 2 ⟨12, ⟨0, some 3⟩, ⟨⟨8, true⟩, some 3, 0⟩⟩ ⟨⟨4, 3, 2⟩, 5, 1⟩

/-- `struct { double a[1 << 28]; double b; }` -/
def demoLarge : List (RegMember Int) :=
  [⟨10, ⟨0, some (2 ^ 28)⟩, ⟨⟨8, true⟩, some (2 ^ 28), 0⟩⟩, ⟨11, ⟨0, none⟩, ⟨⟨8, true⟩, none, 0⟩⟩]

example : ∃ o, memberPtrToOffset demoLarge ⟨11, ⟨0, none⟩⟩ = .ok o ∧
    o < (Spec.bytesBefore (layoutOf demoLarge) 1 : Int) :=
  C05_false_large demoLarge 1 _ rfl (by
    intro i j a b ha hb hab
    have hi : i < 2 := by rcases List.getElem?_eq_some_iff.1 ha with ⟨h, _⟩; exact h
    have hj : j < 2 := by rcases List.getElem?_eq_some_iff.1 hb with ⟨h, _⟩; exact h
    have : ∀ i : Fin 2, ∀ j : Fin 2, (demoLarge[i.1]?).map RegMember.name = (demoLarge[j.1]?).map RegMember.name → i.1 = j.1 := by
      decide
    exact this ⟨i, hi⟩ ⟨j, hj⟩ (by simp only [ha, hb, Option.map_some, hab])) (by decide)

end LFA.Props
