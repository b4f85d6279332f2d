import Verif.MachGrid
import Verif.Props.Machine
import Verif.GridObs

/-
  The executions of soa_grid in machine arithmetic are those in unbounded arithmetic, as long as the extents are small.
-/
set_option linter.unusedSectionVars false
namespace LFA.Mach
open LFA
variable {V : Type} [DecidableEq V] {L : Layout V}

theorem chk_some {α β : Type} {o : Option α} {a : α} (h : o = some a) (f : α → Except UB β) : chk o f = f a := by
  rw [h]; rfl

theorem forEach_congr_at {σ : Type} {f g : Nat → Member V → σ → Except UB σ} :
    ∀ (ms : Layout V) (r0 : Nat), (∀ i m, ms[i]? = some m → ∀ s, f (r0 + i) m s = g (r0 + i) m s) →
      ∀ s, forEach f ms r0 s = forEach g ms r0 s
  | [], _, _, _ => rfl
  | m :: ms, r0, h, s => by
    have h0 : f r0 m s = g r0 m s := h 0 m rfl s
    unfold forEach
    rw [h0]
    congr 1
    funext s
    refine forEach_congr_at ms (r0 + 1) (fun i m' hm s => ?_) s
    have := h (i + 1) m' hm s
    rwa [show r0 + 1 + i = r0 + (i + 1) by omega]

theorem forEach_congr {σ : Type} {f g : Nat → Member V → σ → Except UB σ}
    (h : ∀ r m, L[r]? = some m → ∀ s, f r m s = g r m s) (s : σ) : forEach f L 0 s = forEach g L 0 s :=
  forEach_congr_at L 0 (fun i m hm s => by rw [Nat.zero_add]; exact h i m hm s) s

/-- The accessor has extents `e`, is positioned on struct `i`, and denotes struct `j`. -/
structure On (e : Ext) (A : Acc) (i j : Nat) : Prop where
  ext : A.ext = e
  idx : A.idx = i
  off : A.INDEX = (j : Int) - i
  hi : i ≤ e.prod
  hj : j ≤ e.prod

theorem On.accAt {e : Ext} {i : Nat} (h : i ≤ e.prod) : On e (accAt e (i : Int)) i i :=
  ⟨rfl, rfl, by simp [LFA.accAt], h, h⟩

theorem On.at {e : Ext} {A : Acc} {i j : Nat} (h : On e A i j) : A.At j := by
  unfold Acc.At; rw [h.idx, h.off]; omega

theorem pow62 : (2 : Nat) ^ 31 * 2 ^ 31 = 2 ^ 62 := by decide

theorem total_le (hagg : aggSize L ≤ 2 ^ 31) {e : Ext} (hs : Small e) : aggSize L * e.prod ≤ 2 ^ 62 :=
  pow62 ▸ Nat.mul_le_mul hagg hs.le

theorem prod_pos {e : Ext} (hs : Small e) : 0 < e.prod := Nat.mul_pos (Nat.mul_pos hs.px hs.py) hs.pz

/-- Every member of every struct, and the end of each run of members, is inside of the buffer. -/
theorem slot_le {P r k i : Nat} {m : Member V} (hm : L[r]? = some m) (hk : k < m.elems) (hi : i ≤ P) (hP : 0 < P) :
    slot P (offset L r) m.ty.size k i ≤ aggSize L * P := by
  have hb := slot_in_bounds hm hk (show P - 1 < P by omega)
  unfold slot at *
  have : i * m.ty.size ≤ (P - 1 + 1) * m.ty.size := Nat.mul_le_mul_right _ (by omega)
  rw [Nat.succ_mul] at this
  omega

theorem member_ok (hagg : aggSize L ≤ 2 ^ 31) {e : Ext} (h : Small e)
    {i j r k : Nat} {m : Member V} (hm : L[r]? = some m) (hk : k < m.elems)
    (hi : i ≤ e.prod) (hj : j ≤ e.prod) :
    member L (aggSize L * e.prod) e ((j : Int) - i) i r m k =
      some ((slot e.prod (offset L r) m.ty.size k j : Nat) : Int) := by
  have hpos := prod_pos h
  have hb := slot_le hm hk hj hpos
  have hbi := slot_le hm hk hi hpos
  have hP := h.le
  rw [member, bind_some (dimProd_ok h)]
  unfold Ext.prod at *
  generalize e.x * e.y * e.z = P at *
  have hag : aggSize L * P ≤ 2 ^ 31 * 2 ^ 31 := Nat.mul_le_mul hagg hP
  have := pow62
  have g1 : m.ty.size * k + offset L r ≤ P * (m.ty.size * k + offset L r) := Nat.le_mul_of_pos_left _ hpos
  have g2 : j * m.ty.size ≤ aggSize L * P := by unfold slot at hb; omega
  have g3 : i * m.ty.size ≤ aggSize L * P := by unfold slot at hbi; omega
  have c1 : (m.ty.size : Int) * k = ((m.ty.size * k : Nat) : Int) := by push_cast; rfl
  have c2 : ((m.ty.size * k : Nat) : Int) + offset L r = ((m.ty.size * k + offset L r : Nat) : Int) := by push_cast; rfl
  have c3 : (P : Int) * ((m.ty.size * k + offset L r : Nat) : Int) = ((P * (m.ty.size * k + offset L r) : Nat) : Int) := by
    push_cast; rfl
  have c4 : (i : Int) * m.ty.size = ((i * m.ty.size : Nat) : Int) := by push_cast; rfl
  have c5 : ((j : Int) - i) * m.ty.size = ((j * m.ty.size : Nat) : Int) - ((i * m.ty.size : Nat) : Int) := by
    push_cast; ring
  unfold slot at *
  rw [c1, c4, c5]
  generalize hB : aggSize L * P = B at *
  generalize hu : P * (m.ty.size * k + offset L r) = u at *
  generalize hv : i * m.ty.size = v at *
  generalize hw : j * m.ty.size = w at *
  generalize ht : m.ty.size * k = t at *
  rw [bind_some (size_ok (by omega) (by omega)), bind_some (size_ok (by omega) (by omega)), c2,
    bind_some (size_ok (by omega) (by omega)), c3,
    bind_some (size_ok (by omega) (by omega)), bind_some (ptr_ok (by omega) (by omega)),
    bind_some (long_ok (by omega) (by omega)), bind_some (ptr_ok (by omega) (by omega)),
    bind_some (long_ok (by omega) (by omega)), ptr_ok (by omega) (by omega)]
  congr 1; omega

theorem mem_ok (hL : L.WF) (hagg : aggSize L ≤ 2 ^ 31) {e : Ext} (hs : Small e) {A : Acc} {i j : Nat} (h : On e A i j)
    {r : Nat} {m : Member V} (hm : L[r]? = some m) :
    mem L (aggSize L * e.prod) A r m = some ((slot e.prod (offset L r) m.ty.size 0 j : Nat) : Int) := by
  have := member_ok hagg hs hm (hL.elems_pos hm) h.hi h.hj
  unfold mem
  rw [h.ext, h.off, h.idx]
  exact this

/-- Moving by `q` array elements and `i` structs. -/
theorem slot_move (P off s k j q i : Nat) :
    ((slot P off s k j : Nat) : Int) + ((q : Int) * P + i) * s = ((slot P off s (k + q) (j + i) : Nat) : Int) := by
  unfold slot; push_cast; ring

theorem ptr_slot {P r k i : Nat} {m : Member V} (hm : L[r]? = some m) (hk : k < m.elems) (hi : i ≤ P) (hP : 0 < P) :
    ptr (aggSize L * P) ((slot P (offset L r) m.ty.size k i : Nat) : Int) =
      some ((slot P (offset L r) m.ty.size k i : Nat) : Int) := by
  have := slot_le hm hk hi hP
  exact ptr_ok (by omega) (by omega)

theorem elems_prod_le (hL : L.WF) {P r k i : Nat} {m : Member V} (hm : L[r]? = some m) (hk : k < m.elems)
    (hi : i ≤ P) (hP : 0 < P) : k * P + i ≤ aggSize L * P := by
  have h1 := slot_le hm hk hi hP
  have h2 := hL.size_pos hm
  unfold slot at h1
  have h3 : P * k ≤ P * (m.ty.size * k + offset L r) :=
    Nat.mul_le_mul_left _ (Nat.le_trans (Nat.le_mul_of_pos_left _ h2) (Nat.le_add_right _ _))
  have h4 : i ≤ i * m.ty.size := Nat.le_mul_of_pos_right _ h2
  rw [Nat.mul_comm k]
  omega

theorem arrayRef_ok (hL : L.WF) (hagg : aggSize L ≤ 2 ^ 31) {e : Ext} (hs : Small e) {A : Acc} {i j : Nat} (h : On e A i j)
    {r k : Nat} {m : Member V} (hm : L[r]? = some m) (hk : k < m.elems) :
    arrayRef L (aggSize L * e.prod) A r m k = some ((slot e.prod (offset L r) m.ty.size k j : Nat) : Int) := by
  have ht := total_le hagg hs
  have hP := hs.le
  have hkP := elems_prod_le hL hm hk h.hj (prod_pos hs)
  have c1 : (k : Int) * ((e.x * e.y * e.z : Nat) : Int) = ((k * e.prod : Nat) : Int) := by
    unfold Ext.prod; push_cast; rfl
  have hmove := slot_move e.prod (offset L r) m.ty.size 0 j k 0
  rw [arrayRef, bind_some (mem_ok hL hagg hs h hm), h.ext, bind_some (dimProd_ok hs),
    bind_some (size_ok (by omega) (by omega)), c1, bind_some (size_ok (by omega) (by omega))]
  rw [show ((k * e.prod : Nat) : Int) = (k : Int) * (e.prod : Int) + ((0 : Nat) : Int) by push_cast; ring, hmove]
  simp only [Nat.zero_add, Nat.add_zero]
  exact ptr_slot hm hk h.hj (prod_pos hs)

theorem plane_ok (hL : L.WF) (hagg : aggSize L ≤ 2 ^ 31) {e : Ext} (hs : Small e) {j r k : Nat} {m : Member V}
    (hm : L[r]? = some m) (hk : k < m.elems) (hj : j ≤ e.prod) :
    plane (aggSize L * e.prod) e ((slot e.prod (offset L r) m.ty.size 0 j : Nat) : Int) k m.ty.size =
      some ((slot e.prod (offset L r) m.ty.size k j : Nat) : Int) := by
  have ht := total_le hagg hs
  have hP := hs.le
  have hkP := elems_prod_le hL hm hk hj (prod_pos hs)
  have c1 : ((e.x * e.y * e.z : Nat) : Int) * (k : Int) = ((k * e.prod : Nat) : Int) := by
    unfold Ext.prod; push_cast; ring
  have hmove := slot_move e.prod (offset L r) m.ty.size 0 j k 0
  rw [plane, bind_some (dimProd_ok hs), c1, bind_some (long_ok (by omega) (by omega))]
  rw [show ((k * e.prod : Nat) : Int) = (k : Int) * (e.prod : Int) + ((0 : Nat) : Int) by push_cast; ring, hmove]
  simp only [Nat.zero_add, Nat.add_zero]
  exact ptr_slot hm hk hj (prod_pos hs)

theorem planeRow_ok (hL : L.WF) (hagg : aggSize L ≤ 2 ^ 31) {e : Ext} (hs : Small e) {j r k i : Nat} {m : Member V}
    (hm : L[r]? = some m) (hk : k < m.elems) (hj : j + i ≤ e.prod) :
    planeRow (aggSize L * e.prod) e ((slot e.prod (offset L r) m.ty.size 0 j : Nat) : Int) k i m.ty.size =
      some ((slot e.prod (offset L r) m.ty.size k (j + i) : Nat) : Int) := by
  have ht := total_le hagg hs
  have hP := hs.le
  have hkP := elems_prod_le hL hm hk (show i ≤ e.prod by omega) (prod_pos hs)
  have c1 : ((e.x * e.y * e.z : Nat) : Int) * (k : Int) = ((k * e.prod : Nat) : Int) := by
    unfold Ext.prod; push_cast; ring
  have hmove := slot_move e.prod (offset L r) m.ty.size 0 j k i
  rw [planeRow, bind_some (dimProd_ok hs), c1, bind_some (long_ok (by omega) (by omega)),
    bind_some (size_ok (by omega) (by omega)), bind_some (size_ok (by omega) (by omega))]
  rw [show ((k * e.prod : Nat) : Int) = (k : Int) * (e.prod : Int) by push_cast; ring, hmove]
  simp only [Nat.zero_add]
  exact ptr_slot hm hk hj (prod_pos hs)

theorem row_ok {e : Ext} (hs : Small e) {j r k i : Nat} {m : Member V} (hm : L[r]? = some m) (hk : k < m.elems)
    (hj : j + i ≤ e.prod) :
    ptr (aggSize L * e.prod) (((slot e.prod (offset L r) m.ty.size k j : Nat) : Int) + (i : Int) * m.ty.size) =
      some ((slot e.prod (offset L r) m.ty.size k (j + i) : Nat) : Int) := by
  have hmove := slot_move e.prod (offset L r) m.ty.size k j 0 i
  rw [show (i : Int) = ((0 : Nat) : Int) * (e.prod : Int) + (i : Int) by simp, hmove]
  exact ptr_slot hm hk hj (prod_pos hs)

theorem rawBase_ok {n r stride : Nat} {m : Member V} (hm : L[r]? = some m) (hk : 0 < m.elems)
    (hn : stride * aggSize L ≤ n) (hn2 : n < 2 ^ 63) :
    rawBase n (offset L r) stride = some ((offset L r * stride : Nat) : Int) := by
  have hb : offset L r * stride ≤ n := by
    rcases Nat.eq_zero_or_pos stride with h0 | hpos
    · subst h0; simp
    have hb := slot_in_bounds hm hk hpos
    unfold slot at hb
    simp only [Nat.mul_zero, Nat.zero_add, Nat.zero_mul, Nat.add_zero] at hb
    rw [Nat.mul_comm] at hn
    rw [Nat.mul_comm stride] at hb
    omega
  rw [rawBase, show ((offset L r : Int) * (stride : Int)) = ((offset L r * stride : Nat) : Int) by push_cast; rfl,
    bind_some (size_ok (by omega) (by omega))]
  exact ptr_ok (by omega) (by omega)

theorem rawPlane_ok (hL : L.WF) {n r stride k o i : Nat} {m : Member V} (hm : L[r]? = some m) (hk : k < m.elems)
    (hi : o + i < stride) (hn : stride * aggSize L ≤ n) (hn2 : n < 2 ^ 63) :
    rawPlane n ((offset L r * stride : Nat) : Int) stride k o i m.ty.size =
      some ((slot stride (offset L r) m.ty.size k (o + i) : Nat) : Int) := by
  have hb := slot_in_bounds hm hk hi
  have hkP := elems_prod_le hL hm hk (show o + i ≤ stride by omega) (by omega)
  rw [Nat.mul_comm] at hn
  have c1 : (stride : Int) * (k : Int) = ((k * stride : Nat) : Int) := by push_cast; ring
  have c2 : ((offset L r * stride : Nat) : Int) + (((k * stride : Nat) : Int) + (o : Int) + (i : Int)) * (m.ty.size : Int) =
      ((slot stride (offset L r) m.ty.size k (o + i) : Nat) : Int) := by unfold slot; push_cast; ring
  rw [rawPlane, c1, bind_some (size_ok (by omega) (by omega)), bind_some (size_ok (by omega) (by omega)),
    bind_some (size_ok (by omega) (by omega)), c2]
  exact ptr_ok (by omega) (by omega)

theorem rawElem_ok (hL : L.WF) {n r stride o i : Nat} {m : Member V} (hm : L[r]? = some m)
    (hi : o + i < stride) (hn : stride * aggSize L ≤ n) (hn2 : n < 2 ^ 63) :
    rawElem n ((offset L r * stride : Nat) : Int) o i m.ty.size =
      some ((slot stride (offset L r) m.ty.size 0 (o + i) : Nat) : Int) := by
  have hk := hL.elems_pos hm
  have hb := slot_in_bounds hm hk hi
  have hkP := elems_prod_le hL hm hk (show o + i ≤ stride by omega) (by omega)
  rw [Nat.mul_comm] at hn
  have c2 : ((offset L r * stride : Nat) : Int) + ((o : Int) + (i : Int)) * (m.ty.size : Int) =
      ((slot stride (offset L r) m.ty.size 0 (o + i) : Nat) : Int) := by unfold slot; push_cast; ring
  rw [rawElem, bind_some (size_ok (by omega) (by omega)), c2]
  exact ptr_ok (by omega) (by omega)

/-! ### Accessors -/

section
variable (hL : L.WF) (hagg : aggSize L ≤ 2 ^ 31) {e : Ext} (hs : Small e)
include hL hagg hs

theorem setCell_eq {A : Acc} {i j : Nat} (h : On e A i j) (cell : Cell V) (b : Block V) :
    setCell L (aggSize L * e.prod) A cell b = A.setCell L cell b := by
  refine forEach_congr (fun r m hm b => ?_) b
  have hp := hL.elems_pos hm
  cases ha : m.arity with
  | none => simp only [chk_some (mem_ok hL hagg hs h hm), Acc.member_slot L h.at r m 0 hp, h.ext]
  | some q =>
    simp only [chk_some (mem_ok hL hagg hs h hm)]
    refine loopM_congr _ _ _ _ (fun k hk b => ?_)
    have hk' : k < m.elems := by rw [elems_some ha]; exact hk
    rw [h.ext, chk_some (plane_ok hL hagg hs hm hk' h.hj), ← h.ext, Acc.member_plane_slot L h.at r m k hp]

theorem getCell_eq {A : Acc} {i j : Nat} (h : On e A i j) (b : Block V) (c : Cell V) :
    getCell L (aggSize L * e.prod) A b c = A.getCell L b c := by
  refine forEach_congr (fun r m hm c => ?_) c
  have hp := hL.elems_pos hm
  cases ha : m.arity with
  | none => simp only [chk_some (mem_ok hL hagg hs h hm), Acc.member_slot L h.at r m 0 hp, h.ext]
  | some q =>
    simp only [chk_some (mem_ok hL hagg hs h hm)]
    refine loopM_congr _ _ _ _ (fun k hk c => ?_)
    have hk' : k < m.elems := by rw [elems_some ha]; exact hk
    rw [h.ext, chk_some (plane_ok hL hagg hs hm hk' h.hj), ← h.ext, Acc.member_plane_slot L h.at r m k hp]

theorem constructMembers_eq {A : Acc} {i j : Nat} (h : On e A i j) (b : Block V) :
    constructMembers L (aggSize L * e.prod) A b = A.constructMembers L b := by
  refine forEach_congr (fun r m hm b => ?_) b
  have hp := hL.elems_pos hm
  cases ha : m.arity with
  | none => simp only [chk_some (mem_ok hL hagg hs h hm), Acc.member_slot L h.at r m 0 hp, h.ext]
  | some q =>
    refine loopM_congr _ _ _ _ (fun k hk b => ?_)
    have hk' : k < m.elems := by rw [elems_some ha]; exact hk
    rw [chk_some (arrayRef_ok hL hagg hs h hm hk'), Acc.arrayRef_slot L h.at r m k hp, h.ext]

theorem destroyMembers_eq {A : Acc} {i j : Nat} (h : On e A i j) (b : Block V) :
    destroyMembers L (aggSize L * e.prod) A b = A.destroyMembers L b := by
  refine forEach_congr (fun r m hm b => ?_) b
  have hp := hL.elems_pos hm
  cases ha : m.arity with
  | none => simp only [chk_some (mem_ok hL hagg hs h hm), Acc.member_slot L h.at r m 0 hp, h.ext]
  | some q =>
    refine loopM_congr _ _ _ _ (fun k hk b => ?_)
    have hk' : k < m.elems := by rw [elems_some ha]; exact hk
    rw [chk_some (arrayRef_ok hL hagg hs h hm hk'), Acc.arrayRef_slot L h.at r m k hp, h.ext]

theorem copyRun_eq {e' : Ext} (hs' : Small e') {j j' r k : Nat} {m : Member V} (hm : L[r]? = some m) (hk : k < m.elems)
    {count : Nat} (hj : j + count ≤ e.prod) (hj' : j' + count ≤ e'.prod) (src : Block V → Block V) (b : Block V) :
    copyRun (aggSize L * e.prod) (aggSize L * e'.prod) m ((slot e'.prod (offset L r) m.ty.size k j' : Nat) : Int)
      ((slot e.prod (offset L r) m.ty.size k j : Nat) : Int) src count b =
    loopM count (fun i b => ((src b).read ((slot e'.prod (offset L r) m.ty.size k (j' + i) : Nat) : Int) m.ty).bind fun v =>
      b.assign ((slot e.prod (offset L r) m.ty.size k (j + i) : Nat) : Int) m.ty v) b := by
  rw [copyRun, chk_some (row_ok hs' hm hk hj')]
  refine loopM_congr _ _ _ _ (fun i hi b => ?_)
  rw [chk_some (row_ok hs' hm hk (by omega)), row_ok hs hm hk (by omega)]
  rfl

theorem copyMembers_eq {e' : Ext} (hs' : Small e') {A O : Acc} {i j i' j' : Nat} (h : On e A i j) (h' : On e' O i' j')
    {count : Nat} (hj : j + count ≤ e.prod) (hj' : j' + count ≤ e'.prod) (src : Block V → Block V) (b : Block V) :
    copyMembers L (aggSize L * e.prod) (aggSize L * e'.prod) A O src count b = A.copyMembers L O src count b := by
  refine forEach_congr (fun r m hm b => ?_) b
  have hp := hL.elems_pos hm
  cases ha : m.arity with
  | none =>
    simp only [chk_some (mem_ok hL hagg hs' h' hm), chk_some (mem_ok hL hagg hs h hm)]
    rw [copyRun_eq hL hagg hs hs' hm hp hj hj']
    refine loopM_congr _ _ _ _ (fun i hi b => ?_)
    rw [Acc.member_row_slot L h.at r m i hp, Acc.member_row_slot L h'.at r m i hp, h.ext, h'.ext]
  | some q =>
    refine loopM_congr _ _ _ _ (fun k hk b => ?_)
    have hk' : k < m.elems := by rw [elems_some ha]; exact hk
    rw [chk_some (arrayRef_ok hL hagg hs' h' hm hk'), chk_some (arrayRef_ok hL hagg hs h hm hk'),
      copyRun_eq hL hagg hs hs' hm hk' hj hj']
    refine loopM_congr _ _ _ _ (fun i hi b => ?_)
    rw [Acc.arrayRef_row_slot L h.at r m k i hp, Acc.arrayRef_row_slot L h'.at r m k i hp, h.ext, h'.ext]

theorem loadRaw_eq {A : Acc} {i j : Nat} (h : On e A i j) {ns : Nat} (src : Block V → Block V) {count off stride : Nat}
    (hj : j + count ≤ e.prod) (ho : off + count ≤ stride) (hn : stride * aggSize L ≤ ns) (hn2 : ns < 2 ^ 63)
    (b : Block V) :
    loadRaw L (aggSize L * e.prod) ns A src count off stride b = A.loadRaw L src count off stride b := by
  refine forEach_congr (fun r m hm b => ?_) b
  have hp := hL.elems_pos hm
  cases ha : m.arity with
  | none =>
    refine loopM_congr _ _ _ _ (fun i hi b => ?_)
    rw [chk_some (rawBase_ok hm hp hn hn2), chk_some (rawElem_ok hL hm (by omega) hn hn2), Acc.raw_slot]
    refine congrArg _ (funext fun v => ?_)
    rw [chk_some (mem_ok hL hagg hs h hm), chk_some (row_ok hs hm hp (by omega)), Acc.member_row_slot L h.at r m i hp, h.ext]
  | some q =>
    simp only []
    rw [chk_some (rawBase_ok hm hp hn hn2), chk_some (arrayRef_ok hL hagg hs h hm hp)]
    refine loopM_congr _ _ _ _ (fun k hk b => ?_)
    refine loopM_congr _ _ _ _ (fun i hi b => ?_)
    have hk' : k < m.elems := by rw [elems_some ha]; exact hk
    rw [chk_some (rawPlane_ok hL hm hk' (by omega) hn hn2), Acc.raw_plane_slot]
    refine congrArg _ (funext fun v => ?_)
    rw [h.ext, chk_some (planeRow_ok hL hagg hs hm hk' (by omega)), ← h.ext, Acc.arrayRef_plane_row_slot L h.at r m k i hp]

theorem saveRaw_eq {A : Acc} {i j : Nat} (h : On e A i j) {b : Block V} (hb : b.size = aggSize L * e.prod)
    {nt count off stride : Nat} (hj : j + count ≤ e.prod) (ho : off + count ≤ stride) (hn : stride * aggSize L ≤ nt)
    (hn2 : nt < 2 ^ 63) (tgt : Block V) :
    saveRaw L nt A b count off stride tgt = A.saveRaw L b count off stride tgt := by
  refine forEach_congr (fun r m hm tgt => ?_) tgt
  have hp := hL.elems_pos hm
  cases ha : m.arity with
  | none =>
    refine loopM_congr _ _ _ _ (fun i hi tgt => ?_)
    rw [hb, chk_some (mem_ok hL hagg hs h hm), chk_some (row_ok hs hm hp (by omega)), Acc.member_row_slot L h.at r m i hp, h.ext]
    refine congrArg _ (funext fun v => ?_)
    rw [chk_some (rawBase_ok hm hp hn hn2), chk_some (rawElem_ok hL hm (by omega) hn hn2), Acc.raw_slot]
  | some q =>
    simp only []
    rw [hb, chk_some (rawBase_ok hm hp hn hn2), chk_some (arrayRef_ok hL hagg hs h hm hp)]
    refine loopM_congr _ _ _ _ (fun k hk tgt => ?_)
    refine loopM_congr _ _ _ _ (fun i hi tgt => ?_)
    have hk' : k < m.elems := by rw [elems_some ha]; exact hk
    rw [h.ext, chk_some (planeRow_ok hL hagg hs hm hk' (by omega)), ← h.ext, Acc.arrayRef_plane_row_slot L h.at r m k i hp]
    refine congrArg _ (funext fun v => ?_)
    rw [chk_some (rawPlane_ok hL hm hk' (by omega) hn hn2), Acc.raw_plane_slot]

end

/-! ### Functors -/

theorem walk_loop {σ : Type} (n : Nat) (idx : Int) (h0 : 0 ≤ idx) (hn : idx + n < 2 ^ 63)
    (f : Nat → Int → σ → Except UB σ) (s : σ) :
    walk n idx f s = loopM n (fun i s => f i (idx + i) s) s := by
  have key : ∀ k, k ≤ n → loopM k (fun i (p : Int × σ) =>
      (f i p.1 p.2).bind fun s' => chk (long (p.1 + 1)) fun idx' => .ok (idx', s')) (idx, s) =
      (loopM k (fun i s => f i (idx + i) s) s).map (fun s => (idx + k, s)) := by
    intro k hk
    induction k with
    | zero => simp [loopM, Except.map]
    | succ k ih =>
      rw [loopM_succ, loopM_succ, ih (by omega)]
      cases loopM k (fun i s => f i (idx + i) s) s with
      | error u => rfl
      | ok s1 =>
        show (f k (idx + k) s1).bind _ = (f k (idx + k) s1).map _
        cases f k (idx + k) s1 with
        | error u => rfl
        | ok s2 =>
          show chk (long (idx + k + 1)) _ = .ok _
          rw [chk_some (long_ok (by omega) (by omega))]
          simp only [Except.ok.injEq, Prod.mk.injEq, and_true]
          push_cast; ring
  unfold walk
  rw [key n (Nat.le_refl n)]
  cases loopM n (fun i s => f i (idx + i) s) s <;> rfl

theorem lin_le {e : Ext} {x y z : Nat} (hx : x ≤ e.x) (hy : y < e.y) (hz : z < e.z) : lin e x y z ≤ e.prod := by
  have := row_end_in_prod (d := ⟨e.x, e.y, e.z⟩) (e := e) ⟨Nat.le_refl _, Nat.le_refl _, Nat.le_refl _⟩ hy hz
  rw [lin_zero]
  simp only at this
  omega

theorem genIndex_le {e : Ext} (h : Small e) {x y z : Nat} (hx : x ≤ e.x) (hy : y < e.y) (hz : z < e.z) :
    genIndex e x y z = some ((lin e x y z : Nat) : Int) := by
  have hl := lin_le hx hy hz
  have hP : e.prod ≤ 2 ^ 31 := h.le
  unfold lin at *
  have a1 : z * e.x ≤ z * e.x * e.y := Nat.le_mul_of_pos_right _ h.py
  have c1 : (z : Int) * e.x = ((z * e.x : Nat) : Int) := by push_cast; rfl
  have c2 : ((z * e.x : Nat) : Int) * e.y = ((z * e.x * e.y : Nat) : Int) := by push_cast; rfl
  have c3 : (y : Int) * e.x = ((y * e.x : Nat) : Int) := by push_cast; rfl
  generalize ha : z * e.x = a at *
  generalize hb : a * e.y = b at *
  generalize hc : y * e.x = c at *
  generalize e.prod = P at *
  unfold genIndex
  rw [c1, bind_some (long_ok (by omega) (by omega)), c2, bind_some (long_ok (by omega) (by omega)), c3,
    bind_some (long_ok (by omega) (by omega)), bind_some (long_ok (by omega) (by omega)),
    long_ok (by omega) (by omega)]
  push_cast; rfl

theorem genIndexS_ok {e : Ext} (hs : Small e) {x y z : Nat} (hx : x ≤ e.x) (hy : y < e.y) (hz : z < e.z) :
    genIndexS e x y z = some ((lin e x y z : Nat) : Int) := by
  have h1 := hs.x
  have h2 := hs.y
  have h3 := hs.z
  rw [genIndexS, bind_some (long_ok (by omega) (by omega)), bind_some (long_ok (by omega) (by omega)),
    bind_some (long_ok (by omega) (by omega)), genIndex_le hs hx hy hz]

theorem prod_lt {e : Ext} (hs : Small e) : e.prod ≤ 2 ^ 31 := hs.le

theorem genIndex_zero (e : Ext) (y z : Nat) : LFA.genIndex e 0 y z = ((lin e 0 y z : Nat) : Int) := genIndex_lin e 0 y z

section
variable (hL : L.WF) (hagg : aggSize L ≤ 2 ^ 31) {e : Ext} (hs : Small e)
include hL hagg hs

theorem constructFunctor_eq {d : Ext} (hd : d.Fits e) {b : Block V} (hb : b.size = aggSize L * e.prod) :
    constructFunctor L d e b = LFA.constructFunctor L d e b := by
  have hP := prod_lt hs
  refine loopM_congr _ _ _ _ (fun z hz b' => loopM_congr _ _ _ _ (fun y hy b' => ?_))
  rw [chk_some (genIndexS_ok hs (Nat.zero_le _) (by have := hd.2.1; omega) (by have := hd.2.2; omega))]
  have hend := row_end_in_prod hd hy hz
  rw [walk_loop _ _ (by omega) (by omega), LFA.walk_eq, genIndex_zero, hb]
  refine loopM_congr _ _ _ _ (fun x hx b' => ?_)
  rw [← Nat.cast_add]
  exact constructMembers_eq hL hagg hs (On.accAt (by omega)) b'

theorem destroyFunctor_eq {d : Ext} (hd : d.Fits e) {b : Block V} (hb : b.size = aggSize L * e.prod) :
    destroyFunctor L d e b = LFA.destroyFunctor L d e b := by
  have hP := prod_lt hs
  refine loopM_congr _ _ _ _ (fun z hz b' => loopM_congr _ _ _ _ (fun y hy b' => ?_))
  rw [chk_some (genIndexS_ok hs (Nat.zero_le _) (by have := hd.2.1; omega) (by have := hd.2.2; omega))]
  have hend := row_end_in_prod hd hy hz
  rw [walk_loop _ _ (by omega) (by omega), LFA.walk_eq, genIndex_zero, hb]
  refine loopM_congr _ _ _ _ (fun x hx b' => ?_)
  rw [← Nat.cast_add]
  exact destroyMembers_eq hL hagg hs (On.accAt (by omega)) b'

theorem copyFunctor_eq {d : Ext} (hd : d.Fits e) {b : Block V} (hb : b.size = aggSize L * e.prod)
    (src : Block V → Block V) :
    copyFunctor L d e e (aggSize L * e.prod) src b = LFA.copyFunctor L d e e src b := by
  refine loopM_congr _ _ _ _ (fun z hz b' => loopM_congr _ _ _ _ (fun y hy b' => ?_))
  rw [chk_some (genIndexS_ok hs (Nat.zero_le _) (by have := hd.2.1; omega) (by have := hd.2.2; omega))]
  have hend := row_end_in_prod hd hy hz
  rw [genIndex_zero, hb]
  exact copyMembers_eq hL hagg hs hs (On.accAt (by omega)) (On.accAt (by omega)) hend hend src b'

theorem setFunctor_eq {x y z count : Nat} (hx : x + count ≤ e.x) (hy : y < e.y) (hz : z < e.z) (stride : Nat)
    (cells : List (Cell V)) {b : Block V} (hb : b.size = aggSize L * e.prod) :
    setFunctor L e stride cells x y z count b = LFA.setFunctor L e stride cells x y z count b := by
  have hP := prod_lt hs
  have hend := lin_le hx hy hz
  rw [lin_succ] at hend
  rw [setFunctor, chk_some (genIndexS_ok hs (by omega) hy hz), walk_loop _ _ (by omega) (by omega), LFA.setFunctor,
    LFA.walk_eq, genIndex_lin, hb]
  refine loopM_congr _ _ _ _ (fun j hj b' => ?_)
  cases cells[j * stride]? with
  | none => rfl
  | some cell =>
    simp only []
    rw [← Nat.cast_add]
    exact setCell_eq hL hagg hs (On.accAt (by omega)) cell b'

theorem getFunctor_eq {x y z count : Nat} (hx : x + count ≤ e.x) (hy : y < e.y) (hz : z < e.z)
    {b : Block V} (hb : b.size = aggSize L * e.prod) (target : List (Cell V)) :
    getFunctor L e b x y z count target = LFA.getFunctor L e b x y z count target := by
  have hP := prod_lt hs
  have hend := lin_le hx hy hz
  rw [lin_succ] at hend
  rw [getFunctor, chk_some (genIndexS_ok hs (by omega) hy hz), walk_loop _ _ (by omega) (by omega), LFA.getFunctor,
    LFA.walk_eq, genIndex_lin, hb]
  refine loopM_congr _ _ _ _ (fun j hj target => ?_)
  cases target[j]? with
  | none => rfl
  | some cell =>
    simp only []
    rw [← Nat.cast_add, getCell_eq hL hagg hs (On.accAt (by omega)) b cell]

theorem loadFunctor_eq {src : Block V} {count : Nat} (hn : count * aggSize L ≤ src.size) (hn2 : src.size < 2 ^ 63)
    (hc : count < 2 ^ 64) (ss : List Streak) :
    ∀ (off : Nat) (b : Block V), (∀ s ∈ ss, s.x + s.len ≤ e.x ∧ s.y < e.y ∧ s.z < e.z) →
      off + (ss.map Streak.len).sum ≤ count →
      loadFunctor L (aggSize L * e.prod) e src count ss off b = LFA.loadFunctor L e src count ss off b := by
  induction ss with
  | nil => intros; rfl
  | cons s ss ih =>
    intro off b hin hsum
    simp only [List.map_cons, List.sum_cons] at hsum
    obtain ⟨hx, hy, hz⟩ := hin s (List.mem_cons_self ..)
    have hend := lin_le hx hy hz
    rw [lin_succ] at hend
    unfold loadFunctor LFA.loadFunctor
    rw [chk_some (genIndexS_ok hs (by omega) hy hz), genIndex_lin,
      loadRaw_eq hL hagg hs (On.accAt (by omega)) _ hend (by omega) hn hn2]
    refine congrArg _ (funext fun b' => ?_)
    rw [chk_some (size_ok (by omega) (by omega)), ← Nat.cast_add, Int.toNat_natCast]
    exact ih _ _ (fun s' h' => hin s' (List.mem_cons_of_mem _ h')) (by omega)

theorem saveFunctor_eq {b : Block V} (hb : b.size = aggSize L * e.prod) {nt count : Nat} (hn : count * aggSize L ≤ nt)
    (hn2 : nt < 2 ^ 63) (hc : count < 2 ^ 64) (ss : List Streak) :
    ∀ (off : Nat) (tgt : Block V), (∀ s ∈ ss, s.x + s.len ≤ e.x ∧ s.y < e.y ∧ s.z < e.z) →
      off + (ss.map Streak.len).sum ≤ count →
      saveFunctor L nt e b count ss off tgt = LFA.saveFunctor L e b count ss off tgt := by
  induction ss with
  | nil => intros; rfl
  | cons s ss ih =>
    intro off tgt hin hsum
    simp only [List.map_cons, List.sum_cons] at hsum
    obtain ⟨hx, hy, hz⟩ := hin s (List.mem_cons_self ..)
    have hend := lin_le hx hy hz
    rw [lin_succ] at hend
    unfold saveFunctor LFA.saveFunctor
    rw [chk_some (genIndexS_ok hs (by omega) hy hz), genIndex_lin,
      saveRaw_eq hL hagg hs (On.accAt (by omega)) hb hend (by omega) hn hn2]
    refine congrArg _ (funext fun b' => ?_)
    rw [chk_some (size_ok (by omega) (by omega)), ← Nat.cast_add, Int.toNat_natCast]
    exact ih _ _ (fun s' h' => hin s' (List.mem_cons_of_mem _ h')) (by omega)

end

theorem shiftIndex_ok {e : Ext} (hs : Small e) {X Y Z : Int}
    (hX : -e.x ≤ X ∧ X ≤ e.x) (hY : -e.y ≤ Y ∧ Y ≤ e.y) (hZ : -e.z ≤ Z ∧ Z ≤ e.z) :
    shiftIndex e 0 X Y Z = some (Z * ((e.x : Int) * e.y) + Y * e.x + X) := by
  have b1 := mul_bd (A := e.z) (B := e.x * e.y) (a := Z) (b := ((e.x * e.y : Nat) : Int)) hZ.1 hZ.2 (by omega) (by omega)
  have b2 := mul_bd (A := e.y) (B := e.x) (a := Y) (b := (e.x : Int)) hY.1 hY.2 (by omega) (by omega)
  have h1 := hs.le
  have h2 := hs.xy
  have h3 := hs.x
  have e1 : e.z * (e.x * e.y) = e.x * e.y * e.z := by ring
  have e2 : e.y * e.x = e.x * e.y := by ring
  rw [e1] at b1
  rw [e2] at b2
  have c1 : (e.x : Int) * e.y = ((e.x * e.y : Nat) : Int) := by push_cast; rfl
  unfold shiftIndex
  rw [c1]
  generalize e.x * e.y * e.z = p at *
  generalize hxy : e.x * e.y = q at *
  generalize hu : Z * (q : Int) = u at *
  generalize hv : Y * (e.x : Int) = v at *
  rw [bind_some (long_ok (by omega) (by omega)), hu, bind_some (long_ok (by omega) (by omega)),
    bind_some (long_ok (by omega) (by omega)), bind_some (long_ok (by omega) (by omega)),
    bind_some (long_ok (by omega) (by omega)), long_ok (by omega) (by omega)]
  simp

theorem byteSize_ok (hagg : aggSize L ≤ 2 ^ 31) {e : Ext} (hs : Small e) :
    byteSize L e = some ((byteSizeOf L e : Nat) : Int) := by
  have b0 : aggSize L * (e.x * e.y * e.z) ≤ 2 ^ 31 * 2 ^ 31 := Nat.mul_le_mul hagg hs.le
  have b1 : aggSize L * e.x * e.y ≤ aggSize L * e.x * e.y * e.z := Nat.le_mul_of_pos_right _ hs.pz
  have b2 : aggSize L * e.x ≤ aggSize L * e.x * e.y := Nat.le_mul_of_pos_right _ hs.py
  have e0 : aggSize L * (e.x * e.y * e.z) = aggSize L * e.x * e.y * e.z := by ring
  have c1 : (aggSize L : Int) * e.x = ((aggSize L * e.x : Nat) : Int) := by push_cast; rfl
  have c2 : ((aggSize L * e.x : Nat) : Int) * e.y = ((aggSize L * e.x * e.y : Nat) : Int) := by push_cast; rfl
  have c3 : ((aggSize L * e.x * e.y : Nat) : Int) * e.z = ((aggSize L * e.x * e.y * e.z : Nat) : Int) := by push_cast; rfl
  rw [e0] at b0
  have := pow62
  unfold byteSize byteSizeOf
  generalize aggSize L * e.x * e.y * e.z = p at *
  generalize aggSize L * e.x * e.y = q at *
  generalize aggSize L * e.x = r at *
  rw [c1, bind_some (size_ok (by omega) (by omega)), c2, bind_some (size_ok (by omega) (by omega)), c3,
    size_ok (by omega) (by omega)]

/-- Position (x, y, z) with the static offset (X, Y, Z): the base and the neighbour are inside of the extents. -/
structure Near (e : Ext) (x y z X Y Z : Int) : Prop where
  x0 : 0 ≤ x
  x1 : x < e.x
  y0 : 0 ≤ y
  y1 : y < e.y
  z0 : 0 ≤ z
  z1 : z < e.z
  X0 : 0 ≤ x + X
  X1 : x + X < e.x
  Y0 : 0 ≤ y + Y
  Y1 : y + Y < e.y
  Z0 : 0 ≤ z + Z
  Z1 : z + Z < e.z

theorem userRef_ok (hL : L.WF) (hagg : aggSize L ≤ 2 ^ 31) {e : Ext} (hs : Small e) {x y z X Y Z : Int}
    (h : Near e x y z X Y Z) {r k : Nat} {m : Member V} (hm : L[r]? = some m) (hk : k < m.elems) :
    userRef L (aggSize L * e.prod) e x y z X Y Z r m k =
      some (((accAt e (LFA.genIndex e x y z)).shift X Y Z).userRef L r m k) := by
  obtain ⟨x0, x1, y0, y1, z0, z1, X0, X1, Y0, Y1, Z0, Z1⟩ := h
  obtain ⟨a, rfl⟩ := Int.eq_ofNat_of_zero_le x0
  obtain ⟨b, rfl⟩ := Int.eq_ofNat_of_zero_le y0
  obtain ⟨c, rfl⟩ := Int.eq_ofNat_of_zero_le z0
  obtain ⟨a', ha⟩ := Int.eq_ofNat_of_zero_le X0
  obtain ⟨b', hb⟩ := Int.eq_ofNat_of_zero_le Y0
  obtain ⟨c', hc⟩ := Int.eq_ofNat_of_zero_le Z0
  have hX : X = (a' : Int) - a := by omega
  have hY : Y = (b' : Int) - b := by omega
  have hZ : Z = (c' : Int) - c := by omega
  subst hX hY hZ
  have l1 := lin_lt (e := e) (x := a) (y := b) (z := c) (by omega) (by omega) (by omega)
  have l2 := lin_lt (e := e) (x := a') (y := b') (z := c') (by omega) (by omega) (by omega)
  have hI : ((c' : Int) - c) * ((e.x : Int) * e.y) + ((b' : Int) - b) * e.x + ((a' : Int) - a) =
      ((lin e a' b' c' : Nat) : Int) - ((lin e a b c : Nat) : Int) := by unfold lin; push_cast; ring
  have hon : On e ⟨e, ((lin e a' b' c' : Nat) : Int) - ((lin e a b c : Nat) : Int), ((lin e a b c : Nat) : Int)⟩
      (lin e a b c) (lin e a' b' c') := ⟨rfl, rfl, rfl, by omega, by omega⟩
  have hacc : (accAt e (LFA.genIndex e a b c)).shift ((a' : Int) - a) ((b' : Int) - b) ((c' : Int) - c) =
      ⟨e, ((lin e a' b' c' : Nat) : Int) - ((lin e a b c : Nat) : Int), ((lin e a b c : Nat) : Int)⟩ := by
    unfold accAt Acc.shift
    rw [genIndex_lin]
    simp only [Acc.mk.injEq, true_and, and_true]
    rw [← hI]; ring
  rw [userRef, bind_some (genIndex_le hs (by omega) (by omega) (by omega)),
    bind_some (shiftIndex_ok hs (by omega) (by omega) (by omega)), hI, hacc, Acc.userRef]
  cases hA : m.arity with
  | none =>
    have hp := hL.elems_pos hm
    simp only []
    rw [mem_ok hL hagg hs hon hm, Acc.member_slot L hon.at r m 0 hp]
  | some q =>
    simp only []
    rw [arrayRef_ok hL hagg hs hon hm hk, Acc.arrayRef_slot L hon.at r m k (hL.elems_pos hm)]

theorem bind_throw {σ α β : Type} (x : Exc) (s : σ) (f : α → σ → Res σ β) : (Res.throw x s).bind f = .throw x s := rfl
theorem bind_ub {σ α β : Type} (u : UB) (f : α → σ → Res σ β) : (Res.ub u).bind f = .ub u := rfl
theorem bind_ok {σ α β : Type} (a : α) (s : σ) (f : α → σ → Res σ β) : (Res.ok a s).bind f = f a s := rfl

/-! ### Grids -/
section
variable {C : Cfg V} (hL : C.L.WF) (hagg : aggSize C.L ≤ 2 ^ 31)
  (hsm : ∀ d e, selectSizes C.tr d = .ok e → Small e)

/-- The buffer of a grid is as large as the extents selected for its dimensions require. -/
def Sz (C : Cfg V) (h : Heap V) (g : Grid) : Prop :=
  ∃ e id b, selectSizes C.tr g.dim = .ok e ∧ g.data = some id ∧ h.blk id = some b ∧ b.size = aggSize C.L * e.prod

theorem sz_of_ok {h : Heap V} {g : Grid} {a : AGrid V} (hg : GridOK C h g a) : Sz C h g := by
  obtain ⟨h1, e, id, b, h2, h3, h4, h5, -⟩ := hg
  exact ⟨e, id, b, by rw [h1]; exact h2, h3, h4, h5⟩

theorem Sz.frame {h h' : Heap V} {g : Grid} (hg : Sz C h g) (hf : ∀ id, g.data = some id → h'.blk id = h.blk id) : Sz C h' g := by
  obtain ⟨e, id, b, h2, h3, h4, h5⟩ := hg
  exact ⟨e, id, b, h2, h3, by rw [hf id h3]; exact h4, h5⟩

theorem callbackMut_sz {h : Heap V} {g : Grid} (hg : Sz C h g) {f f' : Ext → Block V → Except UB (Block V)}
    (hf : ∀ e b, selectSizes C.tr g.dim = .ok e → b.size = aggSize C.L * e.prod → f e b = f' e b) :
    g.callbackMut C f h = g.callbackMut C f' h := by
  obtain ⟨e, id, b, h2, h3, h4, h5⟩ := hg
  simp only [Grid.callbackMut, h2, onBuffer, h3, h4, hf e b h2 h5]

theorem callbackRead_sz {α : Type} {h : Heap V} {g : Grid} (hg : Sz C h g) {f f' : Ext → Block V → Except UB α}
    (hf : ∀ e b, selectSizes C.tr g.dim = .ok e → b.size = aggSize C.L * e.prod → f e b = f' e b) :
    g.callbackRead C f h = g.callbackRead C f' h := by
  obtain ⟨e, id, b, h2, h3, h4, h5⟩ := hg
  simp only [Grid.callbackRead, h2, h3, h4, hf e b h2 h5]

theorem callbackMut_eq {h : Heap V} {g : Grid} {a : AGrid V} (hg : GridOK C h g a)
    {f f' : Ext → Block V → Except UB (Block V)}
    (hf : ∀ e b, selectSizes C.tr a.dim = .ok e → b.size = aggSize C.L * e.prod → f e b = f' e b) :
    g.callbackMut C f h = g.callbackMut C f' h := by
  obtain ⟨h1, e, id, b, h2, h3, h4, h5, -⟩ := hg
  simp only [Grid.callbackMut, h1, h2, onBuffer, h3, h4, hf e b h2 h5]

theorem callbackRead_eq {α : Type} {h : Heap V} {g : Grid} {a : AGrid V} (hg : GridOK C h g a)
    {f f' : Ext → Block V → Except UB α}
    (hf : ∀ e b, selectSizes C.tr a.dim = .ok e → b.size = aggSize C.L * e.prod → f e b = f' e b) :
    g.callbackRead C f h = g.callbackRead C f' h := by
  obtain ⟨h1, e, id, b, h2, h3, h4, h5, -⟩ := hg
  simp only [Grid.callbackRead, h1, h2, h3, h4, hf e b h2 h5]

include hL hagg hsm

theorem destroyAndDeallocate_eq {h : Heap V} {g : Grid} (hg : g.data = none ∨ Sz C h g) :
    destroyAndDeallocate C g h = g.destroyAndDeallocate C h := by
  rcases hg with hg | hg
  · simp only [destroyAndDeallocate, Grid.destroyAndDeallocate, hg]
  · have key := callbackMut_sz hg (f := fun e => destroyFunctor C.L g.dim e)
      (f' := fun e => LFA.destroyFunctor C.L g.dim e) (fun e b he hb => by
        exact destroyFunctor_eq hL hagg (hsm _ _ he) (selectSizes_fits he) hb)
    unfold destroyAndDeallocate Grid.destroyAndDeallocate
    rw [key]
    rfl

theorem init_eq {h : Heap V} {g : Grid} {e : Ext} {id : Nat} {b : Block V} (he : selectSizes C.tr g.dim = .ok e)
    (hid : g.data = some id) (hb : h.blk id = some b) (hn : b.size = byteSizeOf C.L e) : init C g h = g.init C h := by
  have hn' : b.size = aggSize C.L * e.prod := by rw [hn]; unfold byteSizeOf Ext.prod; ring
  simp only [init, Grid.init, Grid.callbackMut, he, onBuffer, hid, hb,
    constructFunctor_eq hL hagg (hsm _ _ he) (selectSizes_fits he) hn']

theorem resizeWith_eq (bytes : Ext → Option Int) {h : Heap V} {g : Grid} (hg : g.data = none ∨ Sz C h g) (d : Ext)
    (hbs : ∀ e, selectSizes C.tr d = .ok e → bytes e = some ((byteSizeOf C.L e : Nat) : Int)) :
    resizeWith C bytes g d h = g.resize C d h := by
  have hdd := destroyAndDeallocate_eq hL hagg hsm hg
  by_cases hd : g.dim.x = d.x ∧ g.dim.y = d.y ∧ g.dim.z = d.z
  · rw [resizeWith, Grid.resize, if_pos hd, if_pos hd]
  rw [resizeWith, Grid.resize, if_neg hd, if_neg hd, hdd]
  refine congrArg _ (funext fun _ => funext fun s => ?_)
  obtain ⟨g0, h⟩ := s
  cases hs : selectSizes C.tr d with
  | error x => rfl
  | ok e =>
    have key := init_eq hL hagg hsm (h := (h.alloc (byteSizeOf C.L e)).2)
      (g := { g with dim := d, ex := some e.x, ey := some e.y, ez := some e.z, bs := some (byteSizeOf C.L e),
                     data := some (h.alloc (byteSizeOf C.L e)).1 })
      (e := e) (id := h.next) (b := Block.fresh (byteSizeOf C.L e)) hs rfl (by simp [Heap.alloc]) rfl
    simp only [hbs e hs, Int.toNat_natCast, key]

theorem resize_eq {h : Heap V} {g : Grid} (hg : g.data = none ∨ Sz C h g) (d : Ext) :
    resize C g d h = g.resize C d h :=
  resizeWith_eq hL hagg hsm _ hg d (fun e he => byteSize_ok hagg (hsm d e he))

theorem copyIn_sz {h : Heap V} {g other : Grid} (hg : Sz C h g) (ho : Sz C h other)
    (hdim : g.dim = other.dim) : copyIn C g other h = g.copyIn C other h := by
  obtain ⟨e, id, b, h2, h3, h4, h5⟩ := hg
  obtain ⟨e', id', b', o2, o3, o4, o5⟩ := ho
  rw [← hdim, h2] at o2
  cases o2
  have hd := selectSizes_fits h2
  have key := copyFunctor_eq hL hagg (hsm _ _ h2) hd h5 (srcBlock h (some id') (some id))
  unfold copyIn Grid.copyIn Grid.dualCallback
  simp only [← hdim, h2, h3, o3, Option.map_some, o4, onBuffer, h4, sizeAt, Option.getD_some, o5]
  simp only [key]

theorem copyIn_eq {h : Heap V} {g other : Grid} {a o : AGrid V} (hg : GridOK C h g a) (ho : GridOK C h other o)
    (hdim : a.dim = o.dim) : copyIn C g other h = g.copyIn C other h :=
  copyIn_sz hL hagg hsm (sz_of_ok hg) (sz_of_ok ho) (by rw [hg.1, ho.1, hdim])

theorem copyCtor_sz {h : Heap V} {other : Grid} (ho : Sz C h other)
    (hbs : ∀ e, selectSizes C.tr other.dim = .ok e → other.bs = some (byteSizeOf C.L e))
    (hlt : ∀ id, other.data = some id → id < h.next) (dv : V) : copyCtor C other h = other.copyCtor C h := by
  have ho' := ho
  obtain ⟨e, id, b, hsel, o3, o4, o5⟩ := ho
  have o6 := hbs e hsel
  let g : Grid := ⟨other.dim, none, none, none, some (byteSizeOf C.L e), some (h.alloc (byteSizeOf C.L e)).1⟩
  have key := init_eq hL hagg hsm (h := (h.alloc (byteSizeOf C.L e)).2) (g := g)
    (e := e) (id := h.next) (b := Block.fresh (byteSizeOf C.L e)) hsel rfl (by simp [Heap.alloc]) rfl
  obtain ⟨b1, k1, k2⟩ := grid_init (h := h) hL hsel dv g rfl rfl rfl none (fun e' he => by cases he)
  have ho3 : Sz C ((h.alloc (byteSizeOf C.L e)).2.set h.next b1) other := ho'.frame (fun i hi => by
    have := hlt i hi
    rw [Heap.blk_set_ne _ _ (by omega)]
    simp only [Heap.alloc]
    rw [if_neg (by omega)])
  have key2 := copyIn_sz hL hagg hsm (sz_of_ok k2) ho3 rfl
  simp only [copyCtor, Grid.copyCtor, o6]
  show (Res.withGrid g (init C g _)).bind _ = (Res.withGrid g (g.init C _)).bind _
  rw [key, k1]
  exact key2

theorem copyCtor_eq {h : Heap V} {other : Grid} {o : AGrid V} (ho : GridOK C h other o)
    (hlt : ∀ id, other.data = some id → id < h.next) (dv : V) : copyCtor C other h = other.copyCtor C h := by
  refine copyCtor_sz hL hagg hsm (sz_of_ok ho) (fun e he => ?_) hlt dv
  obtain ⟨o1, e', id, b, o2, o3, o4, o5, o6, -⟩ := ho
  rw [o1, o2] at he
  cases he
  exact o6

theorem dtor_eq {h : Heap V} {g : Grid} (hg : g.data = none ∨ Sz C h g) : dtor C g h = g.dtor C h := by
  unfold dtor Grid.dtor
  rw [destroyAndDeallocate_eq hL hagg hsm hg]
  rfl

omit hL hagg hsm in
theorem sum_len (ss : List Streak) : (ss.map Streak.len).sum = (Spec.coords ss).length := by
  induction ss with
  | nil => rfl
  | cons s ss ih => simp only [List.map_cons, List.sum_cons, ih, Spec.coords, List.flatMap_cons, List.length_append,
      List.length_map, List.length_range]

theorem assign_eq (dv : V) {w : World V} {a : AWorld V} (hR : R C w a) {s t : Nat} (hpa : a s ≠ .absent) {o : AGrid V}
    (hpt : a t = .grid o) {g og : Grid} (hg1 : w.g s = some g) (ho1 : w.g t = some og) (ho2 : GridOK C w.h og o) :
    assign C g og w.h = g.assign C og w.h := by
  have hod := ho2.1
  have hselO : ∃ e, selectSizes C.tr o.dim = .ok e := by obtain ⟨_, e, _, _, h, _⟩ := ho2; exact ⟨e, h⟩
  obtain ⟨e, hsel⟩ := hselO
  unfold assign Grid.assign
  cases has : a s with
  | absent => exact absurd has hpa
  | blank =>
    obtain ⟨g', hg1', hg2, hg3⟩ := hR.blank has
    rw [hg1] at hg1'; cases hg1'
    rw [resize_eq hL hagg hsm (.inl hg3)]
    by_cases hd0 : o.dim = ⟨0, 0, 0⟩
    · have hz : og.dim = ⟨0, 0, 0⟩ := by rw [hod]; exact hd0
      rw [resize_same (C := C) (h := w.h) (g := g) (d := og.dim) (by rw [hg2, hz]), bind_ok, bind_ok]
      obtain ⟨_, e', id, b, q2, q3, q4, _⟩ := ho2
      unfold copyIn Grid.copyIn Grid.dualCallback
      simp only [hg2, hg3, onBuffer, copyFunctor, LFA.copyFunctor, loopM]
      rfl
    · obtain ⟨g', h', k1, k2, k3, k4⟩ := resize_blank (C := C) (h := w.h) (g := g) hL hg3
          (fun h => hd0 (by rw [← h, hg2])) hsel dv
      have ho3 : GridOK C h' og o := ho2.frame (fun i hi => k4.kept i (fun h => nomatch h) (by
        have := hR.data_lt ho1 hi; omega))
      rw [hod, k1, bind_ok, bind_ok]
      exact copyIn_eq hL hagg hsm k2 ho3 rfl
  | grid ag =>
    obtain ⟨g', hg1', hg2⟩ := hR.grid has
    rw [hg1] at hg1'; cases hg1'
    rw [resize_eq hL hagg hsm (.inr (sz_of_ok hg2))]
    by_cases hd : ag.dim = o.dim
    · rw [resize_same (C := C) (h := w.h) (g := g) (d := og.dim) (by rw [hg2.1, hod, hd]), bind_ok, bind_ok]
      exact copyIn_eq hL hagg hsm hg2 ho2 hd
    · obtain ⟨g', h', k1, k2, k3, k4⟩ := hg2.resize hL hd hsel dv
      have hts : t ≠ s := by rintro rfl; rw [hpt] at has; cases has; exact hd rfl
      have ho3 : GridOK C h' og o := ho2.frame (fun i hi => k4.kept i (fun h => by
        exact hts (hR.own t s og g i ho1 hg1 hi h)) (by have := hR.data_lt ho1 hi; omega))
      rw [hod, k1, bind_ok, bind_ok]
      exact copyIn_eq hL hagg hsm k2 ho3 rfl

/-- What the arguments of an operation have to respect beyond its contract: raw buffers are no larger than the largest object
of a 64-bit machine, counts fit into `std::size_t`, and the accessor of a user's functor is positioned inside of the grid before
it is shifted to a neighbour. -/
def Fits (a : AWorld V) : Op V → Prop
  | .load _ _ src n => src.size < 2 ^ 63 ∧ n < 2 ^ 64
  | .save _ _ tgt n => tgt.size < 2 ^ 63 ∧ n < 2 ^ 64
  | .poke s x y z _ _ _ _ _ _ | .peek s x y z _ _ _ _ _ =>
    ∀ g, a s = .grid g → 0 ≤ x ∧ x < g.dim.x ∧ 0 ≤ y ∧ y < g.dim.y ∧ 0 ≤ z ∧ z < g.dim.z
  | _ => True

theorem step_eq (dv : V) {w : World V} {a : AWorld V} (hR : R C w a) (op : Op V) (hpre : Spec.Pre C a op) (hfit : Fits a op) :
    step C w op = w.step C op := by
  have hslot : ∀ s g, w.g s = some g → g.data = none ∨ Sz C w.h g := by
    intro s g hg
    have := hR.slots s
    cases has : a s with
    | absent => rw [has] at this; rw [show w.g s = none from this] at hg; cases hg
    | blank => obtain ⟨g', h1, _, h2⟩ := hR.blank has; rw [hg] at h1; cases h1; exact .inl h2
    | grid ag => obtain ⟨g', h1, h2⟩ := hR.grid has; rw [hg] at h1; cases h1; exact .inr (sz_of_ok h2)
  cases op with
  | new s d =>
    simp only [step, World.step, new, Grid.new]
    rw [resize_eq hL hagg hsm (.inl rfl)]
    rfl
  | copy s t =>
    obtain ⟨hpa, o, hpt⟩ := hpre
    obtain ⟨og, ho1, ho2⟩ := hR.grid hpt
    simp only [step, World.step, World.withG, ho1]
    rw [copyCtor_eq hL hagg hsm ho2 (fun id hid => hR.data_lt ho1 hid) dv]
    rfl
  | assign s t =>
    obtain ⟨hpa, o, hpt⟩ := hpre
    obtain ⟨og, ho1, ho2⟩ := hR.grid hpt
    simp only [step, World.step, World.withG, ho1]
    cases hg : w.g s with
    | none => rfl
    | some g => simp only [assign_eq hL hagg hsm dv hR hpa hpt hg ho1 ho2]
  | swap s t => rfl
  | resize s d =>
    simp only [step, World.step, World.withG]
    cases hg : w.g s with
    | none => rfl
    | some g => simp only [resize_eq hL hagg hsm (hslot s g hg)]
  | destroy s =>
    simp only [step, World.step, World.withG]
    cases hg : w.g s with
    | none => rfl
    | some g => simp only [dtor_eq hL hagg hsm (hslot s g hg)]; rfl
  | set s x y z cells =>
    obtain ⟨ag, has, hx, hy, hz⟩ := hpre
    obtain ⟨g, hg1, hg2⟩ := hR.grid has
    simp only [step, World.step, World.withG, hg1, Grid.set]
    rw [callbackMut_eq hg2 (fun e b he hb => ?_)]
    have hf := selectSizes_fits he
    exact setFunctor_eq hL hagg (hsm _ _ he) (by have := hf.1; omega) (by have := hf.2.1; omega) (by have := hf.2.2; omega)
      1 cells hb
  | broadcast s x y z cell n =>
    obtain ⟨ag, has, hx, hy, hz⟩ := hpre
    obtain ⟨g, hg1, hg2⟩ := hR.grid has
    simp only [step, World.step, World.withG, hg1, Grid.broadcast]
    rw [callbackMut_eq hg2 (fun e b he hb => ?_)]
    have hf := selectSizes_fits he
    exact setFunctor_eq hL hagg (hsm _ _ he) (by have := hf.1; omega) (by have := hf.2.1; omega) (by have := hf.2.2; omega)
      0 [cell] hb
  | get s x y z target =>
    obtain ⟨ag, has, hx, hy, hz⟩ := hpre
    obtain ⟨g, hg1, hg2⟩ := hR.grid has
    simp only [step, World.step, World.withG, hg1, Grid.get]
    rw [callbackRead_eq hg2 (fun e b he hb => ?_)]
    have hf := selectSizes_fits he
    exact getFunctor_eq hL hagg (hsm _ _ he) (by have := hf.1; omega) (by have := hf.2.1; omega) (by have := hf.2.2; omega)
      hb target
  | load s ss src n =>
    obtain ⟨ag, has, hin, hlen, rows, hrl, hpk⟩ := hpre
    obtain ⟨g, hg1, hg2⟩ := hR.grid has
    simp only [step, World.step, World.withG, hg1, Grid.load]
    rw [callbackMut_eq hg2 (fun e b he hb => ?_)]
    have hf := selectSizes_fits he
    rw [hb]
    refine loadFunctor_eq hL hagg (hsm _ _ he) (by rw [← structBytes_eq]; exact hpk.size) hfit.1 hfit.2 ss 0 b (fun st hst => ?_)
      (by rw [sum_len]; omega)
    obtain ⟨h1, h2, h3⟩ := hin st hst
    exact ⟨by have := hf.1; omega, by have := hf.2.1; omega, by have := hf.2.2; omega⟩
  | save s ss tgt n =>
    obtain ⟨ag, has, hin, hlen, hrr⟩ := hpre
    obtain ⟨g, hg1, hg2⟩ := hR.grid has
    simp only [step, World.step, World.withG, hg1, Grid.save]
    rw [callbackRead_eq hg2 (fun e b he hb => ?_)]
    have hf := selectSizes_fits he
    refine saveFunctor_eq hL hagg (hsm _ _ he) hb (by rw [← structBytes_eq]; exact hrr.size) hfit.1 hfit.2 ss 0 tgt
      (fun st hst => ?_) (by rw [sum_len]; omega)
    obtain ⟨h1, h2, h3⟩ := hin st hst
    exact ⟨by have := hf.1; omega, by have := hf.2.1; omega, by have := hf.2.2; omega⟩
  | poke s x y z X Y Z r k v =>
    obtain ⟨ag, m, has, hm, hk, q1, q2, q3, q4, q5, q6⟩ := hpre
    obtain ⟨g, hg1, hg2⟩ := hR.grid has
    obtain ⟨p1, p2, p3, p4, p5, p6⟩ := hfit ag has
    simp only [step, World.step, World.withG, hg1]
    rw [callbackMut_eq hg2 (fun e b he hb => ?_)]
    have hf := selectSizes_fits he
    obtain ⟨f1, f2, f3⟩ := hf
    have := userRef_ok hL hagg (hsm _ _ he) (x := x) (y := y) (z := z) (X := X) (Y := Y) (Z := Z)
      ⟨by omega, by omega, by omega, by omega, by omega, by omega, by omega, by omega, by omega, by omega, by omega, by omega⟩
      hm hk
    simp only [pokeFunctor, LFA.pokeFunctor, hm, hb, this, chk]
  | peek s x y z X Y Z r k =>
    obtain ⟨ag, m, has, hm, hk, q1, q2, q3, q4, q5, q6⟩ := hpre
    obtain ⟨g, hg1, hg2⟩ := hR.grid has
    obtain ⟨p1, p2, p3, p4, p5, p6⟩ := hfit ag has
    simp only [step, World.step, World.withG, hg1]
    rw [callbackRead_eq hg2 (fun e b he hb => ?_)]
    have hf := selectSizes_fits he
    obtain ⟨f1, f2, f3⟩ := hf
    have := userRef_ok hL hagg (hsm _ _ he) (x := x) (y := y) (z := z) (X := X) (Y := Y) (Z := Z)
      ⟨by omega, by omega, by omega, by omega, by omega, by omega, by omega, by omega, by omega, by omega, by omega, by omega⟩
      hm hk
    simp only [peekFunctor, LFA.peekFunctor, hm, hb, this, chk]
  | dims s => rfl
  | extents s => rfl
  | byteSize s => rfl

end
end LFA.Mach
